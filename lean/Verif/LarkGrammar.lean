import Verif.LarkFile
import Verif.LarkRegex
/-
What a grammar file defines: its terminals, in the order in which Lark's lexer tries them, and its
rules in extended Backus-Naur form (Lark's load_grammar.py: GrammarBuilder, PrepareAnonTerminals,
TerminalTreeToPattern; lexer.py: BasicLexer.__init__).
-/
namespace Pycep.Lark

/-! ### Terminals -/

/-- A pattern: a plain string or a regular expression (bicep.lark:173-184, and in rules). -/
inductive Pat where
  | str (s : List Char)
  | re (s : List Char)
  deriving DecidableEq, Repr

/-- Lark's common.lark, the definitions behind the imports of bicep.lark:186-191.  That file is
part of Lark, not of /repo. -/
def commonChars : List (List Char) := [
  -- C_COMMENT: "/*" /(.|\n)*?/ "*/"
  ['C','_','C','O','M','M','E','N','T',':','"','/','*','"','/','(','.','|','\\','n',')','*','?','/',
   '"','*','/','"'],
  -- CPP_COMMENT: /\/\/[^\n]*/
  ['C','P','P','_','C','O','M','M','E','N','T',':','/','\\','/','\\','/','[','^','\\','n',']','*','/'],
  -- SH_COMMENT: /#[^\n]*/
  ['S','H','_','C','O','M','M','E','N','T',':','/','#','[','^','\\','n',']','*','/'],
  -- DIGIT: "0".."9"
  ['D','I','G','I','T',':','"','0','"','.','.','"','9','"'],
  -- INT: DIGIT+
  ['I','N','T',':','D','I','G','I','T','+'],
  -- CR: /\r/
  ['C','R',':','/','\\','r','/'],
  -- LF: /\n/
  ['L','F',':','/','\\','n','/'],
  -- NEWLINE: (CR? LF)+
  ['N','E','W','L','I','N','E',':','(','C','R','?',' ','L','F',')','+'],
  -- WS_INLINE: (" "|/\t/)+
  ['W','S','_','I','N','L','I','N','E',':','(','"',' ','"','|','/','\\','t','/',')','+']]

/-- Terminal names are in upper case (bicep.lark:100, 173-184). -/
def isTermName (n : List Char) : Bool := n.all fun c => !c.isLower

/-- The terminal definitions among some statements: name, priority, alternatives
(bicep.lark:100, 173-184). -/
def termDefs : List Stmt → List (List Char × Nat × List Src)
  | [] => []
  | .define _ n p alts :: ss =>
    if isTermName n then (n, p, alts.map (·.1)) :: termDefs ss else termDefs ss
  | _ :: ss => termDefs ss

/-- `re.escape` (for the strings in bicep.lark:100, 176, 181). -/
def reEscape (s : List Char) : List Char :=
  s.flatMap fun c =>
    if ['(', ')', '[', ']', '{', '}', '?', '*', '+', '-', '|', '^', '$', '\\', '.', '&', '~', '#',
        ' ', '\t', '\n', '\r'].contains c then ['\\', c] else [c]

/-- The pattern as a regular expression (bicep.lark:100, 173-184). -/
def Pat.source : Pat → List Char
  | .str s => reEscape s
  | .re s => s

/-- The string or the text of the regular expression (bicep.lark:100, 173-184). -/
def Pat.value : Pat → List Char
  | .str s => s
  | .re s => s

/-- Least and greatest length of what the pattern matches (bicep.lark:100, 173-184). -/
def Pat.width : Pat → Option (Nat × Option Nat)
  | .str s => some (s.length, some s.length)
  | .re s => (readRx s).map (·.width)

/-- Comparison of greatest lengths, where `none` is "unbounded". -/
def cmpBound : Option Nat → Option Nat → Ordering
  | none, none => .eq
  | none, some _ => .gt
  | some _, none => .lt
  | some a, some b => compare a b

/-- Insertion behind all elements that do not come after the new one. -/
def insertBy {α} (lt : α → α → Bool) (x : α) : List α → List α
  | [] => [x]
  | y :: ys => if lt x y then x :: y :: ys else y :: insertBy lt x ys

/-- Stable sorting. -/
def sortBy {α} (lt : α → α → Bool) (l : List α) : List α := l.foldl (fun acc x => insertBy lt x acc) []

/-- The alternatives of a terminal are tried longest first
(`TerminalTreeToPattern.expansions`). -/
def altBefore (a b : Pat × Nat × Option Nat) : Bool :=
  ((cmpBound b.2.2 a.2.2).then ((compare b.2.1 a.2.1).then
    (compare b.1.value.length a.1.value.length))) == .lt

/-- Several patterns as alternatives (bicep.lark:181). -/
def joinAlts (ps : List Pat) : Option Pat :=
  match ps with
  | [p] => some p
  | ps => do
    let ws ← ps.mapM fun p => p.width.map fun w => (p, w)
    let srcs := (sortBy altBefore ws).map fun x => x.1.source
    some (.re (['(', '?', ':'] ++ (List.intercalate ['|'] srcs) ++ [')']))

/-- Terminal definitions, by name. -/
abbrev TermTable := List (List Char × Nat × List Src)

mutual
/-- The pattern of an expression (`TerminalTreeToPattern`). -/
def patOf (tbl : TermTable) : Nat → Src → Option Pat
  | 0, _ => none
  | n + 1, e =>
    match e with
    | .str s => some (.str s)
    | .re s => some (.re s)
    | .range a b => some (.re ['[', a, '-', b, ']'])
    | .name x => do
      let (_, _, alts) ← tbl.find? (·.1 == x)
      joinAlts (← patsOf tbl n alts)
    | .cat a b => do
      let a ← patOf tbl n a
      let b ← patOf tbl n b
      some (.re (a.source ++ b.source))
    | .alt a b => do joinAlts (← patAlts tbl n (.alt a b))
    | .maybe a | .opt a => do
      let a ← patOf tbl n a
      some (.re (['(', '?', ':'] ++ a.source ++ [')', '?']))
    | .plus a => do
      let a ← patOf tbl n a
      some (.re (['(', '?', ':'] ++ a.source ++ [')', '+']))
    | .star _ | .eps | .rep _ _ _ => none
/-- The patterns of several expressions. -/
def patsOf (tbl : TermTable) : Nat → List Src → Option (List Pat)
  | 0, _ => none
  | _ + 1, [] => some []
  | n + 1, e :: es => do
    let p ← patOf tbl n e
    let ps ← patsOf tbl n es
    some (p :: ps)
/-- The patterns of the alternatives of an expression. -/
def patAlts (tbl : TermTable) : Nat → Src → Option (List Pat)
  | 0, _ => none
  | n + 1, .alt a b => do
    let p ← patOf tbl n a
    let ps ← patAlts tbl n b
    some (p :: ps)
  | n + 1, e => do
    let p ← patOf tbl n e
    some [p]
end

/-- A terminal (`lark.lexer.TerminalDef`). -/
structure TermDef where
  name : List Char
  prio : Nat
  pat : Pat
  deriving DecidableEq, Repr

/-- Names of anonymous one-character tokens (`load_grammar._TERMINAL_NAMES`), as far as needed. -/
def markNames : List (Char × List Char) := [
  ('.', ['D','O','T']), (',', ['C','O','M','M','A']), (':', ['C','O','L','O','N']),
  ('+', ['P','L','U','S']), ('-', ['M','I','N','U','S']), ('*', ['S','T','A','R']),
  ('/', ['S','L','A','S','H']), ('|', ['V','B','A','R']), ('?', ['Q','M','A','R','K']),
  ('!', ['B','A','N','G']), ('@', ['A','T']), ('%', ['P','E','R','C','E','N','T']),
  ('<', ['L','E','S','S','T','H','A','N']), ('>', ['M','O','R','E','T','H','A','N']),
  ('=', ['E','Q','U','A','L']), ('(', ['L','P','A','R']), (')', ['R','P','A','R']),
  ('{', ['L','B','R','A','C','E']), ('}', ['R','B','R','A','C','E']),
  ('[', ['L','S','Q','B']), (']', ['R','S','Q','B'])]

/-- The name of an anonymous token; `k` counts the tokens that have no name of their own. -/
def anonName (taken : List TermDef) (k : Nat) (p : Pat) : List Char × Nat :=
  let own : Option (List Char) := match p with
    | .str [c] => (markNames.find? (·.1 == c)).map (·.2)
    | .str s => if s.all isNameChar then some (s.map Char.toUpper) else none
    | .re _ => none
  match own with
  | some n => if taken.any (·.name == n) then (['_','_','A','N','O','N','_'] ++ Nat.toDigits 10 k, k + 1) else (n, k)
  | none => (['_','_','A','N','O','N','_'] ++ Nat.toDigits 10 k, k + 1)

/-- The patterns and terminal names an expression mentions, from left to right
(bicep.lark:1-169). -/
def Src.mentions : Src → List (Pat ⊕ List Char)
  | .str s => [.inl (.str s)]
  | .re s => [.inl (.re s)]
  | .name n => if isTermName n then [.inr n] else []
  | .range _ _ | .eps => []
  | .cat a b | .alt a b => a.mentions ++ b.mentions
  | .opt a | .maybe a | .plus a | .star a | .rep a _ _ => a.mentions

/-- Add a terminal for every pattern that has none yet (bicep.lark:1-169). -/
def addAnon : List (Pat ⊕ List Char) → Nat → List TermDef → List TermDef
  | [], _, ts => ts
  | .inr _ :: ms, k, ts => addAnon ms k ts
  | .inl p :: ms, k, ts =>
    if ts.any (·.pat == p) then addAnon ms k ts
    else
      let (n, k) := anonName ts k p
      addAnon ms k (ts ++ [⟨n, 0, p⟩])

/-- Order of names: that of Python strings. -/
def nameCmp : List Char → List Char → Ordering
  | [], [] => .eq
  | [], _ :: _ => .lt
  | _ :: _, [] => .gt
  | a :: as, b :: bs => (compare a.toNat b.toNat).then (nameCmp as bs)

/-- The order in which the lexer tries terminals: priority, greatest length of a match, length of
the pattern, name (`BasicLexer.__init__`). -/
def termBefore (a b : TermDef × Nat × Option Nat) : Bool :=
  ((compare b.1.prio a.1.prio).then ((cmpBound b.2.2 a.2.2).then
    ((compare b.1.pat.value.length a.1.pat.value.length).then (nameCmp a.1.name b.1.name)))) == .lt

/-- The rule definitions among some statements: modifiers, name, alternatives (bicep.lark:1-169). -/
def ruleDefs : List Stmt → List (List Char × List Char × List (Src × Option (List Char)))
  | [] => []
  | .define m n _ alts :: ss =>
    if isTermName n then ruleDefs ss else (m, n, alts) :: ruleDefs ss
  | _ :: ss => ruleDefs ss

/-- The terminals named by `%ignore` (bicep.lark:193-195). -/
def ignored : List Stmt → List (List Char)
  | [] => []
  | .ignore x :: ss => x :: ignored ss
  | _ :: ss => ignored ss

/-- The terminals of a grammar: those its rules mention and those it ignores (bicep.lark:1-195). -/
def loadTerms (ss common : List Stmt) : Option (List TermDef) := do
  let tbl := termDefs ss ++ termDefs common
  let named ← tbl.mapM fun (n, p, alts) => do
    let ps ← patsOf tbl 40 alts
    some ⟨n, p, ← joinAlts ps⟩
  let ms := (ruleDefs ss).flatMap fun (_, _, alts) => alts.flatMap fun a => a.1.mentions
  let all := addAnon ms 0 named
  let used := all.filter fun t =>
    ms.any (fun m => m == .inl t.pat || m == .inr t.name) || (ignored ss).contains t.name
  let ws ← used.mapM fun t => t.pat.width.map fun w => (t, w)
  some ((sortBy termBefore ws).map (·.1))

/-! ### Rules -/

/-- An expression in extended Backus-Naur form over symbol numbers (bicep.lark:1-169). -/
inductive Ebnf where
  /-- a token; `keep` is false if it does not become part of the tree -/
  | tok (t : Nat) (keep : Bool)
  /-- a rule -/
  | rule (n : Nat)
  | eps
  | cat (a b : Ebnf)
  | alt (a b : Ebnf)
  /-- `a?` -/
  | opt (a : Ebnf)
  /-- `[a]` -/
  | maybe (a : Ebnf)
  /-- `a+` -/
  | plus (a : Ebnf)
  /-- `a*` -/
  | star (a : Ebnf)
  deriving DecidableEq, Repr

/-- `n` times the same (bicep.lark:95). -/
def Ebnf.times (a : Ebnf) : Nat → Ebnf
  | 0 => .eps
  | 1 => a
  | n + 2 => .cat a (Ebnf.times a (n + 1))

/-- `a~m..(m+k)` (bicep.lark:95). -/
def Ebnf.rep (a : Ebnf) (m : Nat) : Nat → Ebnf
  | 0 => a.times m
  | k + 1 => .alt (a.times m) (Ebnf.rep a (m + 1) k)

/-- A rule of the grammar (bicep.lark:1-169). -/
structure RuleDef where
  /-- its symbol number -/
  id : Nat
  name : List Char
  /-- `?name`: a single child takes the place of the node -/
  expand1 : Bool
  /-- `_name`: the children take the place of the node -/
  inline : Bool
  /-- the alternatives with the names behind `->` -/
  alts : List (Ebnf × Option (List Char))
  deriving DecidableEq, Repr

/-- Symbol numbers instead of names and patterns.  In a rule marked `!` (`keepAll`) every token is
kept; elsewhere tokens written as strings and terminals whose name begins with `_` are dropped. -/
def resolve (terms : List TermDef) (rules : List (List Char)) (keepAll : Bool) : Src → Option Ebnf
  | .str s => (terms.findIdx? (·.pat == .str s)).map (.tok · keepAll)
  | .re s => (terms.findIdx? (·.pat == .re s)).map (.tok · true)
  | .name n =>
    if isTermName n then
      (terms.findIdx? (·.name == n)).map (.tok · (keepAll || n.head? != some '_'))
    else (rules.findIdx? (· == n)).map fun i => .rule (128 + i)
  | .range _ _ => none
  | .eps => some .eps
  | .cat a b => do some (.cat (← resolve terms rules keepAll a) (← resolve terms rules keepAll b))
  | .alt a b => do some (.alt (← resolve terms rules keepAll a) (← resolve terms rules keepAll b))
  | .opt a => do some (.opt (← resolve terms rules keepAll a))
  | .maybe a => do some (.maybe (← resolve terms rules keepAll a))
  | .plus a => do some (.plus (← resolve terms rules keepAll a))
  | .star a => do some (.star (← resolve terms rules keepAll a))
  | .rep a m n => do
    if m ≤ n then some (Ebnf.rep (← resolve terms rules keepAll a) m (n - m)) else none

/-- The rules of a grammar; they are numbered from 128 in the order of the file. -/
def loadRules (terms : List TermDef) (ss : List Stmt) : Option (List RuleDef) :=
  let defs := ruleDefs ss
  let names := defs.map fun d => d.2.1
  (defs.zipIdx 128).mapM fun ((mods, n, alts), i) => do
    let alts ← alts.mapM fun (e, al) => do
      some (← resolve terms names (mods.contains '!') e, al)
    some ⟨i, n, mods.contains '?', n.head? == some '_', alts⟩

end Pycep.Lark
