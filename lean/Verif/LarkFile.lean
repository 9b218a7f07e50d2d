import Verif.LarkText
import Verif.Tree
/-
Reading the grammar file: the notation of Lark grammar files (Lark's load_grammar.py), as far as
pycep/bicep.lark uses it.  Anything outside that part of the notation makes the reader fail.
-/
namespace Pycep.Lark

/-! ### Words of the notation -/

/-- A word of a grammar file (bicep.lark:1-195). -/
inductive GTok where
  /-- a rule or terminal name, possibly with the modifiers `?` and `!` in front -/
  | name (s : List Char)
  /-- `"..."` -/
  | str (s : List Char)
  /-- `/.../` -/
  | re (s : List Char)
  /-- `->` -/
  | arrow
  /-- `..` -/
  | dots
  /-- a number -/
  | num (n : Nat)
  /-- one of `( ) [ ] | : . ~ + * ? %` -/
  | op (c : Char)
  /-- the end of a line -/
  | nl
  deriving DecidableEq, Repr

/-- Letters, digits and `_`, the characters of names (bicep.lark:1-195). -/
def isNameChar (c : Char) : Bool := c.isAlphanum || c == '_'

/-- The marks of the notation (bicep.lark:1-195). -/
def isOp (c : Char) : Bool := ['(', ')', '[', ']', '|', ':', '.', '~', '+', '*', '?', '%'].contains c

/-- The text of a string up to the closing `"`; the file has no backslashes in strings. -/
def lexStr : List Char → Option (List Char × List Char)
  | [] => none
  | '"' :: cs => some ([], cs)
  | '\\' :: _ => none
  | c :: cs => (lexStr cs).map fun (s, r) => (c :: s, r)

/-- The text of a regular expression up to the closing `/`; `\/` stands for `/`, every other
backslash belongs to the expression. -/
def lexRe : List Char → Option (List Char × List Char)
  | [] => none
  | '/' :: cs => some ([], cs)
  | '\\' :: '/' :: cs => (lexRe cs).map fun (s, r) => ('/' :: s, r)
  | '\\' :: c :: cs => (lexRe cs).map fun (s, r) => ('\\' :: c :: s, r)
  | c :: cs => (lexRe cs).map fun (s, r) => (c :: s, r)

/-- Decimal value of a list of digits (bicep.lark:95, 100, 156, 179). -/
def digitsVal (ds : List Char) : Nat := ds.foldl (fun n c => 10 * n + (c.toNat - 48)) 0

/-- The words of a text; the number bounds the words still to be read.  Blanks and `//` comments
separate words. -/
def lexG : Nat → List Char → Option (List GTok)
  | _, [] => some []
  | 0, _ => none
  | n + 1, ' ' :: cs => lexG n cs
  | n + 1, '\n' :: cs => (lexG n cs).map (.nl :: ·)
  | n + 1, '/' :: '/' :: cs => lexG n (cs.dropWhile (· != '\n'))
  | n + 1, '/' :: cs => do
    let (s, cs) ← lexRe cs
    (lexG n cs).map (.re s :: ·)
  | n + 1, '"' :: cs => do
    let (s, cs) ← lexStr cs
    (lexG n cs).map (.str s :: ·)
  | n + 1, '-' :: '>' :: cs => (lexG n cs).map (.arrow :: ·)
  | n + 1, '.' :: '.' :: cs => (lexG n cs).map (.dots :: ·)
  | n + 1, c :: cs =>
    if c.isDigit then
      (lexG n (cs.dropWhile Char.isDigit)).map (.num (digitsVal (c :: cs.takeWhile Char.isDigit)) :: ·)
    else
      let mods := (c :: cs).takeWhile fun c => c == '?' || c == '!'
      let rest := (c :: cs).dropWhile fun c => c == '?' || c == '!'
      let word := rest.takeWhile isNameChar
      if word.isEmpty then
        if isOp c then (lexG n cs).map (.op c :: ·) else none
      else (lexG n (rest.dropWhile isNameChar)).map (.name (mods ++ word) :: ·)

/-! ### Statements -/

/-- A line that begins with `|` continues the line before it (bicep.lark:4-13, 16-26, 110). -/
def joinBars : List GTok → List GTok
  | [] => []
  | .nl :: ts =>
    match joinBars ts with
    | .op '|' :: r => .op '|' :: r
    | r => .nl :: r
  | t :: ts => t :: joinBars ts

/-- The statements: the non-empty stretches between ends of line (bicep.lark:1-195). -/
def statements (ts : List GTok) : List (List GTok) :=
  (ts.splitOnP (· == .nl)).filter (!·.isEmpty)

/-! ### Expressions -/

/-- An expression of the notation, as written (bicep.lark:1-184). -/
inductive Src where
  | str (s : List Char)
  | re (s : List Char)
  | name (s : List Char)
  /-- `"a".."b"` -/
  | range (a b : Char)
  /-- nothing -/
  | eps
  /-- one after the other -/
  | cat (a b : Src)
  /-- `a | b` -/
  | alt (a b : Src)
  /-- `a?` -/
  | opt (a : Src)
  /-- `[a]` -/
  | maybe (a : Src)
  /-- `a+` -/
  | plus (a : Src)
  /-- `a*` -/
  | star (a : Src)
  /-- `a~m..n` -/
  | rep (a : Src) (m n : Nat)
  deriving DecidableEq, Repr

/-- Repetition marks behind an expression (for example bicep.lark:1, 54, 56, 95). -/
def marked (a : Src) : List GTok → Src × List GTok
  | .op '?' :: ts => (.opt a, ts)
  | .op '+' :: ts => (.plus a, ts)
  | .op '*' :: ts => (.star a, ts)
  | .op '~' :: .num m :: .dots :: .num n :: ts => (.rep a m n, ts)
  | .op '~' :: .num m :: ts => (.rep a m m, ts)
  | ts => (a, ts)

mutual
/-- Alternatives separated by `|` (for example bicep.lark:1, 28, 32). -/
def readAlts : Nat → List GTok → Option (Src × List GTok)
  | 0, _ => none
  | n + 1, ts => do
    let (a, ts) ← readSeq n ts
    match ts with
    | .op '|' :: ts => do
      let (b, ts) ← readAlts n ts
      some (.alt a b, ts)
    | _ => some (a, ts)
/-- A sequence of expressions (for example bicep.lark:67). -/
def readSeq : Nat → List GTok → Option (Src × List GTok)
  | 0, _ => none
  | n + 1, ts =>
    match readOne n ts with
    | none => some (.eps, ts)
    | some (a, ts) => do
      let (b, ts) ← readSeq n ts
      some (if b = .eps then a else .cat a b, ts)
/-- A single expression with its repetition mark (for example bicep.lark:7, 83). -/
def readOne : Nat → List GTok → Option (Src × List GTok)
  | 0, _ => none
  | n + 1, ts =>
    match ts with
    | .str [a] :: .dots :: .str [b] :: ts => some (marked (.range a b) ts)
    | .str s :: ts => some (marked (.str s) ts)
    | .re s :: ts => some (marked (.re s) ts)
    | .name s :: ts => some (marked (.name s) ts)
    | .op '(' :: ts =>
      match readAlts n ts with
      | some (a, .op ')' :: ts) => some (marked a ts)
      | _ => none
    | .op '[' :: ts =>
      match readAlts n ts with
      | some (a, .op ']' :: ts) => some (marked (.maybe a) ts)
      | _ => none
    | _ => none
end

/-- The alternatives of a definition, each with the name behind `->`; the expressions must use up
the statement. -/
def readBody : Nat → List GTok → Option (List (Src × Option (List Char)))
  | 0, _ => none
  | n + 1, ts => do
    let (a, ts) ← readSeq ts.length.succ ts
    let (al, ts) := match ts with
      | .arrow :: .name x :: ts => (some x, ts)
      | _ => (none, ts)
    match ts with
    | [] => some [(a, al)]
    | .op '|' :: ts => (readBody n ts).map ((a, al) :: ·)
    | _ => none

/-- A statement of a grammar file (bicep.lark:1-195). -/
inductive Stmt where
  /-- the definition of a rule or a terminal: modifiers, name, priority, alternatives -/
  | define (mods : List Char) (name : List Char) (prio : Nat)
      (alts : List (Src × Option (List Char)))
  /-- `%import common.X` -/
  | import (x : List Char)
  /-- `%ignore X` -/
  | ignore (x : List Char)
  deriving DecidableEq, Repr

/-- One statement (bicep.lark:1-195). -/
def readStmt : List GTok → Option Stmt
  | [.op '%', .name kw, .name lib, .op '.', .name x] =>
    if kw = ['i', 'm', 'p', 'o', 'r', 't'] ∧ lib = ['c', 'o', 'm', 'm', 'o', 'n'] then some (.import x) else none
  | [.op '%', .name kw, .name x] => if kw = ['i', 'g', 'n', 'o', 'r', 'e'] then some (.ignore x) else none
  | .name x :: ts =>
    let isMod := fun c => c == '?' || c == '!'
    let (prio, ts) := match ts with
      | .op '.' :: .num n :: ts => (n, ts)
      | _ => (0, ts)
    match ts with
    | .op ':' :: ts =>
      (readBody ts.length.succ ts).map (.define (x.takeWhile isMod) (x.dropWhile isMod) prio)
    | _ => none
  | _ => none

/-- The statements of a file given by its lines (bicep.lark:1-195). -/
def readFile (lines : List (List Char)) : Option (List Stmt) := do
  let cs := lines.flatMap fun l => l ++ ['\n']
  let ts ← lexG cs.length cs
  (statements (joinBars ts)).mapM readStmt

end Pycep.Lark
