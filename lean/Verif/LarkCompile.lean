import Verif.LarkGrammar
/-
Compiling rules in extended Backus-Naur form to plain rules (Lark's load_grammar.py: EBNF_to_BNF,
SimplifyRule_Visitor, Grammar.compile; parse_tree_builder.py: maybe_create_child_filter).
-/
namespace Pycep.Lark

/-- A helper rule: it derives one or more times the expression `body`. -/
structure Helper where
  body : Ebnf
  id : Nat
  name : List Char
  deriving DecidableEq, Repr

/-- The number of the helper rule of an expression (bicep.lark:1, 50, 83, 96). -/
def helperId (H : List Helper) (e : Ebnf) : Option Nat := (H.find? (·.body == e)).map (·.id)

/-- Add a helper rule unless the expression has one already; helper rules are numbered from 190 and
named after the rule and the mark with which the expression first occurs. -/
def addHelper (rule : List Char) (mark : List Char) (e : Ebnf) (H : List Helper) : List Helper :=
  if H.any (·.body == e) then H
  else H ++ [⟨e, 190 + H.length,
    ['_', '_'] ++ rule ++ ['_'] ++ mark ++ ['_'] ++ Nat.toDigits 10 H.length⟩]

/-- The helper rules needed by an expression, inner ones first (bicep.lark:1, 50, 83, 96). -/
def Ebnf.helpers (rule : List Char) : Ebnf → List Helper → List Helper
  | .tok _ _, H | .rule _, H | .eps, H => H
  | .cat a b, H | .alt a b, H => b.helpers rule (a.helpers rule H)
  | .opt a, H | .maybe a, H => a.helpers rule H
  | .plus a, H => addHelper rule ['p', 'l', 'u', 's'] a (a.helpers rule H)
  | .star a, H => addHelper rule ['s', 't', 'a', 'r'] a (a.helpers rule H)

/-- All helper rules of a grammar (bicep.lark:1-169). -/
def allHelpers (G : List RuleDef) : List Helper :=
  G.foldl (fun H d => d.alts.foldl (fun H a => a.1.helpers d.name H) H) []

/-- What an alternative consists of (bicep.lark:1-169). -/
inductive Item where
  | tok (t : Nat) (keep : Bool)
  | rule (n : Nat)
  /-- the place of an absent `[...]` -/
  | none
  deriving DecidableEq, Repr

/-- Number of children of an expression, hence number of `None`s that stand for `[...]`
(`EBNF_to_BNF.maybe`: children that are dropped and children of rules whose name begins with `_`
do not count). -/
def Ebnf.size (G : List RuleDef) : Ebnf → Nat
  | .tok _ keep => if keep then 1 else 0
  | .rule n => if G.any fun d => d.id == n && d.inline then 0 else 1
  | .eps => 0
  | .cat a b => a.size G + b.size G
  | .alt a b => max (a.size G) (b.size G)
  | .opt a | .maybe a => a.size G
  | .plus _ | .star _ => 0

/-- The alternatives of an expression (bicep.lark:1-169). -/
def Ebnf.flat (G : List RuleDef) (H : List Helper) : Ebnf → Option (List (List Item))
  | .tok t keep => some [[.tok t keep]]
  | .rule n => some [[.rule n]]
  | .eps => some [[]]
  | .cat a b => do
    let xs ← a.flat G H
    let ys ← b.flat G H
    some (xs.flatMap fun x => ys.map fun y => x ++ y)
  | .alt a b => do
    let xs ← a.flat G H
    let ys ← b.flat G H
    some (xs ++ ys)
  | .opt a => do
    let xs ← a.flat G H
    some (xs ++ [[]])
  | .maybe a => do
    let xs ← a.flat G H
    some (xs ++ [List.replicate (a.size G) .none])
  | .plus a => (helperId H a).map fun h => [[.rule h]]
  | .star a => (helperId H a).map fun h => [[.rule h], []]

/-- Leave out repeated elements (`EBNF_to_BNF`, `SimplifyRule_Visitor`; bicep.lark:1-169). -/
def dedup {α} [DecidableEq α] : List α → List α → List α
  | _, [] => []
  | seen, x :: xs => if x ∈ seen then dedup seen xs else x :: dedup (x :: seen) xs

/-- Symbol numbers of an alternative (bicep.lark:1-169). -/
def symbols : List Item → List Nat
  | [] => []
  | .tok t _ :: xs => t :: symbols xs
  | .rule n :: xs => n :: symbols xs
  | .none :: xs => symbols xs

/-- Which children are kept, from position `pos` on, if `nones` placeholders are due. -/
def keptFrom (inl : Nat → Bool) : List Item → Nat → Nat → List (Nat × Bool × Nat) × Nat
  | [], _, nones => ([], nones)
  | .none :: xs, pos, nones => keptFrom inl xs pos (nones + 1)
  | .tok _ keep :: xs, pos, nones =>
    if keep then
      let (ks, t) := keptFrom inl xs (pos + 1) 0
      ((pos, false, nones) :: ks, t)
    else keptFrom inl xs (pos + 1) nones
  | .rule n :: xs, pos, nones =>
    let (ks, t) := keptFrom inl xs (pos + 1) 0
    ((pos, inl n, nones) :: ks, t)

/-- A plain rule with the name of its node as a list of characters (bicep.lark:1-169). -/
structure CRule where
  lhs : Nat
  rhs : List Nat
  name : List Char
  expand1 : Bool
  keep : List (Nat × Bool × Nat)
  tailNones : Nat
  deriving DecidableEq, Repr

/-- The rule as the tree builder uses it (bicep.lark:1-169). -/
def CRule.rule (r : CRule) : Rule :=
  ⟨r.lhs, r.rhs, String.ofList r.name, r.expand1, r.keep, r.tailNones⟩

/-- The plain rule of an alternative (bicep.lark:1-169). -/
def plainRule (inl : Nat → Bool) (lhs : Nat) (name : List Char) (expand1 : Bool) (x : List Item) :
    CRule :=
  ⟨lhs, symbols x, name, expand1, (keptFrom inl x 0 0).1, (keptFrom inl x 0 0).2⟩

/-- The plain rules of a rule (bicep.lark:1-169). -/
def compileRule (G : List RuleDef) (inl : Nat → Bool) (H : List Helper) (d : RuleDef) : Option (List CRule) := do
  let alts ← d.alts.mapM fun (e, al) => (e.flat G H).map fun xs => xs.map fun x => (x, al)
  some ((dedup [] alts.flatten).map fun (x, al) =>
    plainRule inl d.id (al.getD d.name) (d.expand1 && al.isNone) x)

/-- The plain rules of a helper rule `h`: `h : body | h body`. -/
def compileHelper (G : List RuleDef) (inl : Nat → Bool) (H : List Helper) (h : Helper) : Option (List CRule) := do
  let xs ← h.body.flat G H
  some ((dedup [] (xs ++ xs.map fun x => .rule h.id :: x)).map (plainRule inl h.id h.name false))

/-- Children of these rules take the place of the node: those whose name begins with `_`
(bicep.lark:32, 34). -/
def inlined (G : List RuleDef) (H : List Helper) (n : Nat) : Bool :=
  G.any (fun d => d.id == n && d.inline) || H.any (·.id == n)

/-- All plain rules of a grammar.  (`Grammar.compile` also drops rules that cannot be reached and a
repeated empty alternative; bicep.lark has neither.) -/
def compile (G : List RuleDef) : Option (List CRule) := do
  let H := allHelpers G
  let inl := inlined G H
  let rs ← G.mapM (compileRule G inl H)
  let hs ← H.mapM (compileHelper G inl H)
  some (rs.flatten ++ hs.flatten)

end Pycep.Lark
