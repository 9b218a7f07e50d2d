import Verif.LarkGrammar
import Verif.Tree
/-
Specification: which trees a Lark grammar in extended Backus-Naur form assigns to a sequence of
tokens, following Lark's documentation ("Grammar Reference", "Tree Construction Reference").
Nothing here knows how rules are expanded to plain rules or how texts are parsed.
-/
namespace Pycep

mutual
/-- A tree without the line numbers. -/
def Tree.bare : Tree → Tree
  | .tok t => .tok t
  | .none => .none
  | .node d ks _ => .node d (Tree.bareL ks) .none
/-- Trees without the line numbers. -/
def Tree.bareL : List Tree → List Tree
  | [] => []
  | t :: ts => t.bare :: Tree.bareL ts
end

namespace Lark

/-- How many children an expression contributes to a tree, if its parts are there: kept tokens and
rules that are not inlined; the largest number counts among alternatives, repetitions do not. -/
def Ebnf.children (G : List RuleDef) : Ebnf → Nat
  | .tok _ keep => if keep then 1 else 0
  | .rule n => if ∃ d ∈ G, d.id = n ∧ d.inline = true then 0 else 1
  | .eps => 0
  | .cat a b => a.children G + b.children G
  | .alt a b => max (a.children G) (b.children G)
  | .opt a => a.children G
  | .maybe a => a.children G
  | .plus _ => 0
  | .star _ => 0

/-- What becomes of the children of a rule: they take the place of the node if the name of the rule
begins with `_`; a single child takes the place of the node of a `?rule` without `->`; otherwise
there is a node with the name behind `->`, or else that of the rule. -/
def RuleDef.result (d : RuleDef) (al : Option (List Char)) (kids : List Tree) : List Tree :=
  if d.inline then kids
  else match d.expand1, al, kids with
    | true, .none, [k] => [k]
    | _, _, _ => [.node (String.ofList (al.getD d.name)) kids .none]

/-- `Yields G e kids w`: the expression `e` matches the tokens `w` and contributes the children
`kids` (without line numbers). -/
inductive Yields (G : List RuleDef) : Ebnf → List Tree → List Tok → Prop where
  | kept (u : Tok) : Yields G (.tok u.type true) [.tok u] [u]
  | dropped (u : Tok) : Yields G (.tok u.type false) [] [u]
  | rule {d e al kids w} : d ∈ G → (e, al) ∈ d.alts → Yields G e kids w →
      Yields G (.rule d.id) (d.result al kids) w
  | eps : Yields G .eps [] []
  | cat {a b ks₁ ks₂ w₁ w₂} : Yields G a ks₁ w₁ → Yields G b ks₂ w₂ →
      Yields G (.cat a b) (ks₁ ++ ks₂) (w₁ ++ w₂)
  | left {a b ks w} : Yields G a ks w → Yields G (.alt a b) ks w
  | right {a b ks w} : Yields G b ks w → Yields G (.alt a b) ks w
  | optNot {a} : Yields G (.opt a) [] []
  | opt {a ks w} : Yields G a ks w → Yields G (.opt a) ks w
  /-- an absent `[a]` leaves `None`s behind -/
  | maybeNot {a} : Yields G (.maybe a) (List.replicate (a.children G) .none) []
  | maybe {a ks w} : Yields G a ks w → Yields G (.maybe a) ks w
  | one {a ks w} : Yields G a ks w → Yields G (.plus a) ks w
  | more {a ks₁ ks₂ w₁ w₂} : Yields G (.plus a) ks₁ w₁ → Yields G a ks₂ w₂ →
      Yields G (.plus a) (ks₁ ++ ks₂) (w₁ ++ w₂)
  | starNot {a} : Yields G (.star a) [] []
  | star {a ks w} : Yields G (.plus a) ks w → Yields G (.star a) ks w

/-- `Assigns file lib w tree`: the grammar file with the lines `file`, importing from one with the
lines `lib`, makes `tree` of the tokens `w`.  Token types are positions in its list of terminals. -/
def Assigns (file lib : List (List Char)) (w : List Tok) (tree : Tree) : Prop :=
  ∃ ss cs terms G d, readFile file = some ss ∧ readFile lib = some cs ∧
    loadTerms ss cs = some terms ∧ loadRules terms ss = some G ∧
    d ∈ G ∧ d.name = ['s', 't', 'a', 'r', 't'] ∧ Yields G (.rule d.id) [tree] w

end Lark
end Pycep
