import Verif.Tree
/-
Brackets: which ones a sequence of tokens contains, and when they match.
-/
namespace Pycep

/-- the pairs of brackets of the language -/
def bracketPairs : List (Char × Char) := [('(', ')'), ('[', ']'), ('{', '}')]

/-- an opening or closing bracket -/
def isBracket (c : Char) : Bool := bracketPairs.any (fun p => c == p.1 || c == p.2)

/-- Every opening bracket has a closing one of its kind, and between them the same holds. -/
inductive Bracketed : List Char → Prop where
  | nil : Bracketed []
  | pair {o c a b} : (o, c) ∈ bracketPairs → Bracketed a → Bracketed b → Bracketed (o :: a ++ c :: b)

/-- the brackets in the text of a token that is neither a string literal nor a `//` comment -/
def Tok.brackets (u : Tok) : List Char :=
  match u.text with
  | '\'' :: _ => []
  | '/' :: '/' :: _ => []
  | x => x.filter isBracket

end Pycep
