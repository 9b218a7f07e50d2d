import Verif.Spec.Text
/-
Which characters can stand where in a document.
-/
namespace Pycep

/-- the characters of operators, brackets and separators -/
def markChars : List Char := "!%&()*+,-./:<=>?@[]{|}~".toList

/-- A character that is part of no word, number, mark, blank or line end: quotes, `#`, `$`, `;`, `\`, `^`,
a no-break space, ... -/
def Stray (c : Char) : Prop := isWord c = false ∧ c ∉ " \t\r\n".toList ∧ c ∉ markChars

/-- a comment of one of the three forms, without the end of its line -/
def IsComment (x : List Char) : Prop :=
  (∃ b, x = '#' :: b ∧ '\n' ∉ b) ∨ (∃ b, x = '/' :: '*' :: b ++ ['*', '/']) ∨
  (∃ b, x = '/' :: '/' :: b ∧ '\n' ∉ b)

/-- a string literal, with its quotes -/
def IsLiteral (x : List Char) : Prop :=
  (∃ b, x = '\'' :: b ++ ['\'']) ∨ (∃ b, x = '\'' :: '\'' :: '\'' :: b ++ ['\'', '\'', '\''])

/-- the character number `i` of `s` belongs to a piece of `s` that is the text `x` -/
def Within (s : List Char) (i : Nat) (x : List Char) : Prop :=
  ∃ a b, s = a ++ x ++ b ∧ a.length ≤ i ∧ i < a.length + x.length

/-- A character with which something can begin: a word, a number, a mark, a string, a comment, a blank or
a line end. -/
def Starter (c : Char) : Prop :=
  isAsciiAlnum c = true ∨ c ∈ "_ \t\r\n#'".toList ∨ c ∈ markChars

/-- blanks, comments and line ends -/
inductive Blank : List Char → Prop where
  | nil : Blank []
  | gap {x s} : Trivia x → Blank s → Blank (x ++ s)
  | line {x s} : IsCommentNewlines x → Blank s → Blank (x ++ s)

/-- what a declaration begins with -/
def declStarts : List String :=
  ["@", "targetScope", "import", "extension", "metadata", "param", "var", "output", "resource", "module",
   "type", "func"]

end Pycep
