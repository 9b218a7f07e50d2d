import Mathlib.Data.List.Infix
/-
Line endings, as text: Windows (`\r\n`) against Unix (`\n`) line ends.
-/
namespace Pycep

/-- The text with Unix line ends: every `\r` that is directly followed by `\n` is dropped; a `\r` on
its own stays. -/
def unix : List Char → List Char
  | [] => []
  | c :: s => if c = '\r' ∧ s.head? = some '\n' then unix s else c :: unix s

/-- `unix` on strings -/
def unixText (s : String) : String := String.ofList (unix s.toList)

/-- No `\r` stands before a Windows line end (such a `\r` would become part of a new one when the
other is dropped). -/
def NoCrCrLf (s : List Char) : Prop := ¬ ['\r', '\r', '\n'] <:+: s

/-- The text has a Windows line end somewhere. -/
def HasCrLf (s : List Char) : Prop := ∃ a b, s = a ++ '\r' :: '\n' :: b

/-- Every `\r` of the text belongs to a Windows line end. -/
def NoLoneCr (s : List Char) : Prop := ∀ a b, s = a ++ '\r' :: b → b.head? = some '\n'

end Pycep
