import Verif.Spec.Layout
/-
Text that consists of blanks, comments and line ends only.
-/
namespace Pycep

/-- The text is nothing but blanks, comments and line ends (a `//` comment only with the end of its
line). -/
inductive Idle : List Char → Prop where
  | nil : Idle []
  | gap {x s} : Gap x s → Idle s → Idle (x ++ s)
  | line {x s} : IsCommentNewlines x → NoBreak s → Idle s → Idle (x ++ s)

end Pycep
