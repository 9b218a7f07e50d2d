import Verif.Spec.Layout
import Verif.Spec.Syntax
/-
Where words and numbers end: a cutting of a text into tokens in which no word is cut short.
-/
namespace Pycep

/-- What may follow a token of type `t`: an identifier, `true`, `false`, `null` and the `items` of a
loop are not followed by a character that could belong to the same word, a number is not followed by
a digit, `true`, `false`, `null` and `items` are not directly followed by a bracket (with it they are
the name of a called function), and `<` and `>` are not followed by an equals sign. -/
def Whole (t : Nat) (s : List Char) : Prop :=
  (t ∈ [T.STRING, T.TRUE, T.FALSE, T.NULL, T.ITEMS] → Stops isWord s) ∧
  (t = T.INT → Stops isAsciiDigit s) ∧
  (t ∈ [T.TRUE, T.FALSE, T.NULL, T.ITEMS] → s.head? ≠ some '(') ∧
  (t ∈ [T.LESSTHAN, T.MORETHAN] → s.head? ≠ some '=')

/-- `Tiling` (Spec/Syntax.lean) in which words and numbers are whole. -/
inductive WordTiling : Nat → List Char → List Tok → Prop where
  | nil {l} : WordTiling l [] []
  | skip {l x s w} : Trivia x → WordTiling (l + countNL x) s w → WordTiling l (x ++ s) w
  | tok {l t x s w} : TokText t x → t < tEND → Whole t s → WordTiling (l + countNL x) s w →
      WordTiling l (x ++ s) (⟨t, x, l, l + countNL x⟩ :: w)

end Pycep
