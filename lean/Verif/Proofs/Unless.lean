import Verif.Lexer
/-
The list of keyword/terminal pairs in the lexer model is the one that Lark computes.
-/
namespace Pycep

/-- `unlessIds` is exactly what the test `unlessPair` on the terminal definitions gives. -/
theorem unlessIds_spec : ∀ r < tEND, ∀ k < tEND,
    (unlessIds r).contains k =
      (match term? r, term? k with
       | some a, some b => unlessPair a b
       | _, _ => false) := by
  decide +kernel

end Pycep
