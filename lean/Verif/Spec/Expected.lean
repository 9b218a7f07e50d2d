import Verif.Expected
import Verif.Spec.SynErr
/-
Specification of what a syntax error may name as acceptable.
-/
namespace Pycep

/-- The terminal `t` can stand behind the tokens `w`: there is a token of this kind with which they are
still the beginning of something grammatical; or `t` is the end and they are grammatical. -/
def CanFollow (w : List Tok) (t : Nat) : Prop :=
  (t = tEND ∧ ∃ tree, Der [N.start] [tree] w) ∨
  (t < tEND ∧ ∃ x, TokText t x ∧ ∀ l l', Beginning (w ++ [⟨t, x, l, l'⟩]))

/-- The terminal `t` stands behind the tokens `w` in some clearly written program. -/
def DoesFollow (w : List Tok) (t : Nat) : Prop :=
  (t = tEND ∧ ∃ p, p.clear = true ∧ ProgSyn p w tEND) ∨
  (∃ x l l' w' p, p.clear = true ∧ (∀ u ∈ (⟨t, x, l, l'⟩ : Tok) :: w', u.type < tEND) ∧
    ProgSyn p (w ++ ⟨t, x, l, l'⟩ :: w') tEND)

/-- `c` names acceptable tokens rightly, given the tokens read before. -/
structure NamesRightly (c : Choices) : Prop where
  /-- everything in `accepts` can stand there -/
  sound : ∀ t ∈ c.accepts, CanFollow c.read t
  /-- if the error is one of the lexer, then everything that stands there in a program is in `accepts` -/
  complete : c.byLexer = true → ∀ t, DoesFollow c.read t → t ∈ c.accepts
  /-- everything in `accepts` is expected; or it is the end, or its text is also that of something
  expected -/
  expected : ∀ t ∈ c.accepts, t ∈ c.expected ∨
    c.byLexer = true ∧ (t = tEND ∨ ∃ r ∈ c.expected, ∃ x, TokText t x ∧ TokText r x)

/-- `w` are the tokens of the text `s` in front of the place of the exception `e`; all of them if the text
ends too early. -/
def PlacedAt (s : List Char) (w : List Tok) (e : SynErr) : Prop :=
  (∃ pre rest, s = pre ++ rest ∧ Tiling 1 pre w ∧ e.Behind pre ∧ e.token ≠ some (tEND, [])) ∨
  (Tiling 1 s w ∧ e.token = some (tEND, []))

end Pycep
