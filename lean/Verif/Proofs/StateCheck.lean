import Verif.Spec.Layout
import Verif.Proofs.ParseComplete
/-
Which terminals a parser state never accepts together, depending on the token read last.
-/
namespace Pycep

/-- state `st` has an action for terminal `t` -/
def acts (st t : Nat) : Bool := action st t != .error

/-- keywords that may be followed by a bracket directly -/
def parenWords : List Nat := [T.EXISTING, T.FROM, T.IF, T.IN, T.WITH]

/-- what the lexing rules of `Spec/Layout.lean` rely on in state `st`, entered by token `p` -/
def stateOK (p st : Nat) : Bool :=
  (!acts st T.__ANON_2 || (List.range tEND).all (fun t => t == T.__ANON_2 || !acts st t)) &&
  (!acts st T.__ANON_1 || !acts st T.STAR) &&
  (p == T.DOT || !acts st T.LIST_FUNC_NAME) &&
  (!nestAfter.contains p || !acts st T.QUOTED_INTERPOLATION || !acts st T.RBRACE) &&
  (!openEnds.contains p || !acts st T._NEWLINE || !acts st T._CPP_COMMENT_NL) &&
  (!acts st T.STRING || keywordIds.all (fun k => reserved p k || !acts st k)) &&
  (!acts st T.FUNCTION || parenWords.all (fun k => !acts st k))

theorem check_states : (List.range numStates).all (fun st =>
    decide (tEND < prevOf st) || stateOK (prevOf st) st) = true := by decide +kernel

theorem stateOK_of {st : Nat} (hs : st < numStates) (hp : prevOf st ≤ tEND) :
    stateOK (prevOf st) st = true := by
  have h := check_states
  rw [List.all_eq_true] at h
  have h := h st (List.mem_range.mpr hs)
  simp only [Bool.or_eq_true, decide_eq_true_eq] at h
  rcases h with h | h
  · omega
  · exact h

end Pycep
