import Verif.Proofs.TableCheck
/-
More kernel-checked facts about the table: the initial and the end state, and a rank of symbols that
bounds chains of unit reductions.
-/
namespace Pycep

/-- rank of a grammar symbol -/
def symRank (y : Nat) : Nat := if y < 128 then 40 else (ntRanks.get (y - 128)).getD 0

/-- Transitions never enter state 0, and enter the end state only from state 0 on `start`;
reductions to `start` happen only at the end of the input.  After a reduction by an empty rule the
input is accepted or the look-ahead is shifted; a unit rule that is used lowers the rank. -/
def endOK (p y : Nat) : Bool :=
  match action p y with
  | .error => true
  | .shift s => if y = tEND then true else s != 0 && s != endState
  | .reduce r => match rules[r]? with
    | .none => false
    | some rule => (rule.lhs != N.start || y == tEND) &&
      (match rule.rhs with
       | [] => (match goto p rule.lhs with
         | .none => false
         | some s => (s == endState && y == tEND) || (match action s y with
           | .shift _ => true
           | _ => false))
       | [x] => decide (symRank rule.lhs < symRank x)
       | _ => true)

def endGotoOK (p nt : Nat) : Bool :=
  match goto p nt with
  | .none => true
  | some s => s != 0 && (s != endState || (p == 0 && nt == N.start)) &&
      (nt != N.start || s == endState)

theorem check_end : (List.range numStates).all (fun p =>
    (List.range numTerms).all (fun y => endOK p y)) = true := by decide +kernel

theorem check_endGoto : (List.range numStates).all (fun p =>
    (List.range numNts).all (fun n => endGotoOK p (n + 128))) = true := by decide +kernel

def ruleRankOK (r : Rule) : Bool :=
  decide (128 ≤ r.lhs) && decide (r.lhs < 128 + numNts) && decide (symRank r.lhs < 40)

theorem check_rank : rules.all ruleRankOK = true := by decide +kernel

end Pycep
