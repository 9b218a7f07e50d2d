import Verif.LR
import Verif.Past
/-
Finite facts about the generated LALR table, checked once by the kernel.
They are the only place where the concrete table is inspected; everything else is by induction.
-/
namespace Pycep

/-- certificate: symbols on top of the stack in state `s` -/
def past (s : Nat) : List Nat := (pastSyms.get s).getD []
/-- certificate: sets of possible states below state `s` -/
def masks (s : Nat) : List Nat := (pastMasks.get s).getD []
/-- certificate: states with a goto on `nt` -/
def gmask (nt : Nat) : Nat := (gotoMasks.get (nt - 128)).getD 0

/-- every mask of the second list includes the corresponding mask of the first one -/
def subMasks : List Nat → List Nat → Bool
  | _, [] => true
  | [], _ :: _ => false
  | a :: as, b :: bs => (a &&& b == a) && subMasks as bs

/-- the certificates are consistent with a transition from `p` to `s` on symbol `y` -/
def stepOK (p y s : Nat) : Bool :=
  decide (s < numStates) && (past s).isPrefixOf (y :: past p) &&
    (match masks s with
     | [] => true
     | m :: ms => m.testBit p && subMasks (masks p) ms)

/-- a reduction by rule `r` in state `p` finds its right-hand side on the stack and a goto below -/
def reduceOK (p r : Nat) : Bool :=
  match rules[r]? with
  | .none => false
  | some rule =>
    rule.rhs.reverse.isPrefixOf (past p) &&
      (match rule.rhs.length with
       | 0 => (goto p rule.lhs).isSome
       | n + 1 => match (masks p)[n]? with
         | .none => false
         | some m => m &&& gmask rule.lhs == m)

def actionOK (p y : Nat) : Bool :=
  match action p y with
  | .error => true
  | .shift s => if y = tEND then p == endState else stepOK p y s
  | .reduce r => reduceOK p r

def gotoOK (p nt : Nat) : Bool :=
  match goto p nt with
  | .none => true
  | some s => stepOK p nt s

def gmaskOK (p nt : Nat) : Bool := !(gmask nt).testBit p || (goto p nt).isSome

theorem check_action : (List.range numStates).all (fun p =>
    (List.range numTerms).all (fun y => actionOK p y)) = true := by decide +kernel

theorem check_goto : (List.range numStates).all (fun p =>
    (List.range numNts).all (fun n => gotoOK p (n + 128))) = true := by decide +kernel

theorem check_gmask : (List.range numStates).all (fun p =>
    (List.range numNts).all (fun n => gmaskOK p (n + 128))) = true := by decide +kernel

end Pycep
