import Verif.Items
import Verif.Proofs.SynBase
/-
Kernel-checked facts about the LR items of the automaton: in every state, every way to continue a
derivation is in the table, except where the look-ahead forbids it.
-/
set_option linter.style.nameCheck false
namespace Pycep

/-- `badReduce`, and a declaration in front of a line break (the line break then belongs to the
rule). -/
def badNode (r : Rule) (t : Nat) : Bool :=
  badReduce r t ||
  (r.lhs == N.__start_star_0 && r.rhs.getLast? == some N.element && t == T._CPP_COMMENT_NL)

/-- all terminals -/
def allMask : Nat := 2 ^ numTerms - 1

/-- What may follow in front of position `d` of a right-hand side: between two adjacent operands
there is no `-` and no `[`. -/
def gapMask (rhs : List Nat) (d : Nat) : Nat :=
  match d with
  | 0 => allMask
  | d + 1 => if rhs[d]? = some N.value_brackets ∧ rhs[d + 1]? = some N.value_brackets then
      allMask - 2 ^ T.MINUS - 2 ^ T.LSQB else allMask

def firstOf (x : Nat) : Nat := if x < 128 then 2 ^ x else (firstTab.get (x - 128)).getD 0
def nullOf (x : Nat) : Bool := 128 ≤ x && nullMask.testBit (x - 128)

/-- first tokens of a sequence of symbols in front of one of `L` -/
def firstSeq : List Nat → Nat → Nat
  | [], L => L
  | x :: xs, L => if nullOf x then firstOf x ||| firstSeq xs L else firstOf x

def subMask (a b : Nat) : Bool := a &&& b == a

def hasItem (s i d L : Nat) : Bool :=
  ((itemTab.get s).getD []).any fun (i', d', L') => i' == i && d' == d && subMask L L'
def hasClos (s x F L : Nat) : Bool :=
  ((closTab.get s).getD []).any fun (x', F', L') => x' == x && subMask F F' && subMask L L'

/-- In state `s`, rule `i` of right-hand side `rhs` can be continued from position `d` when the next
token is one of `F` and what follows the rule is one of `L`. -/
def itemOK (s i d F L : Nat) : Bool :=
  match ruleTab.get i with
  | .none => false
  | some (lhs, rhs) =>
    match rhs.drop d with
    | [] => (List.range numTerms).all fun a =>
        !(L.testBit a && F.testBit a) || badNode ⟨lhs, rhs, "", false, [], 0⟩ a ||
          (match action s a with
           | .reduce j => j == i
           | _ => false)
    | x :: rest =>
      if x < 128 then
        !F.testBit x || (match action s x with
          | .shift s' => hasItem s' i (d + 1) L
          | _ => false)
      else (firstOf x &&& F == 0 && !nullOf x) ||
        (hasClos s x F (firstSeq rest L &&& gapMask rhs (d + 1)) && (match goto s x with
          | some s' => hasItem s' i (d + 1) L
          | .none => false))

def stateItemsOK (s : Nat) : Bool :=
  (((itemTab.get s).getD []).all fun (i, d, L) =>
    match ruleTab.get i with
    | .none => false
    | some (_, rhs) => itemOK s i d (gapMask rhs d) L) &&
  (((closTab.get s).getD []).all fun (x, F, L) =>
    ((prodTab.get (x - 128)).getD []).all fun i => itemOK s i 0 F L)

theorem check_items : (List.range numStates).all stateItemsOK = true := by decide +kernel

def ruleTabOK (i : Nat) (r : Rule) : Bool :=
  ruleTab.get i == some (r.lhs, r.rhs) && ((prodTab.get (r.lhs - 128)).getD []).contains i &&
  subMask (firstSeq r.rhs 0) (firstOf r.lhs) && (!(r.rhs.all nullOf) || nullOf r.lhs) &&
  r.rhs.all (fun x => x < tEND || 128 ≤ x && x < 128 + numNts && x != N.start)

theorem check_ruleTab : rules.zipIdx.all (fun (r, i) => ruleTabOK i r) = true := by decide +kernel

theorem check_start : hasClos 0 N.start allMask (2 ^ tEND) = true := by decide +kernel

end Pycep
