import Verif.Lalr
import Verif.Augmented
import Verif.Proofs.LalrCheck
/-
Kernel-checked facts about the certificates of `Lalr.lean`: the look-aheads.
-/
set_option linter.style.nameCheck false
namespace Pycep.Lalr

/-! ### Look-aheads: nothing missing -/

def laOf (q A : Nat) : Nat := ((laTab.get q).getD 0 >>> (70 * (A - 128))) % 2 ^ 70

def bestOf (q : Nat) : List (Nat × Nat × List Nat) := (bestTab.get q).getD []

/-- look-aheads for which a state reduces by a rule of `A` -/
def maskNt (A : Nat) : List (Nat × Nat × List Nat) → Nat
  | [] => 0
  | (r, m, _) :: l => if (gRule r).map Prod.fst = some A then m ||| maskNt A l else maskNt A l

/-- look-aheads for which a state reduces by rule `i` -/
def maskRule (i : Nat) : List (Nat × Nat × List Nat) → Nat
  | [] => 0
  | (r, m, _) :: l => if r = i then m ||| maskRule i l else maskRule i l

def endOK (q A i L : Nat) : Bool :=
  A == rootSym || subMask L (maskRule i (bestOf q) |||
    if A = N.minus then maskNt N.substract (bestOf q) else 0)

def walkOK (A i L : Nat) : List Nat → Nat → Bool
  | [], q => endOK q A i L
  | x :: xs, q => (x < 128 || subMask (firstSeq xs L) (laOf q x)) &&
    match table.next q x with
    | .none => false
    | some q' => walkOK A i L xs q'

def nodeOK (q A : Nat) : Bool :=
  let L := laOf q A
  L == 0 || (gProd A).all fun i =>
    match gRule i with
    | .none => false
    | some (_, α) => walkOK A i L α q

theorem check_nodes : ((List.range numStates).all fun q => allNts.all (nodeOK q)) = true := by
  decide +kernel

theorem check_root : (laOf 0 rootSym).testBit eof = true := by decide +kernel

/-! ### Look-aheads: nothing too much -/

def stepQ (n : Nat) : Nat := n % 1024
def stepA (n : Nat) : Nat := (n >>> 10) % 1024
def stepM (n : Nat) : Nat := (n >>> 20) % 2 ^ 70

/-- what a step `k` for state `q` and nonterminal `A` gets from the earlier step given by `e` -/
def fromStep (k q A e : Nat) : Nat :=
  let k' := (e >>> 14) - 1
  let i := (e >>> 5) % 512
  let d := e % 32
  if k' < k then
    match laSteps.get k' with
    | .none => 0
    | some n =>
      if i = 511 then (if stepQ n = q ∧ stepA n = A then stepM n else 0)
      else match gRule i with
        | .none => 0
        | some (B, α) =>
          if B = stepA n ∧ α[d]? = some A ∧ stepM n ≠ 0 ∧
              table.follow (stepQ n) (α.take d) = some q then
            firstSeq (α.drop (d + 1)) (stepM n)
          else 0
  else 0

def gather (k q A : Nat) : Nat → Nat → Nat
  | 0, _ => 0
  | fuel + 1, n => if n = 0 then 0 else
    fromStep k q A (n % 2 ^ 32) ||| gather k q A fuel (n >>> 32)

def stepOK (k : Nat) : Bool :=
  match laSteps.get k with
  | .none => false
  | some n => if k = 0 then stepQ n == 0 && stepA n == rootSym && stepM n == 2 ^ eof
    else subMask (stepM n) (gather k (stepQ n) (stepA n) 32 (n >>> 90))

theorem check_steps : (List.range numSteps).all stepOK = true := by decide +kernel

/-- look-aheads of rule `A : α` in state `q` that come from the given steps -/
def fromSteps (q A : Nat) (α : List Nat) : List Nat → Nat
  | [] => 0
  | k :: ks =>
    (if k < numSteps then
      match laSteps.get k with
      | .none => 0
      | some n => if stepA n = A ∧ table.follow (stepQ n) α = some q then stepM n else 0
    else 0) ||| fromSteps q A α ks

def bestOK (q : Nat) : Bool :=
  (bestOf q).all fun (r, m, ks) =>
    match gRule r with
    | .none => false
    | some (A, α) => r < numRules && subMask m (fromSteps q A α ks)

theorem check_best : (List.range numStates).all bestOK = true := by decide +kernel

/-- the masks of a list are disjoint, and disjoint from `m` -/
def disjointM : Nat → List (Nat × Nat × List Nat) → Bool
  | _, [] => true
  | a, (_, m, _) :: l => a &&& m == 0 && disjointM (a ||| m) l

theorem check_disjoint : (List.range numStates).all (fun q => disjointM 0 (bestOf q)) = true := by
  decide +kernel

def bestAt (t : Nat) : List (Nat × Nat × List Nat) → Option Nat
  | [] => .none
  | (r, m, _) :: l => if m.testBit t then some r else bestAt t l

def actOK (q t : Nat) : Bool :=
  match action q t with
  | .shift _ => true
  | .reduce r => bestAt t (bestOf q) == some r
  | .error => bestAt t (bestOf q) == .none

theorem check_act : ((List.range numStates).all fun q => (List.range numTerms).all (actOK q)) = true := by
  decide +kernel

end Pycep.Lalr
