import Verif.Lalr
import Verif.Augmented
import Verif.Proofs.ItemCheck
/-
Kernel-checked facts about the certificates of `Lalr.lean`: the grammar, the LR(0) items and the first tokens.
-/
set_option linter.style.nameCheck false
namespace Pycep.Lalr

/-! ### The grammar as a tree -/

def gRule (i : Nat) : Option (Nat × List Nat) :=
  if i = numRules then some (rootSym, [N.start, tEND]) else ruleTab.get i

def gProd (A : Nat) : List Nat :=
  if A = rootSym then [numRules] else (prodTab.get (A - 128)).getD []

/-! ### LR(0) items as bit masks -/

/-- `f n`, with `n` evaluated first by the kernel -/
def force (n : Nat) (f : Nat → Nat) : Nat :=
  match n with
  | 0 => f 0
  | m + 1 => f m.succ

theorem force_eq (n f) : force n f = f n := by cases n <;> rfl

/-- bits of the positions in front of `X` in a right-hand side whose first position is `o` -/
def rhsBits (X : Nat) : List Nat → Nat → Nat
  | [], _ => 0
  | x :: xs, o => (bif Nat.beq x X then 1 <<< o else 0) ||| rhsBits X xs o.succ

def symBits (X : Nat) : Cfg → Nat → Nat
  | [], _ => 0
  | (_, α) :: g, o => rhsBits X α o ||| force (o + α.length + 1) fun o' => symBits X g o'

/-- bits of the initial positions of the rules of `A` -/
def prodBits (A : Nat) : Cfg → Nat → Nat
  | [], _ => 0
  | (B, α) :: g, o => (bif Nat.beq B A then 1 <<< o else 0) |||
    force (o + α.length + 1) fun o' => prodBits A g o'

def symOf (X : Nat) : Nat := (symTab.get X).getD 0
def headOf (A : Nat) : Nat := (headTab.get (A - 128)).getD 0
def kernOf (q : Nat) : Nat := (kernTab.get q).getD 0
def lr0Of (q : Nat) : Nat := (lr0Tab.get q).getD 0

def allNts : List Nat := (List.range (numNts + 1)).map (128 + ·)
def allSyms : List Nat := List.range numTerms ++ allNts

theorem check_gram : ((List.range (numRules + 1)).all fun i => gram[i]? == gRule i) = true := by
  decide +kernel

theorem check_prod : (allNts.all fun A => (gProd A).all fun i =>
    (gRule i).map Prod.fst == some A) = true := by decide +kernel

theorem check_sym : allSyms.all (fun X => symOf X == symBits X gram 0) = true := by decide +kernel

theorem check_head : allNts.all (fun A => headOf A == prodBits A gram 0) = true := by decide +kernel

/-- the transitions of a state lead to the shifted items -/
def transOK (q X : Nat) : Bool :=
  let m := (lr0Of q &&& symOf X) <<< 1
  match table.next q X with
  | .none => m == 0
  | some q' => m != 0 && q' < numStates && kernOf q' == m

theorem check_trans : (List.range numStates).all (fun q => allSyms.all (transOK q)) = true := by
  decide +kernel

/-- `acc` closed by the nonterminals of the list, one after the other -/
def closeBits : List Nat → Nat → Option Nat
  | [], acc => some acc
  | A :: l, acc => if acc &&& symOf A = 0 then .none else closeBits l (acc ||| headOf A)

/-- what a state starts from -/
def baseOf (q : Nat) : Nat := if q = 0 then headOf rootSym else kernOf q

/-- without `rootSym` in state 0 -/
def startsOf (q : Nat) : List Nat :=
  ((startTab.get q).getD []).filter (fun A => A != rootSym)

def closOK (q : Nat) : Bool :=
  closeBits (startsOf q) (baseOf q) == some (lr0Of q) && lr0Of q != 0 &&
  (startsOf q).all (fun A => 128 ≤ A && A < rootSym) &&
  allNts.all fun A => lr0Of q &&& symOf A == 0 || subMask (headOf A) (lr0Of q)

theorem check_clos : (List.range numStates).all closOK = true := by decide +kernel

def predOK (q : Nat) : Bool :=
  q == 0 || (match predTab.get q with
    | .none => false
    | some n => n / 1024 < q && table.next (n / 1024) (n % 1024) == some q)

theorem check_pred : (List.range numStates).all predOK = true := by decide +kernel

def rankOf (r : Nat) : Nat := (rankTab.get r).getD 0
def invOf (q : Nat) : Nat := (invTab.get q).getD 0

theorem check_inv : ((List.range numStates).all fun q =>
    rankOf (invOf q) == q && decide (invOf q < numStates)) = true := by decide +kernel
theorem check_rank : ((List.range (numStates - 1)).all fun r =>
    decide (lr0Of (rankOf r) < lr0Of (rankOf (r + 1)))) = true := by decide +kernel

/-! ### First tokens: nothing too much -/

def nullStep (m : Nat) (r : Nat × List Nat) : Nat :=
  if r.2.all (fun x => 128 ≤ x && m.testBit (x - 128)) then m ||| 1 <<< (r.1 - 128) else m

def nullIter : Nat → Nat → Nat
  | 0, m => m
  | n + 1, m => nullIter n (gram.foldl nullStep m)

theorem check_null : nullIter 4 0 = nullMask := by decide +kernel

/-- first tokens of a sequence, from a packed table with cells of 128 bits -/
def packSeq (f : Nat) : List Nat → Nat
  | [] => 0
  | x :: xs =>
    let a := if x < 128 then 1 <<< x else (f >>> (128 * (x - 128))) % 2 ^ 128
    if nullOf x then a ||| packSeq f xs else a

def firstStep (f : Nat) (r : Nat × List Nat) : Nat :=
  f ||| packSeq f r.2 <<< (128 * (r.1 - 128))

def firstIter : Nat → Nat → Nat
  | 0, f => f
  | n + 1, f => firstIter n (gram.foldl firstStep f)

theorem check_first : ((List.range numNts).all fun k =>
    firstTab.get k == some ((firstIter 8 0 >>> (128 * k)) % 2 ^ 128)) = true := by decide +kernel

end Pycep.Lalr
