import Verif.Parser
/-
Comparing results of the model with expected values by computation in the kernel, for concrete
cases and counterexamples.
-/
namespace Pycep

mutual
/-- equality of values, as a Boolean -/
def Val.beq : Val → Val → Bool
  | .none, .none => true
  | .bool a, .bool b => a == b
  | .int a, .int b => a == b
  | .str a, .str b => a == b
  | .elem a, .elem b => a == b
  | .tok a b, .tok c d => a == c && b == d
  | .list a, .list b => Val.beqList a b
  | .tup2 a b, .tup2 c d => a.beq c && b.beq d
  | .dict a, .dict b => Val.beqItems a b
  | _, _ => false
/-- equality of lists of values -/
def Val.beqList : List Val → List Val → Bool
  | [], [] => true
  | a :: as, b :: bs => a.beq b && Val.beqList as bs
  | _, _ => false
/-- equality of lists of items -/
def Val.beqItems : List (String × Val) → List (String × Val) → Bool
  | [], [] => true
  | (k, a) :: as, (l, b) :: bs => k == l && (a.beq b && Val.beqItems as bs)
  | _, _ => false
end

mutual
theorem Val.eq_of_beq : ∀ {a b : Val}, a.beq b = true → a = b
  | .none, b, h => by cases b <;> simp [Val.beq] at h ⊢
  | .bool _, b, h => by cases b <;> simp [Val.beq] at h ⊢; exact h
  | .int _, b, h => by cases b <;> simp [Val.beq] at h ⊢; exact h
  | .str _, b, h => by cases b <;> simp [Val.beq] at h ⊢; exact h
  | .elem _, b, h => by cases b <;> simp [Val.beq] at h ⊢; exact h
  | .tok _ _, b, h => by cases b <;> simp [Val.beq] at h ⊢; exact h
  | .list l, b, h => by
    cases b <;> simp [Val.beq] at h ⊢
    exact Val.eq_of_beqList h
  | .tup2 x y, b, h => by
    cases b <;> simp [Val.beq] at h ⊢
    exact ⟨Val.eq_of_beq h.1, Val.eq_of_beq h.2⟩
  | .dict l, b, h => by
    cases b <;> simp [Val.beq] at h ⊢
    exact Val.eq_of_beqItems h
theorem Val.eq_of_beqList : ∀ {a b : List Val}, Val.beqList a b = true → a = b
  | [], b, h => by cases b <;> simp [Val.beqList] at h ⊢
  | x :: xs, b, h => by
    cases b <;> simp [Val.beqList] at h ⊢
    exact ⟨Val.eq_of_beq h.1, Val.eq_of_beqList h.2⟩
theorem Val.eq_of_beqItems : ∀ {a b : List (String × Val)}, Val.beqItems a b = true → a = b
  | [], b, h => by cases b <;> simp [Val.beqItems] at h ⊢
  | (k, x) :: xs, b, h => by
    cases b with
    | nil => simp [Val.beqItems] at h
    | cons y ys =>
      obtain ⟨l, y⟩ := y
      simp only [Val.beqItems, Bool.and_eq_true, beq_iff_eq] at h
      rw [h.1, Val.eq_of_beq h.2.1, Val.eq_of_beqItems h.2.2]
end

/-- equality of the outcome of `parse` with a value -/
def outIs (r : Except ApiErr Val) (v : Val) : Bool :=
  match r with
  | .ok x => x.beq v
  | .error _ => false

theorem eq_of_outIs {r : Except ApiErr Val} {v : Val} (h : outIs r v = true) : r = .ok v := by
  unfold outIs at h
  split at h
  · rw [Val.eq_of_beq h]
  · cases h

/-- equality of the outcome of `parse` with an error -/
def errIs (r : Except ApiErr Val) (e : ApiErr) : Bool :=
  match r with
  | .ok _ => false
  | .error x => x == e

theorem eq_of_errIs {r : Except ApiErr Val} {e : ApiErr} (h : errIs r e = true) : r = .error e := by
  unfold errIs at h
  split at h
  · cases h
  · rw [eq_of_beq h]

end Pycep
