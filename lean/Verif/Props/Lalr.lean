import Verif.Proofs.Lalr1
/-
C62: the table the parser runs on is the LALR(1) table of the grammar.
-/
namespace Pycep

/-- **C62.** The table of the parser is the LALR(1) table of the rules of `bicep.lark`: its states
are the sets of valid LR(0) items, every possible reduction is decided in favour of exactly one rule
(so that Lark finds no unresolved conflict and `BicepParser()` can be constructed), and a shift is
preferred to any reduction. -/
theorem C62_table : LR0States gram rootSym table numStates ∧
    LALRActions gram rootSym eof rulePrio table numTerms :=
  ⟨Lalr.lr0States, Lalr.lalrActions⟩

/-- **C62.** Two reductions are possible at the same time only for the rules `minus` and
`substract`. -/
theorem C62_conflict {q r r' t : Nat} (ht : t < numTerms)
    (h : Reduces gram rootSym eof table q r t) (h' : Reduces gram rootSym eof table q r' t)
    (hne : r ≠ r') :
    ∃ α β, (gram[r]? = some (N.minus, α) ∧ gram[r']? = some (N.substract, β)) ∨
      (gram[r]? = some (N.substract, α) ∧ gram[r']? = some (N.minus, β)) :=
  Lalr.only_conflict ht h h' hne

/-! ### The specification leaves nothing open -/

theorem next_shift {T : LRTable} {q t s : Nat} (ht : t < 128) :
    T.next q t = some s ↔ T.action q t = .shift s := by
  rw [LRTable.next, if_pos ht]
  cases T.action q t <;> simp

theorem LR0States.follow_iff {g root T T' n n'} (h : LR0States g root T n)
    (h' : LR0States g root T' n') (γ : List Nat) :
    (∃ q, T.follow 0 γ = some q) ↔ ∃ q, T'.follow 0 γ = some q :=
  (h.viable γ).trans (h'.viable γ).symm

/-- The same reductions are possible in corresponding states of two tables. -/
theorem LR0States.reduces {g root eof T T' n n'} (h : LR0States g root T n)
    (h' : LR0States g root T' n') {γ : List Nat} {q q' r t : Nat} (hq : T.follow 0 γ = some q)
    (hq' : T'.follow 0 γ = some q') (hr : Reduces g root eof T q r t) :
    Reduces g root eof T' q' r t := by
  obtain ⟨δ, A, α, hδ, hg, hv⟩ := hr
  obtain ⟨p', hp'⟩ := (h.follow_iff h' δ).mp ⟨q, hδ⟩
  have hs := (h.same γ δ q q hq hδ).mp rfl
  have := (h'.same γ δ q' p' hq' hp').mpr hs
  subst this
  exact ⟨δ, A, α, hp', hg, hv⟩

/-- Two tables that meet the specification do the same behind every sequence of symbols: the
specification determines the table up to the numbers of its states. -/
theorem C62_unique {g root eof prio T T' n n' m}
    (h : LR0States g root T n) (h' : LR0States g root T' n')
    (a : LALRActions g root eof prio T m) (a' : LALRActions g root eof prio T' m)
    {γ : List Nat} {q q' t : Nat} (hq : T.follow 0 γ = some q) (hq' : T'.follow 0 γ = some q')
    (ht : t < m) (hm : m ≤ 128) :
    (∀ r, T.action q t = .reduce r ↔ T'.action q' t = .reduce r) ∧
    ((∃ s, T.action q t = .shift s) ↔ ∃ s, T'.action q' t = .shift s) ∧
    (T.action q t = .error ↔ T'.action q' t = .error) := by
  have hsh : (∃ s, T.action q t = .shift s) ↔ ∃ s, T'.action q' t = .shift s := by
    have key : ∀ (T : LRTable) q, T.follow 0 γ = some q →
        ((∃ s, T.action q t = .shift s) ↔ ∃ s, T.follow 0 (γ ++ [t]) = some s) := by
      intro T q hq
      constructor
      · rintro ⟨s, hs⟩
        exact ⟨s, Lalr.follow_snoc.mpr ⟨q, hq, (next_shift (by omega)).mpr hs⟩⟩
      · rintro ⟨s, hs⟩
        obtain ⟨p, hp, hs⟩ := Lalr.follow_snoc.mp hs
        rw [hq] at hp
        cases hp
        exact ⟨s, (next_shift (by omega)).mp hs⟩
    rw [key T q hq, key T' q' hq']
    exact h.follow_iff h' _
  have hred : ∀ r, T.action q t = .reduce r ↔ T'.action q' t = .reduce r := by
    intro r
    have hR : ∀ r, Reduces g root eof T q r t ↔ Reduces g root eof T' q' r t :=
      fun r => ⟨h.reduces h' hq hq', h'.reduces h hq' hq⟩
    have hs : (∀ s, T.action q t ≠ .shift s) ↔ ∀ s, T'.action q' t ≠ .shift s := by
      rw [← not_exists, ← not_exists, hsh]
    rw [a.reduce q r t ht ⟨γ, hq⟩, a'.reduce q' r t ht ⟨γ, hq'⟩, hs, hR]
    simp only [hR]
  refine ⟨hred, hsh, ?_⟩
  constructor
  · intro he
    cases hb : T'.action q' t with
    | error => rfl
    | shift s => obtain ⟨s', hs'⟩ := hsh.mpr ⟨s, hb⟩; rw [he] at hs'; cases hs'
    | reduce r => have := (hred r).mpr hb; rw [he] at this; cases this
  · intro he
    cases hb : T.action q t with
    | error => rfl
    | shift s => obtain ⟨s', hs'⟩ := hsh.mp ⟨s, hb⟩; rw [he] at hs'; cases hs'
    | reduce r => have := (hred r).mp hb; rw [he] at this; cases this

/-! ### Examples -/

theorem conflict_minus : Reduces gram rootSym eof table 540 277 T.PLUS := by
  obtain ⟨n, hn, h1, h2, h3⟩ : ∃ n, laSteps.get 6077 = some n ∧
      (Lalr.stepM n).testBit T.PLUS = true ∧ Lalr.stepA n = N.minus ∧
      table.follow (Lalr.stepQ n) [T.MINUS, N.value_brackets] = some 540 :=
    ⟨(laSteps.get 6077).getD 0, by decide +kernel, by decide +kernel, by decide +kernel,
      by decide +kernel⟩
  obtain ⟨γ, hγ, hv⟩ := Lalr.step_sound (by decide) hn _ h1
  have hr : gram[277]? = some (N.minus, [T.MINUS, N.value_brackets]) := by decide +kernel
  refine ⟨γ ++ [T.MINUS, N.value_brackets], _, _, ?_, hr, ?_⟩
  · rw [Lalr.follow_append, hγ]; exact h3
  · exact Lalr.valid_walk hr (hv _ _ (by rw [h2]; exact hr)) (Nat.le_refl _)

theorem conflict_substract : Reduces gram rootSym eof table 540 280 T.PLUS := by
  have hb : Lalr.bestAt T.PLUS (Lalr.bestOf 540) = some 280 := by decide +kernel
  obtain ⟨m, ks, h1, h2⟩ := Lalr.bestAt_some hb
  exact (Lalr.best_reduces (by decide) h1 h2).1

/-- The conflict of `C62_conflict` is real: behind `x - y` both `substract` and (after `x`, as in
`x -y`) `minus` could be complete in front of a `+`; without the priority of `substract` there would
be no table, and with it `substract` is chosen. -/
example : Reduces gram rootSym eof table 540 277 T.PLUS ∧
    Reduces gram rootSym eof table 540 280 T.PLUS ∧ rulePrio 277 < rulePrio 280 :=
  ⟨conflict_minus, conflict_substract, by decide +kernel⟩

/-- A viable sequence of symbols, and the rule of the grammar it is inside of: behind
`var`, in `var` declarations. -/
example : ∃ q, table.follow 0 [T.VAR] = some q :=
  ⟨(table.follow 0 [T.VAR]).getD 0, by decide +kernel⟩

/-- Not every sequence is viable. -/
example : ¬ ∃ i d, Valid0 gram rootSym [T.VAR, T.VAR] i d := by
  rw [← C62_table.1.viable]
  have : table.follow 0 [T.VAR, T.VAR] = .none := by decide +kernel
  simp [this]

end Pycep
