import Verif.Proofs.Lalr0
import Verif.Proofs.ParseComplete
import Verif.Spec.SynErr
/-
What the parser has read is always the beginning of something grammatical.
-/
namespace Pycep

/-! ### Every symbol derives something -/

/-- a token with a proper text, or the end mark -/
def Likely (u : Tok) : Prop := u.type = tEND ∨ (u.type < tEND ∧ TokText u.type u.text)

/-- a text for each terminal -/
theorem sample {t : Nat} (ht : t < tEND) (hi : t ∉ ignoreIds) : ∃ x, TokText t x := by
  by_cases hr : t ∈ reIds
  · simp only [reIds, List.mem_cons, List.not_mem_nil, or_false] at hr
    rcases hr with rfl | rfl | rfl | rfl | rfl | rfl | rfl | rfl | rfl | rfl | rfl | rfl | rfl | rfl
    · exact ⟨['a'], by simp, by decide⟩
    · exact ⟨['a', '('], [], ['a'], rfl, .inl rfl, by simp, by decide⟩
    · exact ⟨['\'', '\''], [], rfl⟩
    · exact ⟨['\'', '\'', '\'', '\'', '\'', '\''], [], rfl⟩
    · exact ⟨['a'], 'a', [], rfl, .inl (by decide), by simp⟩
    · exact ⟨['\n'], .inl .lf⟩
    · exact ⟨['\'', '\''], [], rfl, by simp⟩
    · exact ⟨['a'], [], ['a'], rfl, .inl rfl, by simp, by decide⟩
    · exact absurd (by decide) hi
    · exact absurd (by decide) hi
    · exact ⟨['\n'], .lf⟩
    · exact ⟨['1'], by simp, by decide⟩
    · exact absurd (by decide) hi
    · exact ⟨['*'], rfl⟩
  · obtain ⟨d, s, h1, h2, _⟩ := strTerm ht hr
    exact ⟨s.toList, .str hr h1 h2 rfl⟩

/-- the symbol derives a sequence of tokens -/
def Prod (x : Nat) : Prop := ∃ t w, Der [x] [t] w ∧ ∀ u ∈ w, Likely u

theorem prod_list {l : List Nat} (h : ∀ x ∈ l, Prod x) : ∃ ts w, Der l ts w ∧ ∀ u ∈ w, Likely u := by
  induction l with
  | nil => exact ⟨[], [], .nil, by simp⟩
  | cons x l ih =>
    obtain ⟨t, w, h1, h2⟩ := h x (by simp)
    obtain ⟨ts, w', h3, h4⟩ := ih fun y hy => h y (List.mem_cons_of_mem _ hy)
    refine ⟨_, _, h1.append h3, ?_⟩
    intro u hu
    rcases List.mem_append.mp hu with hu | hu
    · exact h2 u hu
    · exact h4 u hu

/-- one pass over the rules -/
def prodPass : List Rule → Nat → Nat
  | [], m => m
  | r :: rs, m => match r.rhs.all (m.testBit ·) with
    | true => match m ||| 1 <<< r.lhs with
      | 0 => prodPass rs 0
      | n + 1 => prodPass rs n.succ
    | false => prodPass rs m

theorem prodPass_cons (r rs m) : prodPass (r :: rs) m =
    prodPass rs (if r.rhs.all (m.testBit ·) then m ||| 1 <<< r.lhs else m) := by
  rw [prodPass]
  split
  · rename_i h
    rw [if_pos h]
    split
    · rename_i h; rw [h]
    · rename_i h; rw [h]
  · rename_i h
    rw [if_neg (by simp [h])]

theorem prodPass_sound {rs : List Rule} (hrs : ∀ r ∈ rs, r ∈ rules) : ∀ {m : Nat},
    (∀ x, m.testBit x = true → Prod x) → ∀ x, (prodPass rs m).testBit x = true → Prod x := by
  induction rs with
  | nil => intro m h x hx; exact h x hx
  | cons r rs ih =>
    intro m h x hx
    rw [prodPass_cons] at hx
    refine ih (fun r' hr' => hrs r' (List.mem_cons_of_mem _ hr')) ?_ x hx
    intro y hy
    split at hy
    · rename_i hall
      rw [Nat.testBit_or, Bool.or_eq_true] at hy
      rcases hy with hy | hy
      · exact h y hy
      · rw [Nat.one_shiftLeft, Nat.testBit_two_pow, decide_eq_true_eq] at hy
        subst hy
        obtain ⟨ts, w, h1, h2⟩ := prod_list fun z hz => h z (List.all_eq_true.mp hall z hz)
        have := Der.node r (hrs r (by simp)) h1 .nil
        exact ⟨_, _, this, by simpa using h2⟩
    · exact h y hy

/-- terminals that are not skipped -/
def termMask : Nat := (2 ^ tEND - 1) &&& (2 ^ 128 - 1 - 2 ^ 8 - 2 ^ 9 - 2 ^ 12)

theorem termMask_spec : ∀ x < 128, termMask.testBit x = true → x < tEND ∧ x ∉ ignoreIds := by
  decide +kernel

theorem termMask_lt {x : Nat} (h : termMask.testBit x = true) : x < 128 := by
  by_contra hx
  have h1 : termMask < 2 ^ x := Nat.lt_of_lt_of_le (by decide +kernel : termMask < 2 ^ 128)
    (Nat.pow_le_pow_right (by decide) (by omega))
  rw [Nat.testBit_lt_two_pow h1] at h
  cases h

theorem prod_mask : ∀ x, termMask.testBit x = true → Prod x := by
  intro x hx
  obtain ⟨h1, h2⟩ := termMask_spec x (termMask_lt hx) hx
  obtain ⟨y, hy⟩ := sample h1 h2
  exact ⟨_, _, .tok ⟨x, y, 0, 0⟩ .nil, by simp [Likely, hy, h1]⟩

theorem check_prod : prodPass rules (prodPass rules (prodPass rules termMask)) =
    2 ^ (128 + numNts) - 2 ^ 128 + termMask := by decide +kernel

theorem prod_nt : ∀ x < 128 + numNts, 128 ≤ x →
    (2 ^ (128 + numNts) - 2 ^ 128 + termMask).testBit x = true := by decide +kernel

theorem rhs_terms : (rules.all fun r => r.rhs.all fun x => decide (128 ≤ x) || termMask.testBit x) = true := by
  decide +kernel

theorem rule_prod {r : Rule} (hr : r ∈ rules) {x : Nat} (hx : x ∈ r.rhs) : Prod x := by
  have h1 := List.all_eq_true.mp (List.all_eq_true.mp rhs_terms r hr) x hx
  rw [Bool.or_eq_true, decide_eq_true_eq] at h1
  rcases h1 with h1 | h1
  · rcases rhs_sym hr hx with h | ⟨_, h, _⟩
    · simp only [tEND] at h; omega
    · have := prod_nt x h h1
      rw [← check_prod] at this
      exact prodPass_sound (fun _ h => h) (prodPass_sound (fun _ h => h) (prodPass_sound (fun _ h => h) prod_mask))
        x this
  · exact prod_mask x h1

theorem prod_end : Prod tEND := ⟨_, _, .tok ⟨tEND, [], 0, 0⟩ .nil, by simp [Likely]⟩

theorem prod_start : Prod N.start := by
  have := prod_nt N.start (by decide) (by decide)
  rw [← check_prod] at this
  exact prodPass_sound (fun _ h => h) (prodPass_sound (fun _ h => h) (prodPass_sound (fun _ h => h) prod_mask)) _ this

/-! ### Valid items -/

theorem gram_cases {i A : Nat} {α : List Nat} (h : gram[i]? = some (A, α)) :
    (∃ r ∈ rules, r.lhs = A ∧ r.rhs = α) ∨ (A = rootSym ∧ α = [N.start, tEND]) := by
  have := List.mem_of_getElem? h
  simp only [gram, List.mem_append, List.mem_map, List.mem_singleton, Prod.mk.injEq] at this
  exact this

theorem gram_prod {i A : Nat} {α : List Nat} (h : gram[i]? = some (A, α)) : ∀ x ∈ α, Prod x := by
  rcases gram_cases h with ⟨r, hr, _, rfl⟩ | ⟨_, rfl⟩
  · exact fun x hx => rule_prod hr hx
  · intro x hx
    simp only [List.mem_cons, List.not_mem_nil, or_false] at hx
    rcases hx with rfl | rfl
    · exact prod_start
    · exact prod_end

/-- What a valid item promises: the rest of its rule can be continued to a whole text. -/
theorem valid_continue {γ i d} (h : Valid0 gram rootSym γ i d) : ∀ {A α}, gram[i]? = some (A, α) →
    ∀ {ts w ts' w'}, Der γ ts w → Der (α.drop d) ts' w' →
      ∃ t₂ w₂, Der [N.start, tEND] t₂ (w ++ w' ++ w₂) ∧ ∀ u ∈ w₂, Likely u := by
  induction h with
  | @start i α hi =>
    intro A α' h ts w ts' w' hd hd'
    rw [hi] at h
    simp only [Option.some.injEq, Prod.mk.injEq] at h
    obtain ⟨rfl, rfl⟩ := h
    rcases gram_cases hi with ⟨r, hr, hl, _⟩ | ⟨_, rfl⟩
    · have := (rule_spec hr).2.1
      simp only [rootSym] at hl; omega
    · cases hd
      exact ⟨ts', [], by simpa using hd', by simp⟩
  | @close γ i d A α B j β hv hi hB hj ih =>
    intro A' α' h ts w ts' w' hd hd'
    rw [hj] at h
    simp only [Option.some.injEq, Prod.mk.injEq] at h
    obtain ⟨rfl, rfl⟩ := h
    rw [List.drop_zero] at hd'
    obtain ⟨hlt, rfl⟩ := List.getElem?_eq_some_iff.mp hB
    obtain ⟨t₃, w₃, h3, h4⟩ := prod_list (l := α.drop (d + 1)) fun x hx =>
      gram_prod hi x (List.mem_of_mem_drop hx)
    rcases gram_cases hj with ⟨r, hr, hl, rfl⟩ | ⟨hroot, _⟩
    · have hn := Der.node r hr hd' h3
      rw [hl, ← List.drop_eq_getElem_cons hlt] at hn
      obtain ⟨t₂, w₂, h5, h6⟩ := ih hi hd hn
      refine ⟨t₂, w₃ ++ w₂, by simpa using h5, ?_⟩
      intro u hu
      rcases List.mem_append.mp hu with hu | hu
      · exact h4 u hu
      · exact h6 u hu
    · exfalso
      rcases Lalr.gram_rhs hi hB with h | h
      · rw [hroot] at h; revert h; decide
      · rw [hroot] at h; omega
  | @step γ i d A α X hv hi hX ih =>
    intro A' α' h ts w ts' w' hd hd'
    rw [hi] at h
    simp only [Option.some.injEq, Prod.mk.injEq] at h
    obtain ⟨rfl, rfl⟩ := h
    obtain ⟨hlt, rfl⟩ := List.getElem?_eq_some_iff.mp hX
    obtain ⟨t₁, t₂, w₁, w₂, rfl, rfl, h1, h2⟩ := hd.split
    have hn := h2.append hd'
    rw [List.singleton_append, ← List.drop_eq_getElem_cons hlt] at hn
    obtain ⟨t₃, w₃, h5, h6⟩ := ih hi h1 hn
    exact ⟨t₃, w₃, by simpa using h5, h6⟩

/-! ### Stacks -/

theorem Lk.follow {ys ss} (h : Lk ys ss) : table.follow 0 ys.reverse = some (topOf ss) := by
  induction h with
  | nil => rfl
  | @cons ys ss y s _ hs ih =>
    rw [List.reverse_cons, Lalr.follow_snoc]
    refine ⟨_, ih, ?_⟩
    unfold LRTable.next table
    rcases hs with ⟨h1, h2⟩ | ⟨h1, _, h2⟩
    · simp only [tEND] at h1
      rw [if_pos (by omega)]
      simp only [h2]; rfl
    · rw [if_neg (by omega)]
      exact h2

theorem der_types {ss ts w} (h : Der ss ts w) (hs : ∀ x ∈ ss, x < tEND ∨ 128 ≤ x) :
    ∀ u ∈ w, u.type < tEND ∨ 128 ≤ u.type := by
  induction h with
  | nil => simp
  | tok t _ ih =>
    intro u hu
    rcases List.mem_cons.mp hu with rfl | hu
    · exact hs _ (by simp)
    · exact ih (fun x hx => hs x (List.mem_cons_of_mem _ hx)) u hu
  | node r hr _ _ ih1 ih2 =>
    intro u hu
    rcases List.mem_append.mp hu with hu | hu
    · refine ih1 (fun x hx => ?_) u hu
      rcases rhs_sym hr hx with h | h
      · exact .inl h
      · exact .inr h.1
    · exact ih2 (fun x hx => hs x (List.mem_cons_of_mem _ hx)) u hu

/-- The invariant of the driver without what the next token has to do with it. -/
def Inv0 (stk : Stack) (w : List Tok) : Prop :=
  ∃ ys, Lk ys (stk.map Prod.fst) ∧ topState stk ≠ endState ∧ Der ys.reverse (stk.map Prod.snd).reverse w

theorem Inv.inv0 {stk w n} (h : Inv stk w n) : Inv0 stk w := by
  obtain ⟨ys, hl, he, hd⟩ := h
  exact ⟨ys, hl, he, hd.der⟩

/-- The tokens read so far are the beginning of a grammatical sequence. -/
theorem Inv0.begins {stk w} (h : Inv0 stk w) (hw : ∀ u ∈ w, u.type < tEND) : Beginning w := by
  obtain ⟨ys, hl, _, hd⟩ := h
  obtain ⟨i, d, hv⟩ := (Lalr.lr0States.viable ys.reverse).mp ⟨_, hl.follow⟩
  obtain ⟨A, α, hi, _⟩ := Lalr.valid_len hv
  obtain ⟨ts', w', h1, h2⟩ := prod_list (l := α.drop d) fun x hx => gram_prod hi x (List.mem_of_mem_drop hx)
  obtain ⟨t₂, w₂, h3, h4⟩ := valid_continue hv hi hd h1
  rw [List.append_assoc] at h3
  have hgood : ∀ u ∈ w' ++ w₂, Likely u := by
    intro u hu
    rcases List.mem_append.mp hu with hu | hu
    · exact h2 u hu
    · exact h4 u hu
  generalize w' ++ w₂ = v at h3 hgood
  obtain ⟨ta, tb, wa, wb, rfl, he, h5, h6⟩ := Der.split (s₁ := [N.start]) h3
  obtain ⟨e, rfl, het⟩ : ∃ e, wb = [e] ∧ e.type = tEND := by
    generalize hs : [tEND] = ss at h6
    cases h6 with
    | nil => cases hs
    | tok t h =>
      simp only [List.cons.injEq] at hs
      obtain ⟨h7, rfl⟩ := hs
      cases h
      exact ⟨t, rfl, h7.symm⟩
    | node r hr =>
      simp only [List.cons.injEq] at hs
      have := (rule_spec hr).1
      rw [← hs.1] at this
      exact absurd this (by decide)
  obtain ⟨t, rfl⟩ : ∃ t, ta = [t] := by
    have := h5.length
    match ta, this with
    | [t], _ => exact ⟨t, rfl⟩
  rcases List.eq_nil_or_concat v with rfl | ⟨v, x, rfl⟩
  · rw [List.append_nil] at he
    have := hw e (by rw [he]; simp)
    rw [het] at this
    exact absurd this (by decide)
  · rw [List.concat_eq_append, ← List.append_assoc] at he
    obtain ⟨rfl, _⟩ := List.append_inj' he rfl
    refine ⟨v, t, fun u hu => ?_, h5⟩
    rcases hgood u (by simp [hu]) with h | h
    · have := der_types h5 (by decide) u (by simp [hu])
      rw [h] at this
      exact absurd this (by decide)
    · exact h

theorem Inv.begins {stk w n} (h : Inv stk w n) (hw : ∀ u ∈ w, u.type < tEND) : Beginning w :=
  h.inv0.begins hw

end Pycep
