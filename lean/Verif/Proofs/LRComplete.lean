import Verif.Proofs.ItemCheck
/-
The LALR driver is complete: a derivation in which no rule is applied in front of a forbidden
look-ahead is found.
-/
set_option linter.style.nameCheck false
namespace Pycep

/-- Derivations where no rule is applied in front of a token that `badNode` forbids, and where an
operand that directly follows another one does not start with `-` or `[`. -/
inductive DerB : List Nat → List Tree → List Tok → Nat → Prop where
  | nil {n} : DerB [] [] [] n
  | tok {ss ts w n} (t : Tok) : DerB ss ts w n → DerB (t.type :: ss) (.tok t :: ts) (t :: w) n
  | node {ss ts w kids w₁ n} (r : Rule) : r ∈ rules → badNode r (nextT w n) = false →
      (r.lhs = N.value_brackets → ss.head? = some N.value_brackets →
        nextT w n ≠ T.MINUS ∧ nextT w n ≠ T.LSQB) →
      DerB r.rhs kids w₁ (nextT w n) → DerB ss ts w n →
      DerB (r.lhs :: ss) (buildNode r kids :: ts) (w₁ ++ w) n

theorem DerB.der {ss ts w n} (h : DerB ss ts w n) : Der ss ts w := by
  induction h with
  | nil => exact .nil
  | tok t _ ih => exact .tok t ih
  | node r hr _ _ _ _ ih1 ih2 => exact .node r hr ih1 ih2

theorem DerB.length {ss ts w n} (h : DerB ss ts w n) : ss.length = ts.length := h.der.length

/-! ### Lifting the checks -/

theorem subMask_bit {a b i : Nat} (h : subMask a b = true) (hi : a.testBit i = true) :
    b.testBit i = true := testBit_of_sub (by simpa [subMask] using h) hi

theorem ruleTab_spec {i : Nat} {r : Rule} (h : rules[i]? = some r) : ruleTabOK i r = true := by
  have := List.all_eq_true.mp check_ruleTab (r, i) (List.mem_zipIdx_iff_getElem?.mpr h)
  exact this

theorem ruleTab_get {i : Nat} {r : Rule} (h : rules[i]? = some r) :
    ruleTab.get i = some (r.lhs, r.rhs) := by
  have := ruleTab_spec h
  simp only [ruleTabOK, Bool.and_eq_true, beq_iff_eq] at this
  exact this.1.1.1.1

theorem mem_prods {i : Nat} {r : Rule} (h : rules[i]? = some r) :
    i ∈ (prodTab.get (r.lhs - 128)).getD [] := by
  have := ruleTab_spec h
  simp only [ruleTabOK, Bool.and_eq_true] at this
  simpa using this.1.1.1.2

theorem first_sub {r : Rule} (h : r ∈ rules) : subMask (firstSeq r.rhs 0) (firstOf r.lhs) = true := by
  obtain ⟨i, h⟩ := List.mem_iff_getElem?.mp h
  have := ruleTab_spec h
  simp only [ruleTabOK, Bool.and_eq_true] at this
  exact this.1.1.2

theorem null_of {r : Rule} (h : r ∈ rules) (hn : r.rhs.all nullOf = true) : nullOf r.lhs = true := by
  obtain ⟨i, h⟩ := List.mem_iff_getElem?.mp h
  have := ruleTab_spec h
  simp only [ruleTabOK, Bool.and_eq_true] at this
  have := this.1.2
  rw [hn] at this
  simpa using this

theorem rhs_sym {r : Rule} (h : r ∈ rules) {x : Nat} (hx : x ∈ r.rhs) :
    x < tEND ∨ (128 ≤ x ∧ x < 128 + numNts ∧ x ≠ N.start) := by
  obtain ⟨i, h⟩ := List.mem_iff_getElem?.mp h
  have := ruleTab_spec h
  simp only [ruleTabOK, Bool.and_eq_true] at this
  have := List.all_eq_true.mp this.2 x hx
  simpa [and_assoc] using this

theorem item_of_mem {s i d L : Nat} (hs : s < numStates)
    (h : (i, d, L) ∈ (itemTab.get s).getD []) {r : Rule} (hr : rules[i]? = some r) :
    itemOK s i d (gapMask r.rhs d) L = true := by
  have h1 := List.all_eq_true.mp check_items s (List.mem_range.mpr hs)
  simp only [stateItemsOK, Bool.and_eq_true] at h1
  have h2 := List.all_eq_true.mp h1.1 _ h
  simp only [ruleTab_get hr] at h2
  exact h2

theorem hasItem_spec {s i d L : Nat} (hs : s < numStates) (h : hasItem s i d L = true) {r : Rule}
    (hr : rules[i]? = some r) :
    ∃ L', itemOK s i d (gapMask r.rhs d) L' = true ∧ subMask L L' = true := by
  unfold hasItem at h
  obtain ⟨⟨i', d', L'⟩, hm, h⟩ := List.any_eq_true.mp h
  simp only [Bool.and_eq_true, beq_iff_eq] at h
  obtain ⟨⟨rfl, rfl⟩, hsub⟩ := h
  exact ⟨L', item_of_mem hs hm hr, hsub⟩

theorem hasClos_spec {s F L : Nat} {r : Rule} (hs : s < numStates) (h : hasClos s r.lhs F L = true)
    {i : Nat} (hr : rules[i]? = some r) :
    ∃ F' L', itemOK s i 0 F' L' = true ∧ subMask F F' = true ∧ subMask L L' = true := by
  unfold hasClos at h
  obtain ⟨⟨x', F', L'⟩, hm, h⟩ := List.any_eq_true.mp h
  simp only [Bool.and_eq_true, beq_iff_eq] at h
  obtain ⟨⟨rfl, hF⟩, hL⟩ := h
  have h1 := List.all_eq_true.mp check_items s (List.mem_range.mpr hs)
  simp only [stateItemsOK, Bool.and_eq_true] at h1
  have h2 := List.all_eq_true.mp h1.2 _ hm
  have h3 := List.all_eq_true.mp h2 i (mem_prods hr)
  exact ⟨F', L', h3, hF, hL⟩

theorem allMask_bit {n : Nat} (h : n < numTerms) : allMask.testBit n = true := by
  have : ∀ n < numTerms, allMask.testBit n = true := by decide +kernel
  exact this n h

theorem gapMask_bit {rhs : List Nat} {d n : Nat} (h : n < numTerms)
    (hg : ∀ e, d = e + 1 → rhs[e]? = some N.value_brackets → rhs[d]? = some N.value_brackets →
      n ≠ T.MINUS ∧ n ≠ T.LSQB) : (gapMask rhs d).testBit n = true := by
  cases d with
  | zero => exact allMask_bit h
  | succ e =>
    simp only [gapMask]
    split
    · rename_i hh
      obtain ⟨h1, h2⟩ := hg e rfl hh.1 hh.2
      have : ∀ n < numTerms, n ≠ T.MINUS → n ≠ T.LSQB →
          (allMask - 2 ^ T.MINUS - 2 ^ T.LSQB).testBit n = true := by decide +kernel
      exact this n h h1 h2
    · exact allMask_bit h

/-! ### First tokens -/

theorem firstOf_tok {x : Nat} (h : x < 128) : (firstOf x).testBit x = true := by
  simp [firstOf, h]

theorem nullOf_tok {x : Nat} (h : x < 128) : nullOf x = false := by
  simp [nullOf]; omega

theorem firstSeq_mono {a L : Nat} : ∀ {ss : List Nat}, (firstSeq ss 0).testBit a = true →
    (firstSeq ss L).testBit a = true
  | [], h => by simp [firstSeq] at h
  | x :: ss, h => by
    unfold firstSeq at h ⊢
    split
    · rename_i hn
      rw [if_pos hn] at h
      simp only [Nat.testBit_or, Bool.or_eq_true] at h ⊢
      exact h.imp id firstSeq_mono
    · rename_i hn
      rwa [if_neg hn] at h

theorem firstSeq_null {a L : Nat} (hL : L.testBit a = true) : ∀ {ss : List Nat},
    ss.all nullOf = true → (firstSeq ss L).testBit a = true
  | [], _ => hL
  | x :: ss, h => by
    simp only [List.all_cons, Bool.and_eq_true] at h
    unfold firstSeq
    rw [if_pos h.1, Nat.testBit_or, firstSeq_null hL h.2, Bool.or_true]

theorem DerB.first0 {ss ts w n} (h : DerB ss ts w n) (hw : ∀ u ∈ w, u.type < tEND) :
    (w ≠ [] → (firstSeq ss 0).testBit (nextT w n) = true) ∧ (w = [] → ss.all nullOf = true) := by
  have h128 : ∀ {x : Nat}, x < tEND → x < 128 := by intro x h; simp [tEND] at h; omega
  induction h with
  | nil => simp
  | tok t _ ih =>
    have ht := h128 (hw t (by simp))
    refine ⟨fun _ => ?_, by simp⟩
    rw [nextT_cons, firstSeq, if_neg (by simp [nullOf_tok ht])]
    exact firstOf_tok ht
  | @node ss ts w kids w₁ n r hr _ _ hk hrest ih1 ih2 =>
    have ih1 := ih1 (fun u hu => hw u (by simp [hu]))
    have ih2 := ih2 (fun u hu => hw u (by simp [hu]))
    cases w₁ with
    | nil =>
      have hnull := null_of hr (ih1.2 rfl)
      simp only [List.nil_append]
      refine ⟨fun hne => ?_, fun he => ?_⟩
      · rw [firstSeq, if_pos hnull, Nat.testBit_or, ih2.1 hne, Bool.or_true]
      · simp [hnull]
        exact List.all_eq_true.mp (ih2.2 he)
    | cons u w₁ =>
      refine ⟨fun _ => ?_, by simp⟩
      have h1 := subMask_bit (first_sub hr) (ih1.1 (by simp))
      have e : nextT (u :: w₁ ++ w) n = nextT (u :: w₁) (nextT w n) := rfl
      rw [e, firstSeq]
      split
      · rw [Nat.testBit_or, h1, Bool.true_or]
      · exact h1

theorem DerB.first {ss ts w n L} (h : DerB ss ts w n) (hw : ∀ u ∈ w, u.type < tEND)
    (hL : L.testBit n = true) : (firstSeq ss L).testBit (nextT w n) = true := by
  cases w with
  | nil => exact firstSeq_null hL ((h.first0 hw).2 rfl)
  | cons u w => exact firstSeq_mono ((h.first0 hw).1 (by simp))

/-! ### The machine, without fuel -/

/-- reductions in front of a token of type `a` -/
inductive Red (a : Nat) : Stack → Stack → Prop where
  | refl {stk} : Red a stk stk
  | step {stk stk' i rule s} : action (topState stk) a = .reduce i → rules[i]? = some rule →
      rule.rhs.length ≤ stk.length → goto (topState (stk.drop rule.rhs.length)) rule.lhs = some s →
      ¬ (a = tEND ∧ s = endState) →
      Red a ((s, buildNode rule ((stk.take rule.rhs.length).reverse.map Prod.snd)) ::
        stk.drop rule.rhs.length) stk' → Red a stk stk'

theorem Red.trans {a s1 s2 s3} (h : Red a s1 s2) (h' : Red a s2 s3) : Red a s1 s3 := by
  induction h with
  | refl => exact h'
  | step h1 h2 h3 h4 h5 _ ih => exact .step h1 h2 h3 h4 h5 (ih h')

/-- reading tokens -/
inductive Run : Stack → List Tok → Nat → Stack → Prop where
  | done {stk stk' n} : Red n stk stk' → Run stk [] n stk'
  | shift {stk stk1 stk' u s w n} : Red u.type stk stk1 → action (topState stk1) u.type = .shift s →
      u.type ≠ tEND → Run ((s, .tok u) :: stk1) w n stk' → Run stk (u :: w) n stk'

theorem Run.red {s1 s2 s3 w n} (h : Red (nextT w n) s1 s2) (h' : Run s2 w n s3) : Run s1 w n s3 := by
  cases h' with
  | done h2 => exact .done (h.trans h2)
  | shift h1 h2 h3 h4 => exact .shift (h.trans h1) h2 h3 h4

theorem Run.append {s1 s2 s3 w1 w2 n} (h : Run s1 w1 (nextT w2 n) s2) (h' : Run s2 w2 n s3) :
    Run s1 (w1 ++ w2) n s3 := by
  generalize hm : nextT w2 n = m at h
  induction h with
  | done h => subst hm; exact h'.red h
  | shift h1 h2 h3 _ ih => exact .shift h1 h2 h3 (ih h' hm)

/-! ### The simulation -/

theorem badNode_eq {r : Rule} {a : Nat} :
    badNode ⟨r.lhs, r.rhs, "", false, [], 0⟩ a = badNode r a := rfl

theorem shift_lt {p y s : Nat} (hp : p < numStates) (hy : y < tEND) (h : action p y = .shift s) :
    s < numStates := Step.lt hp (.inl ⟨hy, h⟩)

theorem sim {ss ts w n} (h : DerB ss ts w n) : ∀ (stk : Stack) (i d F L : Nat) (r : Rule),
    rules[i]? = some r → d ≤ r.rhs.length → r.rhs.drop d = ss → topState stk < numStates →
    itemOK (topState stk) i d F L = true → F.testBit (nextT w n) = true → L.testBit n = true →
    (∀ u ∈ w, u.type < tEND) → n < numTerms →
    ∃ K F' L', Run stk w n (K ++ stk) ∧ K.map Prod.snd = ts.reverse ∧
      topState (K ++ stk) < numStates ∧ itemOK (topState (K ++ stk)) i r.rhs.length F' L' = true ∧
      F'.testBit n = true ∧ L'.testBit n = true := by
  have h128 : ∀ {x : Nat}, x < tEND → x < 128 := by intro x h; simp [tEND] at h; omega
  induction h with
  | nil =>
    intro stk i d F L r hr hd hdrop hs hit hF hL _ _
    have : d = r.rhs.length := by
      have := List.drop_eq_nil_iff.mp hdrop; omega
    subst this
    exact ⟨[], F, L, .done .refl, rfl, hs, hit, hF, hL⟩
  | @tok ss ts w n t hrest ih =>
    intro stk i d F L r hr hd hdrop hs hit hF hL hw hn
    have ht := hw t (by simp)
    unfold itemOK at hit
    simp only [ruleTab_get hr, hdrop] at hit
    rw [if_pos (h128 ht)] at hit
    rw [nextT_cons] at hF
    simp only [hF, Bool.not_true, Bool.false_or] at hit
    cases ha : action (topState stk) t.type with
    | error => simp [ha] at hit
    | reduce _ => simp [ha] at hit
    | shift s' =>
      simp only [ha] at hit
      have hs' := shift_lt hs ht ha
      obtain ⟨L', hit', hsub⟩ := hasItem_spec hs' hit hr
      have hd' : d + 1 ≤ r.rhs.length := by
        have := congrArg List.length hdrop
        simp only [List.length_drop, List.length_cons] at this; omega
      have hdrop' : r.rhs.drop (d + 1) = ss := by
        rw [← List.drop_drop, hdrop]; rfl
      have hget : r.rhs[d]? = some t.type := by
        have := congrArg List.head? hdrop
        simpa [List.head?_drop] using this
      have hnext : nextT w n < numTerms := by
        cases w with
        | nil => exact hn
        | cons v w => have := hw v (by simp); simp only [nextT, tEND, numTerms] at *; omega
      obtain ⟨K, F', L'', h1, h2, h3, h4, h5, h6⟩ := ih ((s', .tok t) :: stk) i (d + 1) _ L' r hr hd'
        hdrop' hs' hit' (gapMask_bit hnext (by
          intro e he h1 _
          have : e = d := by omega
          subst this
          rw [hget] at h1
          simp only [Option.some.injEq] at h1
          have := h128 ht
          rw [h1] at this
          exact absurd this (by decide))) (subMask_bit hsub hL) (fun u hu => hw u (by simp [hu])) hn
      refine ⟨K ++ [(s', .tok t)], F', L'', ?_, ?_, ?_, ?_, h5, h6⟩
      · rw [List.append_assoc]
        exact .shift .refl ha (Nat.ne_of_lt ht) h1
      · simp [h2]
      · rw [List.append_assoc]; exact h3
      · rw [List.append_assoc]; exact h4
  | @node ss ts w kids w₁ n r' hr' hbad hgap hk hrest ih1 ih2 =>
    intro stk i d F L r hr hd hdrop hs hit hF hL hw hn
    have hw1 : ∀ u ∈ w₁, u.type < tEND := fun u hu => hw u (by simp [hu])
    have hw2 : ∀ u ∈ w, u.type < tEND := fun u hu => hw u (by simp [hu])
    have hget : r.rhs[d]? = some r'.lhs := by
      have := congrArg List.head? hdrop
      simpa [List.head?_drop] using this
    have hmem : r'.lhs ∈ r.rhs := List.mem_of_getElem? hget
    have hrm : r ∈ rules := List.mem_of_getElem? hr
    obtain ⟨hl1, hl2, _⟩ := rule_spec hr'
    have hns : r'.lhs ≠ N.start := by
      rcases rhs_sym hrm hmem with h | h
      · have := h128 h; omega
      · exact h.2.2
    have hd' : d + 1 ≤ r.rhs.length := by
      have := congrArg List.length hdrop
      simp only [List.length_drop, List.length_cons] at this; omega
    have hdrop' : r.rhs.drop (d + 1) = ss := by
      rw [← List.drop_drop, hdrop]; rfl
    have hget' : r.rhs[d + 1]? = ss.head? := by
      rw [← List.head?_drop, hdrop']
    have hnext : nextT w n < numTerms := by
      cases w with
      | nil => exact hn
      | cons v w => have := hw2 v (by simp); simp only [nextT, tEND, numTerms] at *; omega
    have hgm : (gapMask r.rhs (d + 1)).testBit (nextT w n) = true := by
      refine gapMask_bit hnext ?_
      intro e he h1 h2
      have : e = d := by omega
      subst this
      rw [hget] at h1
      rw [hget'] at h2
      exact hgap (by simpa using h1) h2
    unfold itemOK at hit
    simp only [ruleTab_get hr, hdrop] at hit
    rw [if_neg (by omega)] at hit
    rw [nextT_append] at hF
    simp only [Bool.or_eq_true, Bool.and_eq_true, beq_iff_eq, Bool.not_eq_true'] at hit
    rcases hit with ⟨hdis, hnull⟩ | ⟨hclo, hit⟩
    · exfalso
      have hne : w₁ ≠ [] := by
        intro he
        have := null_of hr' ((hk.first0 hw1).2 he)
        rw [hnull] at this; cases this
      have h1 := subMask_bit (first_sub hr') ((hk.first0 hw1).1 hne)
      have : (firstOf r'.lhs &&& F).testBit (nextT w₁ (nextT w n)) = true := by
        rw [Nat.testBit_and, h1, hF]; rfl
      rw [hdis] at this
      simp at this
    · cases hg : goto (topState stk) r'.lhs with
      | none => simp [hg] at hit
      | some s' =>
        simp only [hg] at hit
        have hs' : s' < numStates := Step.lt hs (.inr ⟨hl1, hl2, hg⟩)
        obtain ⟨j, hj⟩ := List.mem_iff_getElem?.mp hr'
        obtain ⟨F', L', hcl, hsF, hsL⟩ := hasClos_spec hs hclo hj
        obtain ⟨K, F2, L2, h1, h2, h3, h4, h5, h6⟩ := ih1 stk j 0 F' L' r' hj (Nat.zero_le _) rfl hs
          hcl (subMask_bit hsF hF)
          (subMask_bit hsL (by rw [Nat.testBit_and, hrest.first hw2 hL, hgm]; rfl)) hw1 hnext
        -- the reduction
        have hKlen : K.length = r'.rhs.length := by
          have := congrArg List.length h2
          simp only [List.length_map, List.length_reverse] at this
          rw [this, hk.length]
        unfold itemOK at h4
        simp only [ruleTab_get hj, List.drop_length] at h4
        have h4 := List.all_eq_true.mp h4 _ (List.mem_range.mpr hnext)
        rw [badNode_eq, hbad] at h4
        simp only [h5, h6, Bool.and_self, Bool.not_true, Bool.false_or] at h4
        have hact : action (topState (K ++ stk)) (nextT w n) = .reduce j := by
          split at h4
          · rename_i h; rw [h]; simp at h4; rw [h4]
          · cases h4
        have hdropK : (K ++ stk).drop r'.rhs.length = stk := by
          rw [← hKlen]; simp
        have htakeK : ((K ++ stk).take r'.rhs.length).reverse.map Prod.snd = kids := by
          rw [← hKlen]; simp [h2]
        have hend : ¬ (nextT w n = tEND ∧ s' = endState) := by
          rintro ⟨_, he⟩
          have := (goto_spec hs hl1 hl2).2.1
          simp only [endGotoOK, hg, he, Bool.and_eq_true, Bool.or_eq_true, bne_self_eq_false,
            Bool.false_eq_true, false_or, beq_iff_eq] at this
          exact hns this.1.2.2
        have hred : Red (nextT w n) (K ++ stk) ((s', buildNode r' kids) :: stk) := by
          refine .step hact hj (by rw [← hKlen]; simp) (by rw [hdropK]; exact hg) hend ?_
          rw [hdropK, htakeK]
          exact .refl
        obtain ⟨L3, hit3, hsub3⟩ := hasItem_spec hs' hit hr
        obtain ⟨K', F4, L4, g1, g2, g3, g4, g5, g6⟩ := ih2 ((s', buildNode r' kids) :: stk) i (d + 1)
          _ L3 r hr hd' hdrop' hs' hit3 hgm (subMask_bit hsub3 hL) hw2 hn
        refine ⟨K' ++ [(s', buildNode r' kids)], F4, L4, ?_, ?_, ?_, ?_, g5, g6⟩
        · rw [List.append_assoc]
          exact h1.append (g1.red hred)
        · simp [g2]
        · rw [List.append_assoc]; exact g3
        · rw [List.append_assoc]; exact g4

theorem goto_start : goto 0 N.start = some endState := by decide +kernel

/-- A derivation of the start symbol is found. -/
theorem run_start {t w} (h : DerB [N.start] [t] w tEND) (hw : ∀ u ∈ w, u.type < tEND) :
    ∃ stk i r, Run [] w tEND stk ∧ action (topState stk) tEND = .reduce i ∧ rules[i]? = some r ∧
      r.lhs = N.start ∧ stk.length = r.rhs.length ∧
      t = buildNode r ((stk.take r.rhs.length).reverse.map Prod.snd) := by
  generalize hss : [N.start] = ss at h
  generalize hts : [t] = ts at h
  generalize hn : tEND = n at h
  cases h with
  | nil => cases hss
  | tok u _ =>
    simp only [List.cons.injEq] at hss
    have := hw u (by simp)
    rw [← hss.1] at this
    exact absurd this (by decide)
  | @node ss ts w kids w₁ _ r hr hbad hgap hk hrest =>
    simp only [List.cons.injEq] at hss hts
    obtain ⟨hl, rfl⟩ := hss
    obtain ⟨rfl, rfl⟩ := hts
    cases hrest
    subst hn
    simp only [List.append_nil] at hw ⊢
    rw [nextT_nil] at hk hbad
    obtain ⟨j, hj⟩ := List.mem_iff_getElem?.mp hr
    have h0 : (0 : Nat) < numStates := by decide
    obtain ⟨F', L', hcl, hsF, hsL⟩ := hasClos_spec h0 (hl ▸ check_start) hj
    have hnext : nextT w₁ tEND < numTerms := by
      cases w₁ with
      | nil => decide
      | cons v w => have := hw v (by simp); simp only [nextT, tEND, numTerms] at *; omega
    obtain ⟨K, F2, L2, h1, h2, h3, h4, h5, h6⟩ := sim hk [] j 0 F' L' r hj (Nat.zero_le _) rfl h0
      hcl (subMask_bit hsF (allMask_bit hnext)) (subMask_bit hsL (by decide)) hw (by decide)
    simp only [List.append_nil] at h1 h3 h4
    have hKlen : K.length = r.rhs.length := by
      have := congrArg List.length h2
      simp only [List.length_map, List.length_reverse] at this
      rw [this, hk.length]
    unfold itemOK at h4
    simp only [ruleTab_get hj, List.drop_length] at h4
    have h4 := List.all_eq_true.mp h4 tEND (List.mem_range.mpr (by decide))
    rw [badNode_eq, hbad] at h4
    simp only [h5, h6, Bool.and_self, Bool.not_true, Bool.false_or] at h4
    have hact : action (topState K) tEND = .reduce j := by
      split at h4
      · rename_i h; rw [h]; simp at h4; rw [h4]
      · cases h4
    refine ⟨K, j, r, h1, hact, hj, hl.symm, hKlen, ?_⟩
    rw [← hKlen]
    simp [h2]

end Pycep
