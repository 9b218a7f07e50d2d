import Mathlib.Data.List.Induction
import Verif.Proofs.LalrCheck
/-
The states of the table are the sets of valid LR(0) items.
-/
set_option linter.style.nameCheck false
namespace Pycep.Lalr

/-! ### Numbers of items -/

/-- number of the first item of a rule -/
def offs (g : Cfg) (i : Nat) : Nat := ((g.take i).map fun r => r.2.length + 1).sum

theorem offs_zero (g) : offs g 0 = 0 := by simp [offs]
theorem offs_cons (r : Nat × List Nat) (g i) :
    offs (r :: g) (i + 1) = r.2.length + 1 + offs g i := by simp [offs]

theorem offs_succ {g : Cfg} {i A α} (h : g[i]? = some (A, α)) :
    offs g (i + 1) = offs g i + α.length + 1 := by
  induction g generalizing i with
  | nil => simp at h
  | cons r g ih =>
    cases i with
    | zero =>
      simp only [List.getElem?_cons_zero, Option.some.injEq] at h
      subst h
      simp [offs_cons, offs_zero]
    | succ i =>
      rw [List.getElem?_cons_succ] at h
      rw [offs_cons, offs_cons, ih h]; omega

theorem offs_mono (g : Cfg) {i j : Nat} (h : i ≤ j) : offs g i ≤ offs g j := by
  induction g generalizing i j with
  | nil => simp [offs]
  | cons r g ih =>
    cases i with
    | zero => simp [offs_zero]
    | succ i =>
      cases j with
      | zero => omega
      | succ j =>
        rw [offs_cons, offs_cons]
        have := @ih i j (by omega)
        omega

theorem offs_inj {g : Cfg} {i j d e A α B β} (h : g[i]? = some (A, α)) (hd : d ≤ α.length)
    (h' : g[j]? = some (B, β)) (he : e ≤ β.length) (heq : offs g i + d = offs g j + e) :
    i = j ∧ d = e := by
  rcases Nat.lt_trichotomy i j with hlt | rfl | hlt
  · have := offs_mono g (show i + 1 ≤ j from hlt)
    rw [offs_succ h] at this
    omega
  · omega
  · have := offs_mono g (show j + 1 ≤ i from hlt)
    rw [offs_succ h'] at this
    omega

theorem testBit_one_shl (o p : Nat) : (1 <<< o).testBit p = decide (p = o) := by
  rw [Nat.one_shiftLeft, Nat.testBit_two_pow]
  simp [eq_comm]

theorem testBit_bif (b : Bool) (o p : Nat) :
    (bif b then 1 <<< o else 0).testBit p = (b && decide (p = o)) := by
  cases b
  · simp
  · rw [cond_true, testBit_one_shl]; rfl

theorem rhsBits_spec {X α o p} :
    (rhsBits X α o).testBit p = true ↔ ∃ d, α[d]? = some X ∧ p = o + d := by
  induction α generalizing o with
  | nil => simp [rhsBits]
  | cons x xs ih =>
    rw [rhsBits, Nat.testBit_or, testBit_bif, Bool.or_eq_true, ih, Bool.and_eq_true]
    simp only [Nat.beq_eq, decide_eq_true_eq]
    constructor
    · rintro (⟨rfl, rfl⟩ | ⟨d, hd, rfl⟩)
      · exact ⟨0, by simp, rfl⟩
      · exact ⟨d + 1, by simpa using hd, by omega⟩
    · rintro ⟨d, hd, rfl⟩
      cases d with
      | zero => left; simpa using hd
      | succ d => right; exact ⟨d, by simpa using hd, by omega⟩

theorem symBits_spec {X g o p} : (symBits X g o).testBit p = true ↔
    ∃ i A α d, g[i]? = some (A, α) ∧ α[d]? = some X ∧ p = o + offs g i + d := by
  induction g generalizing o with
  | nil => simp [symBits]
  | cons r g ih =>
    obtain ⟨B, β⟩ := r
    rw [symBits, Nat.testBit_or, Bool.or_eq_true, force_eq, ih, rhsBits_spec]
    constructor
    · rintro (⟨d, hd, rfl⟩ | ⟨i, A, α, d, hi, hd, rfl⟩)
      · exact ⟨0, B, β, d, by simp, hd, by simp [offs_zero]⟩
      · exact ⟨i + 1, A, α, d, by simpa using hi, hd, by rw [offs_cons]; simp only; omega⟩
    · rintro ⟨i, A, α, d, hi, hd, rfl⟩
      cases i with
      | zero =>
        simp only [List.getElem?_cons_zero, Option.some.injEq, Prod.mk.injEq] at hi
        obtain ⟨rfl, rfl⟩ := hi
        left; exact ⟨d, hd, by simp [offs_zero]⟩
      | succ i =>
        right
        exact ⟨i, A, α, d, by simpa using hi, hd, by rw [offs_cons]; simp only; omega⟩

theorem prodBits_spec {A g o p} : (prodBits A g o).testBit p = true ↔
    ∃ i α, g[i]? = some (A, α) ∧ p = o + offs g i := by
  induction g generalizing o with
  | nil => simp [prodBits]
  | cons r g ih =>
    obtain ⟨B, β⟩ := r
    rw [prodBits, Nat.testBit_or, Bool.or_eq_true, force_eq, ih, testBit_bif, Bool.and_eq_true]
    simp only [Nat.beq_eq, decide_eq_true_eq]
    constructor
    · rintro (⟨rfl, rfl⟩ | ⟨i, α, hi, rfl⟩)
      · exact ⟨0, β, by simp, by simp [offs_zero]⟩
      · exact ⟨i + 1, α, by simpa using hi, by rw [offs_cons]; simp only; omega⟩
    · rintro ⟨i, α, hi, rfl⟩
      cases i with
      | zero =>
        simp only [List.getElem?_cons_zero, Option.some.injEq, Prod.mk.injEq] at hi
        obtain ⟨rfl, rfl⟩ := hi
        left; exact ⟨rfl, by simp [offs_zero]⟩
      | succ i =>
        right
        exact ⟨i, α, by simpa using hi, by rw [offs_cons]; simp only; omega⟩

theorem subMask_iff {a b : Nat} : subMask a b = true ↔ ∀ p, a.testBit p = true → b.testBit p = true := by
  unfold subMask
  rw [beq_iff_eq]
  constructor
  · intro h p hp
    have := congrArg (fun n => n.testBit p) h
    simp only [Nat.testBit_and, hp, Bool.true_and] at this
    exact this
  · intro h
    apply Nat.eq_of_testBit_eq
    intro p
    rw [Nat.testBit_and]
    cases hp : a.testBit p with
    | false => rfl
    | true => simp [h p hp]

theorem exists_bit {n : Nat} (h : n ≠ 0) : ∃ p, n.testBit p = true := by
  obtain ⟨p, hp⟩ := Nat.exists_testBit_of_ne_zero h
  exact ⟨p, hp⟩

/-! ### Symbols -/

theorem mem_allNts {A : Nat} : A ∈ allNts ↔ 128 ≤ A ∧ A ≤ rootSym := by
  simp only [allNts, List.mem_map, List.mem_range, rootSym]
  constructor
  · rintro ⟨a, ha, rfl⟩; omega
  · rintro ⟨h1, h2⟩; exact ⟨A - 128, by omega, by omega⟩

theorem mem_allSyms {X : Nat} : X ∈ allSyms ↔ X < numTerms ∨ (128 ≤ X ∧ X ≤ rootSym) := by
  simp [allSyms, mem_allNts]

theorem symOf_spec {X p} (hX : X ∈ allSyms) : (symOf X).testBit p = true ↔
    ∃ i A α d, gram[i]? = some (A, α) ∧ α[d]? = some X ∧ p = offs gram i + d := by
  have := List.all_eq_true.mp check_sym X hX
  rw [beq_iff_eq] at this
  rw [this, symBits_spec]
  simp

theorem headOf_spec {A p} (hA : A ∈ allNts) : (headOf A).testBit p = true ↔
    ∃ i α, gram[i]? = some (A, α) ∧ p = offs gram i := by
  have := List.all_eq_true.mp check_head A hA
  rw [beq_iff_eq] at this
  rw [this, prodBits_spec]
  simp

theorem gram_length : gram.length = numRules + 1 := by
  simp only [gram, List.length_append, List.length_map, List.length_singleton]
  rw [show rules.length = numRules by decide +kernel]

theorem gRule_eq {i : Nat} {r} (h : gram[i]? = some r) : gRule i = some r := by
  have hi : i < numRules + 1 := by
    rw [← gram_length]; exact (List.getElem?_eq_some_iff.mp h).1
  have := List.all_eq_true.mp check_gram i (List.mem_range.mpr hi)
  rw [beq_iff_eq] at this
  rw [← this, h]

theorem gram_syms : (gram.all fun r => decide (128 ≤ r.1 ∧ r.1 ≤ rootSym) &&
    r.2.all fun x => decide (x < numTerms) || decide (128 ≤ x ∧ x < rootSym)) = true := by
  decide +kernel

theorem gram_lhs {i A : Nat} {α : List Nat} (h : gram[i]? = some (A, α)) : A ∈ allNts := by
  have := List.all_eq_true.mp gram_syms (A, α) (List.mem_of_getElem? h)
  simp only [Bool.and_eq_true, decide_eq_true_eq] at this
  exact mem_allNts.mpr this.1

theorem gram_rhs {i A d X : Nat} {α : List Nat} (h : gram[i]? = some (A, α)) (hX : α[d]? = some X) :
    X < numTerms ∨ (128 ≤ X ∧ X < rootSym) := by
  have := List.all_eq_true.mp gram_syms (A, α) (List.mem_of_getElem? h)
  simp only [Bool.and_eq_true, decide_eq_true_eq] at this
  have := List.all_eq_true.mp this.2 X (List.mem_of_getElem? hX)
  simpa using this

theorem gram_rhs_mem {i A d X : Nat} {α : List Nat} (h : gram[i]? = some (A, α)) (hX : α[d]? = some X) :
    X ∈ allSyms := by
  rw [mem_allSyms]
  rcases gram_rhs h hX with h | h
  · exact .inl h
  · exact .inr ⟨h.1, by omega⟩

theorem mem_gProd {i A α} (h : gram[i]? = some (A, α)) : i ∈ gProd A := by
  by_cases hi : i = numRules
  · subst hi
    have h1 := gRule_eq h
    simp only [gRule, if_true, Option.some.injEq, Prod.mk.injEq] at h1
    rw [← h1.1, gProd, if_pos rfl]; simp
  · have hlt : i < rules.length := by
      have := (List.getElem?_eq_some_iff.mp h).1
      rw [gram_length] at this
      rw [show rules.length = numRules by decide +kernel]; omega
    have hr : gram[i]? = some ((rules[i]).lhs, (rules[i]).rhs) := by
      unfold gram
      rw [List.getElem?_append_left (by simpa using hlt)]
      simp [hlt]
    rw [h] at hr
    simp only [Option.some.injEq, Prod.mk.injEq] at hr
    have hm : (rules[i], i) ∈ rules.zipIdx := by
      rw [List.mk_mem_zipIdx_iff_getElem?]; simp [hlt]
    have := List.all_eq_true.mp check_ruleTab _ hm
    simp only [ruleTabOK, Bool.and_eq_true] at this
    obtain ⟨⟨⟨⟨_, h2⟩, _⟩, _⟩, _⟩ := this
    have hA : A ≠ rootSym := by
      intro hA
      have := List.all_eq_true.mp (show (rules.all fun r => r.lhs != rootSym) = true by
        decide +kernel) _ (List.getElem_mem hlt)
      rw [← hr.1, hA] at this
      simp at this
    rw [gProd, if_neg hA, hr.1]
    exact List.contains_iff_mem.mp h2

/-! ### Following symbols -/

theorem follow_append (T : LRTable) (s γ δ) :
    T.follow s (γ ++ δ) = (T.follow s γ).bind fun q => T.follow q δ := by
  induction γ generalizing s with
  | nil => rfl
  | cons X γ ih =>
    simp only [List.cons_append, LRTable.follow]
    cases T.next s X with
    | none => rfl
    | some q => exact ih q

theorem follow_snoc {T : LRTable} {s γ X q} : T.follow s (γ ++ [X]) = some q ↔
    ∃ p, T.follow s γ = some p ∧ T.next p X = some q := by
  rw [follow_append]
  cases T.follow s γ with
  | none => simp
  | some p => simp [LRTable.follow]

theorem next_mem {q X q'} (h : table.next q X = some q') : X ∈ allSyms := by
  rw [mem_allSyms]
  unfold LRTable.next at h
  split at h
  · by_cases ht : X < numTerms
    · exact .inl ht
    · have : action q X = .error := by unfold action; rw [if_neg ht]
      simp [table, this] at h
  · by_cases ht : X - 128 < numNts
    · right; simp only [rootSym]; omega
    · have : goto q X = .none := by unfold goto; rw [if_neg ht]
      simp [table, this] at h

theorem next_spec {q X} (hq : q < numStates) (hX : X ∈ allSyms) :
    match table.next q X with
    | .none => (lr0Of q &&& symOf X) <<< 1 = 0
    | some q' => (lr0Of q &&& symOf X) <<< 1 ≠ 0 ∧ q' < numStates ∧
        kernOf q' = (lr0Of q &&& symOf X) <<< 1 := by
  have := List.all_eq_true.mp (List.all_eq_true.mp check_trans q (List.mem_range.mpr hq)) X hX
  unfold transOK at this
  cases hn : table.next q X with
  | none => simpa [hn] using this
  | some q' =>
    simp only [hn, Bool.and_eq_true, bne_iff_ne, ne_eq, decide_eq_true_eq, beq_iff_eq] at this
    exact ⟨this.1.1, this.1.2, this.2⟩

theorem kern_zero : kernOf 0 = 0 := by decide +kernel

/-! ### Closure -/

theorem closeBits_le {l acc r} (h : closeBits l acc = some r) {p} (hp : acc.testBit p = true) :
    r.testBit p = true := by
  induction l generalizing acc with
  | nil => simp only [closeBits, Option.some.injEq] at h; rwa [← h]
  | cons A l ih =>
    rw [closeBits] at h
    split at h
    · cases h
    · exact ih h (by simp [hp])

theorem clos_spec {q} (hq : q < numStates) :
    closeBits (startsOf q) (baseOf q) = some (lr0Of q) ∧ lr0Of q ≠ 0 ∧
    (∀ A ∈ startsOf q, 128 ≤ A ∧ A < rootSym) ∧
    ∀ A ∈ allNts, lr0Of q &&& symOf A = 0 ∨ ∀ p, (headOf A).testBit p = true →
      (lr0Of q).testBit p = true := by
  have := List.all_eq_true.mp check_clos q (List.mem_range.mpr hq)
  simp only [closOK, Bool.and_eq_true, beq_iff_eq, bne_iff_ne, ne_eq, List.all_eq_true,
    Bool.or_eq_true, decide_eq_true_eq, subMask_iff] at this
  exact ⟨this.1.1.1, this.1.1.2, this.1.2, this.2⟩

/-- the valid items, by their numbers -/
def V (γ : List Nat) (p : Nat) : Prop :=
  ∃ i d A α, gram[i]? = some (A, α) ∧ d ≤ α.length ∧ Valid0 gram rootSym γ i d ∧
    p = offs gram i + d

theorem valid_len {γ i d} (h : Valid0 gram rootSym γ i d) :
    ∃ A α, gram[i]? = some (A, α) ∧ d ≤ α.length := by
  induction h with
  | start h => exact ⟨_, _, h, by omega⟩
  | close _ _ _ h _ => exact ⟨_, _, h, by omega⟩
  | step _ h hX _ =>
    have := (List.getElem?_eq_some_iff.mp hX).1
    exact ⟨_, _, h, by omega⟩

theorem V_iff {γ i d A α} (h : gram[i]? = some (A, α)) (hd : d ≤ α.length) :
    V γ (offs gram i + d) ↔ Valid0 gram rootSym γ i d := by
  constructor
  · rintro ⟨j, e, B, β, hj, he, hv, heq⟩
    obtain ⟨rfl, rfl⟩ := offs_inj h hd hj he heq
    exact hv
  · intro hv; exact ⟨i, d, A, α, h, hd, hv, rfl⟩

/-- every valid item is in the state -/
theorem valid_mem {γ i d} (h : Valid0 gram rootSym γ i d) :
    ∃ q, q < numStates ∧ table.follow 0 γ = some q ∧
      (lr0Of q).testBit (offs gram i + d) = true := by
  induction h with
  | @start i α hi =>
    have h0 : (0 : Nat) < numStates := by decide
    refine ⟨0, h0, rfl, ?_⟩
    refine closeBits_le (clos_spec h0).1 ?_
    rw [baseOf, if_pos rfl, headOf_spec (gram_lhs hi)]
    exact ⟨i, α, hi, by omega⟩
  | @close γ i d A α B j β _ hi hB hj ih =>
    obtain ⟨q, hq, hf, hb⟩ := ih
    refine ⟨q, hq, hf, ?_⟩
    rcases (clos_spec hq).2.2.2 B (gram_lhs hj) with h0 | h0
    · exfalso
      have hs : (symOf B).testBit (offs gram i + d) = true :=
        (symOf_spec (gram_rhs_mem hi hB)).mpr ⟨i, A, α, d, hi, hB, rfl⟩
      have := congrArg (fun n => n.testBit (offs gram i + d)) h0
      simp [hb, hs] at this
    · exact h0 _ ((headOf_spec (gram_lhs hj)).mpr ⟨j, β, hj, by omega⟩)
  | @step γ i d A α X _ hi hX ih =>
    obtain ⟨q, hq, hf, hb⟩ := ih
    have hs : (symOf X).testBit (offs gram i + d) = true :=
      (symOf_spec (gram_rhs_mem hi hX)).mpr ⟨i, A, α, d, hi, hX, rfl⟩
    have hm : ((lr0Of q &&& symOf X) <<< 1).testBit (offs gram i + d + 1) = true := by
      simp [Nat.testBit_shiftLeft, hb, hs]
    have hn := next_spec hq (gram_rhs_mem hi hX)
    cases hx : table.next q X with
    | none => rw [hx] at hn; simp only at hn; rw [hn] at hm; simp at hm
    | some q' =>
      rw [hx] at hn
      obtain ⟨_, hq', hk⟩ := hn
      refine ⟨q', hq', follow_snoc.mpr ⟨q, hf, hx⟩, ?_⟩
      refine closeBits_le (clos_spec hq').1 ?_
      rw [baseOf]
      split
      · rename_i h0
        rw [h0, kern_zero] at hk
        rw [← hk] at hm; simp at hm
      · rw [hk]; exact hm

theorem closeBits_sound {l acc r γ} (hl : ∀ A ∈ l, 128 ≤ A ∧ A < rootSym)
    (h : closeBits l acc = some r) (ha : ∀ p, acc.testBit p = true → V γ p) :
    ∀ p, r.testBit p = true → V γ p := by
  induction l generalizing acc with
  | nil => simp only [closeBits, Option.some.injEq] at h; rwa [← h]
  | cons A l ih =>
    rw [closeBits] at h
    split at h
    · cases h
    · rename_i hne
      have hA := hl A (by simp)
      refine ih (fun B hB => hl B (by simp [hB])) h ?_
      intro p hp
      rw [Nat.testBit_or, Bool.or_eq_true] at hp
      rcases hp with hp | hp
      · exact ha p hp
      · obtain ⟨p', hp'⟩ := exists_bit hne
        rw [Nat.testBit_and, Bool.and_eq_true] at hp'
        obtain ⟨i, B, α, d, hi, hd, rfl⟩ :=
          (symOf_spec (mem_allSyms.mpr (.inr ⟨hA.1, by omega⟩))).mp hp'.2
        have hlen := (List.getElem?_eq_some_iff.mp hd).1
        have hv := (V_iff hi (by omega)).mp (ha _ hp'.1)
        obtain ⟨j, β, hj, rfl⟩ := (headOf_spec (mem_allNts.mpr ⟨hA.1, by omega⟩)).mp hp
        exact ⟨j, 0, A, β, hj, by omega, .close hv hi hd hj, by omega⟩

/-- a state has only valid items -/
theorem mem_valid {γ q} (h : table.follow 0 γ = some q) :
    q < numStates ∧ ∀ p, (lr0Of q).testBit p = true → V γ p := by
  induction γ using List.reverseRecOn generalizing q with
  | nil =>
    simp only [LRTable.follow, Option.some.injEq] at h
    subst h
    have h0 : (0 : Nat) < numStates := by decide
    refine ⟨h0, closeBits_sound (clos_spec h0).2.2.1 (clos_spec h0).1 ?_⟩
    intro p hp
    rw [baseOf, if_pos rfl, headOf_spec (mem_allNts.mpr ⟨by simp [rootSym], by omega⟩)] at hp
    obtain ⟨i, α, hi, rfl⟩ := hp
    exact ⟨i, 0, _, α, hi, by omega, .start hi, by omega⟩
  | append_singleton γ X ih =>
    obtain ⟨s, hs, hx⟩ := follow_snoc.mp h
    obtain ⟨hlt, hV⟩ := ih hs
    have hX := next_mem hx
    have hn := next_spec hlt hX
    rw [hx] at hn
    obtain ⟨hne, hq, hk⟩ := hn
    have h0 : q ≠ 0 := by
      rintro rfl
      exact hne (hk.symm.trans kern_zero)
    refine ⟨hq, closeBits_sound (clos_spec hq).2.2.1 (clos_spec hq).1 ?_⟩
    intro p hp
    rw [baseOf, if_neg h0, hk, Nat.testBit_shiftLeft] at hp
    simp only [Bool.and_eq_true, decide_eq_true_eq, Nat.testBit_and] at hp
    obtain ⟨hp1, hp2, hp3⟩ := hp
    obtain ⟨i, A, α, d, hi, hd, he⟩ := (symOf_spec hX).mp hp3
    have hlen := (List.getElem?_eq_some_iff.mp hd).1
    rw [he] at hp2
    have hv := (V_iff hi (by omega)).mp (hV _ hp2)
    exact ⟨i, d + 1, A, α, hi, by omega, .step hv hi hd, by omega⟩

theorem lr0_iff {γ q} (h : table.follow 0 γ = some q) (p : Nat) :
    (lr0Of q).testBit p = true ↔ V γ p := by
  refine ⟨(mem_valid h).2 p, ?_⟩
  rintro ⟨i, d, A, α, _, _, hv, rfl⟩
  obtain ⟨q', _, hf, hb⟩ := valid_mem hv
  rw [h] at hf
  cases hf
  exact hb

theorem rank_lt {r s : Nat} (h : r < s) (hs : s < numStates) :
    lr0Of (rankOf r) < lr0Of (rankOf s) := by
  induction s with
  | zero => omega
  | succ s ih =>
    have hst := List.all_eq_true.mp check_rank s (List.mem_range.mpr (by omega))
    rw [decide_eq_true_eq] at hst
    rcases Nat.lt_or_ge r s with hlt | hge
    · exact Nat.lt_trans (ih hlt (by omega)) hst
    · have : r = s := by omega
      rw [this]; exact hst

theorem lr0_inj {q q'} (hq : q < numStates) (hq' : q' < numStates) (h : lr0Of q = lr0Of q') :
    q = q' := by
  have h1 := List.all_eq_true.mp check_inv q (List.mem_range.mpr hq)
  have h2 := List.all_eq_true.mp check_inv q' (List.mem_range.mpr hq')
  simp only [Bool.and_eq_true, beq_iff_eq, decide_eq_true_eq] at h1 h2
  rcases Nat.lt_trichotomy (invOf q) (invOf q') with hlt | heq | hlt
  · have := rank_lt hlt h2.2
    rw [h1.1, h2.1] at this; omega
  · rw [← h1.1, ← h2.1, heq]
  · have := rank_lt hlt h1.2
    rw [h1.1, h2.1] at this; omega

theorem reached {q} (hq : q < numStates) : ∃ γ, table.follow 0 γ = some q := by
  induction q using Nat.strongRecOn with
  | _ q ih =>
    by_cases h0 : q = 0
    · exact ⟨[], by simp [LRTable.follow, h0]⟩
    · have := List.all_eq_true.mp check_pred q (List.mem_range.mpr hq)
      unfold predOK at this
      cases hp : predTab.get q with
      | none => simp [hp, h0] at this
      | some n =>
        simp only [hp, Bool.or_eq_true, beq_iff_eq, h0, false_or, Bool.and_eq_true,
          decide_eq_true_eq] at this
        obtain ⟨γ, hγ⟩ := ih (n / 1024) this.1 (by omega)
        exact ⟨γ ++ [n % 1024], follow_snoc.mpr ⟨_, hγ, this.2⟩⟩

theorem lr0States : LR0States gram rootSym table numStates where
  viable γ := by
    constructor
    · rintro ⟨q, hq⟩
      obtain ⟨hlt, hv⟩ := mem_valid hq
      obtain ⟨p, hp⟩ := exists_bit (clos_spec hlt).2.1
      obtain ⟨i, d, _, _, _, _, h, _⟩ := hv p hp
      exact ⟨i, d, h⟩
    · rintro ⟨i, d, h⟩
      obtain ⟨q, _, hf, _⟩ := valid_mem h
      exact ⟨q, hf⟩
  same γ γ' q q' h h' := by
    constructor
    · rintro rfl i d
      constructor
      · intro hv
        obtain ⟨A, α, hi, hd⟩ := valid_len hv
        rw [← V_iff hi hd, ← lr0_iff h', lr0_iff h, V_iff hi hd]; exact hv
      · intro hv
        obtain ⟨A, α, hi, hd⟩ := valid_len hv
        rw [← V_iff hi hd, ← lr0_iff h, lr0_iff h', V_iff hi hd]; exact hv
    · intro hv
      refine lr0_inj (mem_valid h).1 (mem_valid h').1 ?_
      apply Nat.eq_of_testBit_eq
      intro p
      rw [Bool.eq_iff_iff, lr0_iff h, lr0_iff h']
      simp only [V, hv]
  reached q := ⟨reached, fun ⟨_, h⟩ => (mem_valid h).1⟩

end Pycep.Lalr
