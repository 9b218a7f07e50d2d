import Verif.Spec.Expected
import Verif.Proofs.SynErr
import Verif.Proofs.Unless
/-
What the exceptions for syntax errors name as acceptable (`Expected.lean`): proofs.
-/
namespace Pycep

/-! ### Feeding a token that need not be the one read next -/

theorem Inv0.reduce_step {stk : Stack} {w : List Tok} {r a : Nat} (h : Inv0 stk w)
    (ha : action (topState stk) a = .reduce r) :
    ∃ rule s, rules[r]? = some rule ∧ rule ∈ rules ∧ rule.rhs.length ≤ stk.length ∧
      goto (topState (stk.drop rule.rhs.length)) rule.lhs = some s ∧
      (let value := buildNode rule ((stk.take rule.rhs.length).reverse.map Prod.snd)
       let stk' := (s, value) :: stk.drop rule.rhs.length
       ∃ ys', Lk (rule.lhs :: ys') (stk'.map Prod.fst) ∧
        Der (rule.lhs :: ys').reverse (stk'.map Prod.snd).reverse w) := by
  obtain ⟨ys, hl, hne, hd⟩ := h
  rw [topState_eq] at ha
  obtain ⟨rule, s, ys', hr, hys, hg⟩ := hl.reduce ha
  have hmem : rule ∈ rules := List.mem_of_getElem? hr
  obtain ⟨hl1, hl2, _⟩ := rule_spec hmem
  have hlen : ys.length = stk.length := by simpa using hl.length
  have hle : rule.rhs.length ≤ stk.length := by
    rw [← hlen, hys]; simp
  have hys' : ys' = ys.drop rule.rhs.length := by
    rw [hys, List.drop_append_of_le_length (by simp)]
    simp
  refine ⟨rule, s, hr, hmem, hle, ?_, ys', ?_, ?_⟩
  · rw [topState_eq, List.map_drop]; exact hg
  · simp only [List.map_cons, List.map_drop]
    refine .cons ?_ (.inr ⟨hl1, hl2, hg⟩)
    rw [hys']; exact hl.drop _
  · have hd' := hd
    rw [hys, List.reverse_append, List.reverse_reverse] at hd'
    obtain ⟨t₁, t₂, w₁, w₂, ht, hw, h₁, h₂⟩ := hd'.split
    have hlen2 : t₂.length = rule.rhs.length := h₂.length.symm
    have hv : (stk.map Prod.snd) = t₂.reverse ++ t₁.reverse := by
      have := congrArg List.reverse ht
      simpa using this
    have htake : (stk.take rule.rhs.length).map Prod.snd = t₂.reverse := by
      rw [List.map_take, hv, List.take_append_of_le_length (by simp [hlen2]),
        List.take_of_length_le (by simp [hlen2])]
    have hdrop : (stk.drop rule.rhs.length).map Prod.snd = t₁.reverse := by
      rw [List.map_drop, hv, List.drop_append_of_le_length (by simp [hlen2]),
        List.drop_of_length_le (by simp [hlen2])]
      simp
    simp only [List.map_cons, List.reverse_cons, hdrop, List.reverse_reverse]
    have hk : (stk.take rule.rhs.length).reverse.map Prod.snd = t₂ := by
      rw [List.map_reverse, htake, List.reverse_reverse]
    rw [hk, hw]
    have : Der [rule.lhs] [buildNode rule t₂] w₂ := by
      simpa using Der.node rule hmem (w := []) h₂ .nil
    exact h₁.append this

/-- a reduction that does not finish the text keeps the invariant -/
theorem Inv0.reduce_inv {stk : Stack} {w : List Tok} {r a : Nat} (h : Inv0 stk w)
    (ha : action (topState stk) a = .reduce r) :
    ∃ rule s, rules[r]? = some rule ∧ rule.rhs.length ≤ stk.length ∧
      goto (topState (stk.drop rule.rhs.length)) rule.lhs = some s ∧
      (let value := buildNode rule ((stk.take rule.rhs.length).reverse.map Prod.snd)
       (a = tEND ∧ s = endState → Der [N.start] [value] w) ∧
       (¬ (a = tEND ∧ s = endState) → Inv0 ((s, value) :: stk.drop rule.rhs.length) w)) := by
  obtain ⟨rule, s, hr, hmem, hle, hg, ys', hl', hd'⟩ := h.reduce_step ha
  refine ⟨rule, s, hr, hle, hg, ?_⟩
  have hlk : Lk ys' ((stk.drop rule.rhs.length).map Prod.fst) := by
    cases hl' with | cons h _ => exact h
  obtain ⟨hl1, hl2, _⟩ := rule_spec hmem
  have heg := (goto_spec hlk.lt hl1 hl2).2.1
  rw [← topState_eq] at heg
  constructor
  · intro hend
    simp only [endGotoOK, hg, hend.2, Bool.and_eq_true, Bool.or_eq_true, bne_self_eq_false,
      Bool.false_eq_true, false_or, beq_iff_eq] at heg
    have hnil := hlk.top_eq_zero (by rw [← topState_eq]; exact heg.1.2.1)
    have hys : ys' = [] := by
      have := hlk.length; rw [hnil] at this
      exact List.length_eq_zero_iff.mp (by simpa using this)
    simp only [List.map_cons, hys] at hd'
    have hs0 : (stk.drop rule.rhs.length) = [] := by simpa using hnil
    rw [hs0] at hd'
    rw [heg.1.2.2] at hd'
    simpa using hd'
  · intro hend
    refine ⟨rule.lhs :: ys', hl', ?_, hd'⟩
    simp only [topState]
    intro hse
    apply hend
    refine ⟨?_, hse⟩
    simp only [endGotoOK, hg, hse, Bool.and_eq_true, Bool.or_eq_true, bne_self_eq_false,
      Bool.false_eq_true, false_or, beq_iff_eq] at heg
    have hlt : a < numTerms := by
      rcases Nat.lt_or_ge a numTerms with h | h
      · exact h
      · rw [action_ge h] at ha; cases ha
    obtain ⟨ys, hl, _, _⟩ := h
    have hact := (action_spec (p := topState stk) (by rw [topState_eq]; exact hl.lt) hlt).2
    simp only [endOK, ha, hr, heg.1.2.2, bne_self_eq_false, Bool.false_or, Bool.and_eq_true,
      beq_iff_eq] at hact
    exact hact.1

theorem feed_spec0 (n : Nat) : ∀ (stk : Stack) (w : List Tok) (tk : Tok), Inv0 stk w →
    (∀ stk', feed n stk tk = .shifted stk' → Inv0 stk' (w ++ [tk]) ∧ tk.type < tEND) ∧
    (∀ t, feed n stk tk = .accept t → Der [N.start] [t] w ∧ tk.type = tEND) ∧
    feed n stk tk ≠ .stuck ∧ Inv0 (feedStop n stk tk) w := by
  induction n with
  | zero => intro stk w tk h; simpa [feed, feedStop] using h
  | succ n ih =>
    intro stk w tk hinv
    unfold feed feedStop
    cases ha : action (topState stk) tk.type with
    | error => simpa using hinv
    | shift s =>
      refine ⟨?_, ?_, ?_, hinv⟩
      all_goals
        have hlt : tk.type < numTerms := by
          rcases Nat.lt_or_ge tk.type numTerms with h | h
          · exact h
          · rw [action_ge h] at ha; cases ha
        obtain ⟨ys, hl, hne, hd⟩ := hinv
        have hact := action_spec (p := topState stk) (by rw [topState_eq]; exact hl.lt) hlt
        simp only [actionOK, endOK, ha] at hact
        by_cases he : tk.type = tEND
        · simp [he, hne] at hact
        simp only [he, if_false] at hact ⊢
      · have hlt' : tk.type < tEND := by
          simp [numTerms] at hlt; simp [tEND] at he ⊢; omega
        intro stk' hs
        simp only [FeedRes.shifted.injEq] at hs
        subst hs
        refine ⟨⟨tk.type :: ys, ?_, ?_, ?_⟩, hlt'⟩
        · simp only [List.map_cons]
          exact .cons hl (.inl ⟨hlt', by rw [← topState_eq]; exact ha⟩)
        · have := hact.2
          simp at this
          simpa [topState] using this.2
        · simp only [List.map_cons, List.reverse_cons]
          exact hd.append (w₂ := [tk]) (.tok tk .nil)
      · simp
      · simp
    | reduce r =>
      obtain ⟨rule, s, hr, hle, hg, hfin, hgo⟩ := hinv.reduce_inv ha
      simp only [hr]
      rw [if_neg (by omega), if_neg (by omega)]
      simp only [hg]
      by_cases hend : tk.type = tEND ∧ s = endState
      · rw [if_pos hend, if_pos hend]
        refine ⟨by simp, ?_, by simp, hinv⟩
        intro t ht
        simp only [FeedRes.accept.injEq] at ht
        rw [← ht]
        exact ⟨hfin hend, hend.1⟩
      · rw [if_neg hend, if_neg hend]
        exact ih _ w tk (hgo hend)

/-- The text of a token plays no role when it is fed. -/
theorem feed_text {n : Nat} {stk : Stack} {tk tk' : Tok} (ht : tk.type = tk'.type) :
    (∀ stk', feed n stk tk = .shifted stk' → ∃ stk'', feed n stk tk' = .shifted stk'') ∧
    (∀ t, feed n stk tk = .accept t → feed n stk tk' = .accept t) ∧
    (feed n stk tk = .unexpected → feed n stk tk' = .unexpected) := by
  induction n generalizing stk with
  | zero => simp [feed]
  | succ n ih =>
    unfold feed
    rw [← ht]
    cases ha : action (topState stk) tk.type with
    | error => simp
    | shift s => by_cases he : tk.type = tEND <;> simp [he]
    | reduce r =>
      simp only
      generalize rules[r]? = o
      cases o with
      | none => simp
      | some rule =>
        simp only
        by_cases hl : stk.length < rule.rhs.length
        · simp [hl]
        · rw [if_neg hl, if_neg hl]
          generalize goto (topState (stk.drop rule.rhs.length)) rule.lhs = g
          cases g with
          | none => simp
          | some s =>
            simp only
            by_cases he : tk.type = tEND ∧ s = endState
            · rw [if_pos he, if_pos he]; simp
            · rw [if_neg he, if_neg he]
              exact ih

/-! ### Enough fuel without the next token -/

theorem feed_fuel0 (n : Nat) : ∀ (stk : Stack) (tk : Tok) (ys : List Nat),
    Lk ys (stk.map Prod.fst) → (∃ w, Inv0 stk w) → mu ys + 3 ≤ n → feed n stk tk ≠ .fuel := by
  induction n with
  | zero => intro stk tk ys _ _ h; omega
  | succ n ih =>
    intro stk tk ys hl hinv hmu
    obtain ⟨w, hinv⟩ := hinv
    unfold feed
    cases ha : action (topState stk) tk.type with
    | error => simp
    | shift s => by_cases he : tk.type = tEND <;> simp [he]
    | reduce r =>
      obtain ⟨rule, s, hr, hle, hg, _, hgo⟩ := hinv.reduce_inv ha
      obtain ⟨rule', s', hr', hmem, _, hg', ys', hl', _⟩ := hinv.reduce_step ha
      rw [hr] at hr'; cases hr'
      rw [hg] at hg'; cases hg'
      simp only [hr]
      rw [if_neg (by omega)]
      simp only [hg]
      by_cases hend : tk.type = tEND ∧ s = endState
      · simp [hend]
      · rw [if_neg hend]
        have hlt : tk.type < numTerms := by
          rcases Nat.lt_or_ge tk.type numTerms with h | h
          · exact h
          · rw [action_ge h] at ha; cases ha
        have hact := (action_spec (p := topState stk) (by rw [topState_eq]; exact hl.lt) hlt).2
        simp only [endOK, ha, hr, Bool.and_eq_true] at hact
        obtain ⟨_, hact⟩ := hact
        obtain ⟨_, _, hrank⟩ := rule_spec hmem
        have hlen : ys.length = stk.length := by simpa using hl.length
        have hlen' : ys'.length = stk.length - rule.rhs.length := by
          have := hl'.length; simpa using this
        cases hrhs : rule.rhs with
        | nil =>
          simp only [hrhs, List.length_nil, List.drop_zero] at hact hg ⊢
          rw [hg] at hact
          simp only [Bool.or_eq_true, Bool.and_eq_true, beq_iff_eq] at hact
          rcases hact with h | h
          · exact absurd ⟨h.2, h.1⟩ hend
          · cases n with
            | zero => omega
            | succ n =>
              unfold feed
              simp only [topState]
              cases hs : action s tk.type with
              | error => simp [hs] at h
              | reduce _ => simp [hs] at h
              | shift s' => by_cases he : tk.type = tEND <;> simp [he]
        | cons x xs =>
          rw [← hrhs]
          refine ih _ tk (rule.lhs :: ys') hl' ⟨w, hgo hend⟩ ?_
          have hmu' : mu (rule.lhs :: ys') = 100 * (ys'.length + 1) + symRank rule.lhs := by
            simp [mu]
          rw [hmu']
          have hl3 : rule.rhs.length = xs.length + 1 := by simp [hrhs]
          cases xs with
          | nil =>
            simp only [hrhs, decide_eq_true_eq] at hact
            have htop : ∃ rest, ys = x :: rest := by
              rw [topState_eq] at ha
              obtain ⟨rule', s', ys'', hr', hys, _⟩ := hl.reduce ha
              rw [hr] at hr'
              simp only [Option.some.injEq] at hr'
              subst hr'
              rw [hrhs] at hys
              exact ⟨ys'', by simpa using hys⟩
            obtain ⟨rest, rfl⟩ := htop
            simp only [mu, List.length_cons] at hmu hlen ⊢
            simp at hl3
            omega
          | cons x2 xs =>
            have : 100 * ys.length ≤ mu ys := by simp [mu]
            simp only [List.length_cons] at hl3
            omega

theorem Inv0.feedFuel_ok {stk w} (tk : Tok) (h : Inv0 stk w) : feed (feedFuel stk) stk tk ≠ .fuel := by
  obtain ⟨ys, hl, hne, hd⟩ := h
  refine feed_fuel0 _ stk tk ys hl ⟨w, ys, hl, hne, hd⟩ ?_
  have hlen := hl.length
  rw [List.length_map] at hlen
  have := hl.mu_le
  unfold feedFuel
  omega

/-! ### The sets -/

theorem mem_acceptsAt {stk : Stack} {t : Nat} : t ∈ acceptsAt stk ↔
    t < numTerms ∧ action (topState stk) t ≠ .error ∧
      feed (feedFuel stk) stk ⟨t, [], 0, 0⟩ ≠ .unexpected := by
  simp only [acceptsAt, List.mem_filter, List.mem_range, Bool.and_eq_true, bne_iff_ne]
  cases feed (feedFuel stk) stk ⟨t, [], 0, 0⟩ <;> simp

/-- terminals of rules are not ignored -/
theorem der_usable {ss ts w} (h : Der ss ts w) (hs : ∀ x ∈ ss, 128 ≤ x) :
    ∀ u ∈ w, u.type < tEND → u.type ∉ ignoreIds := by
  have key : ∀ {ss ts w}, Der ss ts w → (∀ x ∈ ss, 128 ≤ x ∨ termMask.testBit x = true) →
      ∀ u ∈ w, u.type < tEND → u.type ∉ ignoreIds := by
    intro ss ts w h
    induction h with
    | nil => simp
    | tok t _ ih =>
      intro hs u hu hlt
      rcases List.mem_cons.mp hu with rfl | hu
      · rcases hs u.type (by simp) with h | h
        · simp [tEND] at hlt; omega
        · exact (termMask_spec _ (by simp [tEND] at hlt; omega) h).2
      · exact ih (fun x hx => hs x (List.mem_cons_of_mem _ hx)) u hu hlt
    | node r hr _ _ ih1 ih2 =>
      intro hs u hu hlt
      rcases List.mem_append.mp hu with hu | hu
      · refine ih1 (fun x hx => ?_) u hu hlt
        have := List.all_eq_true.mp (List.all_eq_true.mp rhs_terms r hr) x hx
        simpa using this
      · exact ih2 (fun x hx => hs x (List.mem_cons_of_mem _ hx)) u hu hlt
  exact key h fun x hx => .inl (hs x hx)

theorem accepts_sound {stk w} (h : Inv0 stk w) (hw : ∀ u ∈ w, u.type < tEND) :
    ∀ t ∈ acceptsAt stk, CanFollow w t := by
  intro t ht
  obtain ⟨h1, h2, h3⟩ := mem_acceptsAt.mp ht
  have hs := feed_spec0 (feedFuel stk) stk w ⟨t, [], 0, 0⟩ h
  have hf := h.feedFuel_ok ⟨t, [], 0, 0⟩
  cases hr : feed (feedFuel stk) stk ⟨t, [], 0, 0⟩ with
  | unexpected => exact absurd hr h3
  | stuck => exact absurd hr hs.2.2.1
  | fuel => exact absurd hr hf
  | accept tree =>
    obtain ⟨hd, he⟩ := hs.2.1 _ hr
    exact .inl ⟨he, tree, hd⟩
  | shifted stk' =>
    have key : ∀ x l l', Beginning (w ++ [⟨t, x, l, l'⟩]) := by
      intro x l l'
      obtain ⟨stk'', h4⟩ := (feed_text (tk := ⟨t, [], 0, 0⟩) (tk' := ⟨t, x, l, l'⟩) rfl).1 _ hr
      obtain ⟨h5, h6⟩ := (feed_spec0 (feedFuel stk) stk w ⟨t, x, l, l'⟩ h).1 _ h4
      refine h5.begins ?_
      intro u hu
      rcases List.mem_append.mp hu with hu | hu
      · exact hw u hu
      · rw [List.mem_singleton] at hu; subst hu; exact h6
    have hlt := (hs.1 _ hr).2
    obtain ⟨w', tr, _, hd⟩ := key [] 0 0
    have hi := der_usable hd (by decide) ⟨t, [], 0, 0⟩ (by simp) hlt
    obtain ⟨x, hx⟩ := sample hlt hi
    exact .inr ⟨hlt, x, hx, key x⟩

theorem accepts_complete {stk w} (h : Fed w stk) : ∀ t, DoesFollow w t → t ∈ acceptsAt stk := by
  rintro t (⟨rfl, p, hc, hp⟩ | ⟨x, l, l', w', p, hc, hlt, hp⟩)
  · have := h.complete (l := 0) hc hp
    refine mem_acceptsAt.mpr ⟨by decide, ?_, this⟩
    intro ha
    apply this
    have : feedFuel stk = (1000 * stk.length + 999) + 1 := by unfold feedFuel; omega
    rw [this]
    unfold feed
    simp only [ha]
  · have := h.follows hc hlt hp
    refine mem_acceptsAt.mpr ⟨?_, this.1, this.2 _ rfl⟩
    have := hlt _ List.mem_cons_self
    simp [tEND] at this
    simp [numTerms]; omega

theorem unless_word {r k : Nat} (h : k ∈ unlessIds r) : r < tEND ∧ r ∉ ignoreIds ∧ ∀ q, r ∉ unlessIds q := by
  have key : r = T.STRING ∨ r = T.__ANON_2 ∨ r = T.__ANON_1 := by
    unfold unlessIds at h
    split at h
    · exact .inl ‹_›
    · split at h
      · exact .inr (.inl ‹_›)
      · split at h
        · exact .inr (.inr ‹_›)
        · simp at h
  have hre : r ∈ reIds := by rcases key with rfl | rfl | rfl <;> decide
  refine ⟨?_, ?_, fun q hq => (unlessIds_str hq).2 hre⟩
  · rcases key with rfl | rfl | rfl <;> decide
  · rcases key with rfl | rfl | rfl <;> decide

/-- a keyword that is not scanned for itself is matched by the terminal that hides it -/
theorem hidden_text {r k : Nat} (h : k ∈ unlessIds r) : ∃ x, TokText k x ∧ TokText r x := by
  obtain ⟨hr, hi, _⟩ := unless_word h
  obtain ⟨hk, hnr⟩ := unlessIds_str h
  obtain ⟨d, s, hd, hs, _⟩ := strTerm hk hnr
  refine ⟨s.toList, .str hnr hd hs rfl, ?_⟩
  have hp := unlessIds_spec r hr k hk
  rw [List.contains_iff_mem.mpr h, hd] at hp
  cases ha : term? r with
  | none => rw [ha] at hp; cases hp
  | some a =>
    rw [ha] at hp
    simp only [unlessPair, hs] at hp
    cases hv : a.strVal with
    | some _ => rw [hv] at hp; cases hp
    | none =>
      rw [hv] at hp
      have hm := ((Bool.and_eq_true _ _).mp hp.symm).2
      rw [beq_iff_eq] at hm
      obtain ⟨x, hx, hl⟩ := Re.matchIn_sound hm
      rw [List.append_nil] at hx
      have ht : termRe r = a.re := by unfold termRe; rw [ha]
      rw [← ht, ← hx] at hl
      have := termRe_sound hr hl
      rwa [if_neg hi] at this

theorem accepts_expected {stk w} (h : Inv0 stk w) (hw : ∀ u ∈ w, u.type < tEND) :
    ∀ t ∈ acceptsAt stk, t ∈ allowedAt (topState stk) ∨ t = tEND ∨
      ∃ r ∈ allowedAt (topState stk), ∃ x, TokText t x ∧ TokText r x := by
  intro t ht
  obtain ⟨h1, h2, _⟩ := mem_acceptsAt.mp ht
  rcases accepts_sound h hw t ht with ⟨rfl, _⟩ | ⟨hlt, x, _, hb⟩
  · exact .inr (.inl rfl)
  · obtain ⟨w', tr, _, hd⟩ := hb 0 0
    have hi := der_usable hd (by decide) ⟨t, x, 0, 0⟩ (by simp) hlt
    have hacc : t ∈ accepts (topState stk) := by
      simp [accepts, hlt, h2]
    by_cases he : embedded (accepts (topState stk)) t = true
    · obtain ⟨r, hr, hk⟩ := List.any_eq_true.mp he
      have hk : t ∈ unlessIds r := by simpa using hk
      obtain ⟨hrl, hri, hrq⟩ := unless_word hk
      refine .inr (.inr ⟨r, ?_, hidden_text hk⟩)
      simp only [allowedAt, scanIds, List.mem_filter]
      refine ⟨⟨hr, ?_⟩, by simpa using hri⟩
      simp [embedded, hrq]
    · refine .inl ?_
      simp only [allowedAt, scanIds, List.mem_filter]
      exact ⟨⟨hacc, by simpa using he⟩, by simpa using hi⟩

theorem accepts_expectedAt (stk : Stack) : ∀ t ∈ acceptsAt stk, t ∈ expectedAt (topState stk) := by
  intro t ht
  obtain ⟨h1, h2, _⟩ := mem_acceptsAt.mp ht
  simp [expectedAt, h1, h2]

/-! ### The loop -/

/-- the result for a token that is refused -/
theorem names_fed {stk w} (h : Fed w stk) (tk : Tok) :
    NamesRightly ⟨w, false, expectedAt (topState (feedStop (feedFuel stk) stk tk)),
      acceptsAt (feedStop (feedFuel stk) stk tk)⟩ :=
  ⟨accepts_sound (feed_spec0 _ _ _ _ (h.inv 0).inv0).2.2.2 h.lt, by simp,
    fun t ht => .inl (accepts_expectedAt _ t ht)⟩

/-- the result for a text without a token -/
theorem names_lexer {stk w} (h : Fed w stk) :
    NamesRightly ⟨w, true, allowedAt (topState stk), acceptsAt stk⟩ :=
  ⟨accepts_sound (h.inv 0).inv0 h.lt, fun _ => accepts_complete h, fun t ht => by
    rcases accepts_expected (h.inv 0).inv0 h.lt t ht with h | h
    · exact .inl h
    · exact .inr ⟨rfl, h⟩⟩

theorem choicesLoop_spec (n : Nat) : ∀ (stk : Stack) (s : List Char) (c last : Ctr) (w : List Tok) (pre : List Char),
    Fed w stk → s.length < n → c.At pre → Tiling 1 pre w →
    (∀ e, runLoop n stk s c last = .err e → ∃ ch, choicesLoop n stk w s c.line = some ch ∧
      PlacedAt (pre ++ s) ch.read e ∧ NamesRightly ch ∧ (e.token = .none → ch.byLexer = true)) ∧
    ((∀ e, runLoop n stk s c last ≠ .err e) → choicesLoop n stk w s c.line = .none) := by
  induction n with
  | zero => intro stk s c last w pre _ h; omega
  | succ n ih =>
    intro stk s c last w pre hfed hn hc hpre
    have hacc : ∀ t ∈ accepts (topState stk), t < tEND := fun t => accepts_lt
    have he := nextTokAt_erase hacc s.length s c
    have hs := nextTokAt_spec hacc s.length s c pre (Nat.le_refl _) hc
    unfold runLoop choicesLoop
    rw [← he]
    cases hl : nextTokAt (accepts (topState stk)) s.length s c with
    | eof =>
      rw [hl] at hs
      simp only at hs
      simp only [LexAt.erase]
      cases hf : feed (feedFuel stk) stk ⟨tEND, [], c.line, c.line⟩ with
      | accept t => simp
      | shifted t => simp
      | stuck => simp
      | fuel => simp
      | unexpected =>
        refine ⟨fun e h => ⟨_, rfl, .inr ⟨by simpa using hpre.cat hs.tiling, ?_⟩, names_fed hfed _, ?_⟩,
          fun h => absurd rfl (h _)⟩
        · simp only [RunRes.err.injEq] at h; rw [← h]
        · simp only [RunRes.err.injEq] at h; rw [← h]; simp
    | fail s' c' =>
      rw [hl] at hs
      obtain ⟨p, rfl, hp, hc', hne, hscan⟩ := hs
      simp only [LexAt.erase]
      obtain ⟨tok, ht, htok, hstray⟩ := secondTry_spec (c := c') hne hscan
      rw [ht]
      refine ⟨fun e h => ⟨_, rfl, .inl ⟨pre ++ p, s', by simp, by simpa using hpre.cat hp.tiling, ?_, ?_⟩,
        names_lexer hfed, fun _ => rfl⟩, fun h => absurd rfl (h _)⟩
      · simp only [RunRes.err.injEq] at h; rw [← h]; exact hc'.behind _
      · simp only [RunRes.err.injEq] at h; rw [← h]
        intro h1
        exact absurd (htok _ _ h1).1 (by decide)
    | tok tk c' rest c'' =>
      rw [hl] at hs
      obtain ⟨p, t, rfl, hp, hc', hc'', htext, htlt, htk, hscan, hmem, hi⟩ := hs
      simp only [LexAt.erase]
      have hline : c'.line = 1 + countNL (pre ++ p) := by rw [hc'.line]; rfl
      have htil : Tiling 1 (pre ++ p) w := by simpa using hpre.cat hp.tiling
      have hxne := htext.ne_nil htlt
      cases hf : feed (feedFuel stk) stk tk with
      | accept t => simp
      | stuck => simp
      | fuel => simp
      | shifted stk' =>
        simp only
        have hend : tk.endLine = c''.line := by
          rw [htk, hc''.line, hc'.line]
          simp [lineAt, countNL]; omega
        have htil' : Tiling 1 (pre ++ p ++ tk.text) (w ++ [tk]) := by
          refine htil.cat ?_
          rw [← hline]
          have : Tiling c'.line (tk.text ++ []) [⟨tk.type, tk.text, c'.line, c'.line + countNL tk.text⟩] :=
            .tok htext htlt .nil
          rw [List.append_nil] at this
          have e : tk = ⟨tk.type, tk.text, c'.line, c'.line + countNL tk.text⟩ := by
            conv_lhs => rw [htk]
            conv_rhs => rw [htk]
          rw [e]; exact this
        have hpos := List.length_pos_iff.mpr hxne
        have := ih stk' rest c'' c' (w ++ [tk]) (pre ++ p ++ tk.text) (.snoc hfed hf)
          (by simp at hn; omega) hc'' htil'
        rw [hend]
        simpa using this
      | unexpected =>
        refine ⟨fun e h => ⟨_, rfl, .inl ⟨pre ++ p, tk.text ++ rest, by simp, htil, ?_, ?_⟩,
          names_fed hfed _, ?_⟩, fun h => absurd rfl (h _)⟩
        · simp only [RunRes.err.injEq] at h; rw [← h]; exact hc'.behind _
        · simp only [RunRes.err.injEq] at h; rw [← h]
          simp only [ne_eq, Option.some.injEq, Prod.mk.injEq, not_and]
          intro h1; rw [h1] at htlt; exact absurd htlt (by decide)
        · simp only [RunRes.err.injEq] at h; rw [← h]; simp

end Pycep
