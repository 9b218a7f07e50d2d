import Verif.Proofs.TableCheck2
import Verif.Derivation
/-
The LALR driver is safe (never stuck), terminating, and sound (what it accepts is a derivation).
-/
namespace Pycep

/-! ### Lifting the table checks -/

theorem action_ge {s t : Nat} (h : numTerms ≤ t) : action s t = .error := by
  unfold action; simp [Nat.not_lt.mpr h]

theorem action_spec {p y : Nat} (hp : p < numStates) (hy : y < numTerms) :
    actionOK p y = true ∧ endOK p y = true := by
  have h1 := List.all_eq_true.mp check_action p (List.mem_range.mpr hp)
  have h2 := List.all_eq_true.mp h1 y (List.mem_range.mpr hy)
  have h3 := List.all_eq_true.mp check_end p (List.mem_range.mpr hp)
  have h4 := List.all_eq_true.mp h3 y (List.mem_range.mpr hy)
  exact ⟨h2, h4⟩

theorem goto_spec {p y : Nat} (hp : p < numStates) (hy : 128 ≤ y) (hy' : y < 128 + numNts) :
    gotoOK p y = true ∧ endGotoOK p y = true ∧ gmaskOK p y = true := by
  have e : y - 128 + 128 = y := by omega
  have hm : y - 128 ∈ List.range numNts := List.mem_range.mpr (by omega)
  have h1 := List.all_eq_true.mp (List.all_eq_true.mp check_goto p (List.mem_range.mpr hp)) _ hm
  have h2 := List.all_eq_true.mp (List.all_eq_true.mp check_endGoto p (List.mem_range.mpr hp)) _ hm
  have h3 := List.all_eq_true.mp (List.all_eq_true.mp check_gmask p (List.mem_range.mpr hp)) _ hm
  rw [e] at h1 h2 h3
  exact ⟨h1, h2, h3⟩

theorem rule_spec {r : Rule} (h : r ∈ rules) :
    128 ≤ r.lhs ∧ r.lhs < 128 + numNts ∧ symRank r.lhs < 40 := by
  have := List.all_eq_true.mp check_rank r h
  simp only [ruleRankOK, Bool.and_eq_true, decide_eq_true_eq] at this
  exact ⟨this.1.1, this.1.2, this.2⟩

/-! ### Stacks -/

/-- A transition of the automaton on a terminal or a nonterminal. -/
def Step (p y s : Nat) : Prop :=
  (y < tEND ∧ action p y = .shift s) ∨ (128 ≤ y ∧ y < 128 + numNts ∧ goto p y = some s)

/-- topmost state of a list of states, 0 if empty -/
def topOf : List Nat → Nat
  | [] => 0
  | s :: _ => s

/-- `Lk syms states`: the states of the stack are connected by transitions labelled by `syms`. -/
inductive Lk : List Nat → List Nat → Prop where
  | nil : Lk [] []
  | cons {ys ss y s} : Lk ys ss → Step (topOf ss) y s → Lk (y :: ys) (s :: ss)

theorem Step.ok {p y s : Nat} (hp : p < numStates) (h : Step p y s) : stepOK p y s = true := by
  rcases h with ⟨hy, h⟩ | ⟨h1, h2, h⟩
  · have := (action_spec hp (y := y) (by simp [numTerms]; simp [tEND] at hy; omega)).1
    simp only [actionOK, h] at this
    rwa [if_neg (by omega)] at this
  · have := (goto_spec hp h1 h2).1
    simpa only [gotoOK, h] using this

theorem Step.ne0 {p y s : Nat} (hp : p < numStates) (h : Step p y s) : s ≠ 0 := by
  rcases h with ⟨hy, h⟩ | ⟨h1, h2, h⟩
  · have := (action_spec hp (y := y) (by simp [numTerms]; simp [tEND] at hy; omega)).2
    simp only [endOK, h] at this
    rw [if_neg (by omega)] at this
    simp at this; exact this.1
  · have := (goto_spec hp h1 h2).2.1
    simp [endGotoOK, h] at this
    exact this.1.1

theorem Step.lt {p y s : Nat} (hp : p < numStates) (h : Step p y s) : s < numStates := by
  have := h.ok hp
  simp only [stepOK, Bool.and_eq_true, decide_eq_true_eq] at this
  exact this.1.1

theorem Lk.lt {ys ss} (h : Lk ys ss) : topOf ss < numStates := by
  induction h with
  | nil => simp [topOf, numStates]
  | cons _ hs ih => exact hs.lt ih

theorem Lk.length {ys ss} (h : Lk ys ss) : ys.length = ss.length := by
  induction h with
  | nil => rfl
  | cons _ _ ih => simp [ih]

theorem Lk.top_eq_zero {ys ss} (h : Lk ys ss) (h0 : topOf ss = 0) : ss = [] := by
  cases h with
  | nil => rfl
  | cons hl hs => exact absurd h0 (hs.ne0 hl.lt)

theorem past_zero : past 0 = [] := by decide +kernel
theorem masks_zero : masks 0 = [] := by decide +kernel

theorem Lk.past {ys ss} (h : Lk ys ss) : Pycep.past (topOf ss) <+: ys := by
  induction h with
  | nil => simp [topOf, past_zero]
  | @cons ys ss y s hl hs ih =>
    have := hs.ok hl.lt
    simp only [stepOK, Bool.and_eq_true, decide_eq_true_eq] at this
    have hp := List.isPrefixOf_iff_prefix.mp this.1.2
    exact hp.trans (List.cons_prefix_cons.mpr ⟨rfl, ih⟩)

theorem subMasks_spec : ∀ {as bs : List Nat}, subMasks as bs = true → ∀ (i b : Nat),
    bs[i]? = some b → ∃ a, as[i]? = some a ∧ a &&& b = a
  | _, [], _, i, b, h => by simp at h
  | [], _ :: _, h, _, _, _ => by simp [subMasks] at h
  | a :: as, b' :: bs, h, i, b, hb => by
    simp only [subMasks, Bool.and_eq_true, beq_iff_eq] at h
    cases i with
    | zero => simp at hb; subst hb; exact ⟨a, by simp, h.1⟩
    | succ i =>
      simp only [List.getElem?_cons_succ] at hb
      obtain ⟨a', h1, h2⟩ := subMasks_spec h.2 i b hb
      exact ⟨a', by simpa using h1, h2⟩

theorem testBit_of_sub {a b i : Nat} (h : a &&& b = a) (hi : a.testBit i = true) :
    b.testBit i = true := by
  rw [← h, Nat.testBit_and] at hi
  simp at hi; exact hi.2

/-- states below the top belong to the certified sets -/
theorem Lk.masks {ys ss} (h : Lk ys ss) : ∀ (i m : Nat), (Pycep.masks (topOf ss))[i]? = some m →
    i < ss.length ∧ m.testBit (topOf (ss.drop (i + 1))) = true := by
  induction h with
  | nil => intro i m hm; simp [topOf, masks_zero] at hm
  | @cons ys ss y s hl hs ih =>
    intro i m hm
    have := hs.ok hl.lt
    simp only [stepOK, Bool.and_eq_true] at this
    have h2 := this.2
    simp only [topOf] at hm
    cases hms : Pycep.masks s with
    | nil => simp [hms] at hm
    | cons m0 ms =>
      simp only [hms, Bool.and_eq_true] at h2 hm
      cases i with
      | zero =>
        simp at hm; subst hm
        exact ⟨by simp, by simpa using h2.1⟩
      | succ i =>
        simp only [List.getElem?_cons_succ] at hm
        obtain ⟨a, ha, hab⟩ := subMasks_spec h2.2 i m hm
        obtain ⟨hlt, ht⟩ := ih i a ha
        exact ⟨by simp; omega, by simpa using testBit_of_sub hab ht⟩

theorem Lk.drop {ys ss} (h : Lk ys ss) (n : Nat) : Lk (ys.drop n) (ss.drop n) := by
  induction h generalizing n with
  | nil => simp; exact .nil
  | cons hl hs ih =>
    cases n with
    | zero => exact .cons hl hs
    | succ n => exact ih n

/-- A reduction in a well-linked stack: the right-hand side is on the stack and a goto exists. -/
theorem Lk.reduce {ys ss r y} (h : Lk ys ss) (ha : action (topOf ss) y = .reduce r) :
    ∃ rule s ys', rules[r]? = some rule ∧ ys = rule.rhs.reverse ++ ys' ∧
      goto (topOf (ss.drop rule.rhs.length)) rule.lhs = some s := by
  have hy : y < numTerms := by
    rcases Nat.lt_or_ge y numTerms with h | h
    · exact h
    · rw [action_ge h] at ha; cases ha
  have := (action_spec h.lt hy).1
  simp only [actionOK, ha, reduceOK] at this
  cases hr : rules[r]? with
  | none => simp [hr] at this
  | some rule =>
    simp only [hr, Bool.and_eq_true] at this
    have hmem : rule ∈ rules := List.mem_of_getElem? hr
    obtain ⟨hl1, hl2, _⟩ := rule_spec hmem
    have hpre := (List.isPrefixOf_iff_prefix.mp this.1).trans h.past
    obtain ⟨ys', hys⟩ := hpre
    have hg := this.2
    cases hn : rule.rhs.length with
    | zero =>
      simp only [hn] at hg
      obtain ⟨s, hs⟩ := Option.isSome_iff_exists.mp hg
      exact ⟨rule, s, ys', rfl, hys.symm, by simpa [hn] using hs⟩
    | succ n =>
      simp only [hn] at hg
      cases hm : (Pycep.masks (topOf ss))[n]? with
      | none => simp [hm] at hg
      | some m =>
        simp only [hm, beq_iff_eq] at hg
        obtain ⟨_, ht⟩ := h.masks n m hm
        have hb := testBit_of_sub hg ht
        have hgm := (goto_spec (h.drop (n + 1)).lt hl1 hl2).2.2
        simp only [gmaskOK, hb, Bool.not_true, Bool.false_or] at hgm
        obtain ⟨s, hs⟩ := Option.isSome_iff_exists.mp hgm
        exact ⟨rule, s, ys', rfl, hys.symm, by simpa [hn] using hs⟩

/-! ### The driver -/

theorem topState_eq (stk : Stack) : topState stk = topOf (stk.map Prod.fst) := by
  cases stk with
  | nil => rfl
  | cons a l => rfl

/-- Invariant of the driver: the stack is linked, does not end in the end state, and its values are
derivations whose leaves are the tokens shifted so far; `n` is the type of the next token. -/
def Inv (stk : Stack) (w : List Tok) (n : Nat) : Prop :=
  ∃ ys, Lk ys (stk.map Prod.fst) ∧ topState stk ≠ endState ∧
    DerL ys.reverse (stk.map Prod.snd).reverse w n

theorem Inv.init (n : Nat) : Inv [] [] n := ⟨[], .nil, by decide, .nil⟩

/-- Bound on the number of reductions possible with a given stack. -/
def mu (ys : List Nat) : Nat := 100 * ys.length + (match ys with | [] => 0 | y :: _ => symRank y)

theorem symRank_le {y : Nat} : y < 128 → symRank y ≤ 40 := by
  intro h; simp [symRank, h]

theorem Lk.rank {ys ss} (_ : Lk ys ss) : ∀ y ∈ ys, symRank y ≤ 40 ∨ 128 ≤ y := by
  intro y _
  rcases Nat.lt_or_ge y 128 with h | h
  · exact .inl (symRank_le h)
  · exact .inr h

/-- What one reduction step does to the invariant. -/
theorem Inv.reduce_step {stk : Stack} {w : List Tok} {r : Nat} {tk : Tok} (h : Inv stk w tk.type)
    (ha : action (topState stk) tk.type = .reduce r) :
    ∃ rule s, rules[r]? = some rule ∧ rule ∈ rules ∧ rule.rhs.length ≤ stk.length ∧
      goto (topState (stk.drop rule.rhs.length)) rule.lhs = some s ∧
      (let value := buildNode rule ((stk.take rule.rhs.length).reverse.map Prod.snd)
       let stk' := (s, value) :: stk.drop rule.rhs.length
       ∃ ys', Lk (rule.lhs :: ys') (stk'.map Prod.fst) ∧
        DerL (rule.lhs :: ys').reverse (stk'.map Prod.snd).reverse w tk.type) := by
  obtain ⟨ys, hl, hne, hd⟩ := h
  have hcan : ∀ {rule}, rules[r]? = some rule → CanReduce rule tk.type :=
    fun hr => ⟨r, _, hr, by rw [topState_eq]; exact hl.lt, ha⟩
  rw [topState_eq] at ha
  obtain ⟨rule, s, ys', hr, hys, hg⟩ := hl.reduce ha
  have hmem : rule ∈ rules := List.mem_of_getElem? hr
  obtain ⟨hl1, hl2, _⟩ := rule_spec hmem
  have hlen : ys.length = stk.length := by simpa using hl.length
  have hle : rule.rhs.length ≤ stk.length := by
    rw [← hlen, hys]; simp
  have hys' : ys' = ys.drop rule.rhs.length := by
    rw [hys, List.drop_append_of_le_length (by simp)]
    simp
  refine ⟨rule, s, hr, hmem, hle, ?_, ys', ?_, ?_⟩
  · rw [topState_eq, List.map_drop]; exact hg
  · simp only [List.map_cons, List.map_drop]
    refine .cons ?_ (.inr ⟨hl1, hl2, hg⟩)
    rw [hys']; exact hl.drop _
  · have hd' := hd
    rw [hys, List.reverse_append, List.reverse_reverse] at hd'
    obtain ⟨t₁, t₂, w₁, w₂, ht, hw, h₁, h₂⟩ := hd'.split
    have hlen2 : t₂.length = rule.rhs.length := h₂.length.symm
    have hv : (stk.map Prod.snd) = t₂.reverse ++ t₁.reverse := by
      have := congrArg List.reverse ht
      simpa using this
    have htake : (stk.take rule.rhs.length).map Prod.snd = t₂.reverse := by
      rw [List.map_take, hv, List.take_append_of_le_length (by simp [hlen2]),
        List.take_of_length_le (by simp [hlen2])]
    have hdrop : (stk.drop rule.rhs.length).map Prod.snd = t₁.reverse := by
      rw [List.map_drop, hv, List.drop_append_of_le_length (by simp [hlen2]),
        List.drop_of_length_le (by simp [hlen2])]
      simp
    simp only [List.map_cons, List.reverse_cons, hdrop, List.reverse_reverse]
    have hk : (stk.take rule.rhs.length).reverse.map Prod.snd = t₂ := by
      rw [List.map_reverse, htake, List.reverse_reverse]
    rw [hk, hw]
    have : DerL [rule.lhs] [buildNode rule t₂] w₂ tk.type := by
      simpa using DerL.node rule hmem (w := []) (hcan hr) h₂ .nil
    exact h₁.append this

theorem feed_spec (n : Nat) : ∀ (stk : Stack) (w : List Tok) (tk : Tok), Inv stk w tk.type →
    (∀ stk', feed n stk tk = .shifted stk' → (∀ m, Inv stk' (w ++ [tk]) m) ∧ tk.type < tEND) ∧
    (∀ t, feed n stk tk = .accept t → DerL [N.start] [t] w tEND ∧ tk.type = tEND) ∧
    feed n stk tk ≠ .stuck := by
  induction n with
  | zero => intro stk w tk _; simp [feed]
  | succ n ih =>
    intro stk w tk hinv
    unfold feed
    cases ha : action (topState stk) tk.type with
    | error => simp
    | shift s =>
      have hlt : tk.type < numTerms := by
        rcases Nat.lt_or_ge tk.type numTerms with h | h
        · exact h
        · rw [action_ge h] at ha; cases ha
      obtain ⟨ys, hl, hne, hd⟩ := hinv
      have hact := action_spec (p := topState stk) (by rw [topState_eq]; exact hl.lt) hlt
      simp only [actionOK, endOK, ha] at hact
      by_cases he : tk.type = tEND
      · simp [he, hne] at hact
      · simp only [he, if_false] at hact ⊢
        have hlt' : tk.type < tEND := by
          simp [numTerms] at hlt; simp [tEND] at he ⊢; omega
        refine ⟨?_, by simp, by simp⟩
        intro stk' hs
        simp only [FeedRes.shifted.injEq] at hs
        subst hs
        refine ⟨fun m => ⟨tk.type :: ys, ?_, ?_, ?_⟩, hlt'⟩
        · simp only [List.map_cons]
          exact .cons hl (.inl ⟨hlt', by rw [← topState_eq]; exact ha⟩)
        · have := hact.2
          simp at this
          simpa [topState] using this.2
        · simp only [List.map_cons, List.reverse_cons]
          exact hd.append (w₂ := [tk]) (.tok tk .nil)
    | reduce r =>
      obtain ⟨rule, s, hr, hmem, hle, hg, ys', hl', hd'⟩ := hinv.reduce_step ha
      simp only [hr]
      rw [if_neg (by omega)]
      simp only [hg]
      by_cases hend : tk.type = tEND ∧ s = endState
      · simp only [hend, and_self, if_true]
        refine ⟨by simp, ?_, by simp⟩
        intro t ht
        simp only [FeedRes.accept.injEq] at ht
        have hlk : Lk ys' ((stk.drop rule.rhs.length).map Prod.fst) := by
          cases hl' with | cons h _ => exact h
        obtain ⟨hl1, hl2, _⟩ := rule_spec hmem
        have heg := (goto_spec hlk.lt hl1 hl2).2.1
        rw [← topState_eq] at heg
        simp only [endGotoOK, hg, hend.2, Bool.and_eq_true, Bool.or_eq_true, bne_self_eq_false,
          Bool.false_eq_true, false_or, beq_iff_eq] at heg
        have hnil := hlk.top_eq_zero (by rw [← topState_eq]; exact heg.1.2.1)
        have hys : ys' = [] := by
          have := hlk.length; rw [hnil] at this
          exact List.length_eq_zero_iff.mp (by simpa using this)
        simp only [List.map_cons, hys] at hd'
        have hs0 : (stk.drop rule.rhs.length) = [] := by simpa using hnil
        rw [hs0] at hd'
        rw [heg.1.2.2] at hd'
        simp only [List.map_nil] at hd'
        rw [ht, hend.1] at hd'
        exact ⟨hd', trivial⟩
      · rw [if_neg hend]
        apply ih
        refine ⟨rule.lhs :: ys', hl', ?_, hd'⟩
        simp only [topState]
        intro hse
        apply hend
        refine ⟨?_, hse⟩
        have hlk : Lk ys' ((stk.drop rule.rhs.length).map Prod.fst) := by
          cases hl' with | cons h _ => exact h
        obtain ⟨hl1, hl2, _⟩ := rule_spec hmem
        have heg := (goto_spec hlk.lt hl1 hl2).2.1
        rw [← topState_eq] at heg
        simp only [endGotoOK, hg, hse, Bool.and_eq_true, Bool.or_eq_true, bne_self_eq_false,
          Bool.false_eq_true, false_or, beq_iff_eq] at heg
        have hlt : tk.type < numTerms := by
          rcases Nat.lt_or_ge tk.type numTerms with h | h
          · exact h
          · rw [action_ge h] at ha; cases ha
        obtain ⟨ys, hl, _, _⟩ := hinv
        have hact := (action_spec (p := topState stk) (by rw [topState_eq]; exact hl.lt) hlt).2
        simp only [endOK, ha, hr, heg.1.2.2, bne_self_eq_false, Bool.false_or, Bool.and_eq_true,
          beq_iff_eq] at hact
        exact hact.1

/-- Enough fuel: a token is handled after finitely many reductions. -/
theorem feed_fuel (n : Nat) : ∀ (stk : Stack) (tk : Tok) (ys : List Nat),
    Lk ys (stk.map Prod.fst) → (∃ w, Inv stk w tk.type) → mu ys + 3 ≤ n → feed n stk tk ≠ .fuel := by
  induction n with
  | zero => intro stk tk ys _ _ h; omega
  | succ n ih =>
    intro stk tk ys hl hinv hmu
    obtain ⟨w, hinv⟩ := hinv
    unfold feed
    cases ha : action (topState stk) tk.type with
    | error => simp
    | shift s => by_cases he : tk.type = tEND <;> simp [he]
    | reduce r =>
      obtain ⟨rule, s, hr, hmem, hle, hg, ys', hl', hd'⟩ := hinv.reduce_step ha
      simp only [hr]
      rw [if_neg (by omega)]
      simp only [hg]
      by_cases hend : tk.type = tEND ∧ s = endState
      · simp [hend]
      · rw [if_neg hend]
        have hlt : tk.type < numTerms := by
          rcases Nat.lt_or_ge tk.type numTerms with h | h
          · exact h
          · rw [action_ge h] at ha; cases ha
        have hact := (action_spec (p := topState stk) (by rw [topState_eq]; exact hl.lt) hlt).2
        simp only [endOK, ha, hr, Bool.and_eq_true] at hact
        obtain ⟨_, hact⟩ := hact
        obtain ⟨_, _, hrank⟩ := rule_spec hmem
        have hlen : ys.length = stk.length := by simpa using hl.length
        have hlen' : ys'.length = stk.length - rule.rhs.length := by
          have := hl'.length; simpa using this
        cases hrhs : rule.rhs with
        | nil =>
          simp only [hrhs, List.length_nil, List.drop_zero] at hact hg ⊢
          rw [hg] at hact
          simp only [Bool.or_eq_true, Bool.and_eq_true, beq_iff_eq] at hact
          rcases hact with h | h
          · exact absurd ⟨h.2, h.1⟩ hend
          · cases n with
            | zero => omega
            | succ n =>
              unfold feed
              simp only [topState]
              cases hs : action s tk.type with
              | error => simp [hs] at h
              | reduce _ => simp [hs] at h
              | shift s' => by_cases he : tk.type = tEND <;> simp [he]
        | cons x xs =>
          obtain ⟨hl1, hl2, _⟩ := rule_spec hmem
          have hnew : Inv ((s, buildNode rule ((stk.take rule.rhs.length).reverse.map Prod.snd)) ::
              stk.drop rule.rhs.length) w tk.type := by
            -- same argument as in `feed_spec`
            refine ⟨rule.lhs :: ys', hl', ?_, hd'⟩
            simp only [topState]
            intro hse
            apply hend
            refine ⟨?_, hse⟩
            have hlk : Lk ys' ((stk.drop rule.rhs.length).map Prod.fst) := by
              cases hl' with | cons h _ => exact h
            have heg := (goto_spec hlk.lt hl1 hl2).2.1
            rw [← topState_eq] at heg
            simp only [endGotoOK, hg, hse, Bool.and_eq_true, Bool.or_eq_true, bne_self_eq_false,
              Bool.false_eq_true, false_or, beq_iff_eq] at heg
            have hact := (action_spec (p := topState stk) (by rw [topState_eq]; exact hl.lt) hlt).2
            simp only [endOK, ha, hr, heg.1.2.2, bne_self_eq_false, Bool.false_or,
              Bool.and_eq_true, beq_iff_eq] at hact
            exact hact.1
          rw [← hrhs]
          refine ih _ tk (rule.lhs :: ys') hl' ⟨w, hnew⟩ ?_
          have hmu' : mu (rule.lhs :: ys') = 100 * (ys'.length + 1) + symRank rule.lhs := by
            simp [mu]
          rw [hmu']
          have hl3 : rule.rhs.length = xs.length + 1 := by simp [hrhs]
          cases xs with
          | nil =>
            simp only [hrhs, decide_eq_true_eq] at hact
            -- top symbol is x
            have htop : ∃ rest, ys = x :: rest := by
              rw [topState_eq] at ha
              obtain ⟨rule', s', ys'', hr', hys, _⟩ := hl.reduce ha
              rw [hr] at hr'
              simp only [Option.some.injEq] at hr'
              subst hr'
              rw [hrhs] at hys
              exact ⟨ys'', by simpa using hys⟩
            obtain ⟨rest, rfl⟩ := htop
            simp only [mu, List.length_cons] at hmu hlen ⊢
            simp at hl3
            omega
          | cons x2 xs =>
            have : 100 * ys.length ≤ mu ys := by simp [mu]
            simp only [List.length_cons] at hl3
            omega

end Pycep
