import Verif.Spec.Work
import Verif.Proofs.LexerSound
/-
The work of the parser is linear: every symbol on the stack has a weight, a token 5; a reduction by a rule
that is not empty lowers the weight of the stack, and after a reduction by an empty rule a token is shifted
or the text accepted.
-/
namespace Pycep

/-- weights of the nonterminals (a certificate, found by a fixed-point iteration) -/
def ntWeights : List Nat :=
  [3, 5, 2, 1, 4, 5, 0, 4, 0, 4, 4, 5, 0, 3, 4, 5, 5, 4, 4, 4, 5, 5, 5, 5, 5, 4, 5, 5, 5, 3, 5, 5, 3, 5, 3, 4, 5,
   5, 5, 5, 5, 5, 5, 5, 4, 5, 5, 5, 5, 5, 4, 5, 5, 5, 5, 5, 5, 4, 5, 5, 5, 5, 4, 5, 5, 4, 5, 4, 5, 5, 0, 5, 4, 4,
   5, 0]

def symWeight (y : Nat) : Nat := if y < 128 then 5 else (ntWeights[y - 128]?).getD 0

def weightL : List Nat → Nat
  | [] => 0
  | y :: ys => symWeight y + weightL ys

/-- the two nonterminals that have an empty rule -/
def mayBeEmpty (y : Nat) : Nat := if y = 128 ∨ y = 203 then 1 else 0

def mayBeEmptyL : List Nat → Nat
  | [] => 0
  | y :: ys => mayBeEmpty y + mayBeEmptyL ys

theorem weightL_append (xs ys : List Nat) : weightL (xs ++ ys) = weightL xs + weightL ys := by
  induction xs with
  | nil => simp [weightL]
  | cons x xs ih => simp only [List.cons_append, weightL, ih]; omega

theorem weightL_reverse (xs : List Nat) : weightL xs.reverse = weightL xs := by
  induction xs with
  | nil => rfl
  | cons x xs ih => simp only [List.reverse_cons, weightL_append, weightL, ih]; omega

/-- the rules lower the weight, except the empty ones and the unit rule of a nonterminal with itself -/
def ruleWeightOK (r : Rule) : Bool :=
  r.rhs == [r.lhs] || ((r.rhs == [] && mayBeEmpty r.lhs == 1 && (r.lhs == 128 || symWeight r.lhs == 0)) ||
    (symWeight r.lhs + 1 ≤ weightL r.rhs)) &&
  (r.lhs == 128 || symWeight r.lhs + 1 + mayBeEmptyL r.rhs ≤ weightL r.rhs + mayBeEmpty r.lhs) &&
  (r.lhs != 128 || mayBeEmptyL r.rhs == 0) && !r.rhs.contains 128

theorem check_weights : rules.all ruleWeightOK = true := by decide +kernel

/-- the kept children are in the order of the right-hand side, none twice -/
def incr : Nat → List (Nat × Bool × Nat) → Bool
  | _, [] => true
  | n, (i, _, _) :: ks => n ≤ i && incr (i + 1) ks

theorem check_keep : rules.all (fun r => incr 0 r.keep) = true := by decide +kernel

theorem feed_more (n : Nat) : ∀ {stk tk r}, feed n stk tk = r → r ≠ .fuel → feed (n + 1) stk tk = r := by
  induction n with
  | zero => intro stk tk r h hr; simp only [feed] at h; exact absurd h.symm hr
  | succ n ih =>
    intro stk tk r h hr
    unfold feed at h ⊢
    cases ha : action (topState stk) tk.type with
    | error => simpa [ha] using h
    | shift s => simpa [ha] using h
    | reduce i =>
      simp only [ha] at h ⊢
      cases hr' : rules[i]? with
      | none => simpa [hr'] using h
      | some rule =>
        simp only [hr'] at h ⊢
        split
        · simp_all
        · rename_i hlt
          rw [if_neg hlt] at h
          cases hg : goto (topState (stk.drop rule.rhs.length)) rule.lhs with
          | none => simpa [hg] using h
          | some s =>
            simp only [hg] at h ⊢
            split
            · simp_all
            · rename_i hend
              rw [if_neg hend] at h
              exact ih h hr

theorem feed_more_le {n m : Nat} (h : n ≤ m) {stk tk r} (hf : feed n stk tk = r) (hr : r ≠ .fuel) :
    feed m stk tk = r := by
  induction h with
  | refl => exact hf
  | step _ ih => exact feed_more _ ih hr

theorem feeds_of_feed {n : Nat} : ∀ {stk tk r}, feed n stk tk = r → r ≠ .fuel → ∃ m ≤ n, FeedsIn m stk tk r := by
  induction n with
  | zero => intro stk tk r h hr; simp only [feed] at h; exact absurd h.symm hr
  | succ n ih =>
    intro stk tk r h hr
    by_cases hn : feed n stk tk = .fuel
    · refine ⟨n + 1, Nat.le_refl _, h, hr, fun m hm => ?_⟩
      by_cases hm' : feed m stk tk = .fuel
      · exact hm'
      · rw [feed_more_le (Nat.lt_succ_iff.mp hm) rfl hm'] at hn
        exact absurd hn hm'
    · have h' : feed n stk tk = r := by
        have := feed_more n (r := feed n stk tk) rfl hn
        rw [← this]; exact h
      obtain ⟨m, hm, hf⟩ := ih h' hr
      exact ⟨m, by omega, hf⟩

theorem FeedsIn.le {n m : Nat} {stk tk r} (h : FeedsIn n stk tk r) (hf : feed m stk tk ≠ .fuel) : n ≤ m := by
  rcases Nat.lt_or_ge m n with hlt | hge
  · exact absurd (h.2.2 m hlt) hf
  · exact hge

theorem FeedsIn.unique {n m : Nat} {stk tk r r'} (h : FeedsIn n stk tk r) (h' : FeedsIn m stk tk r') :
    n = m ∧ r = r' := by
  have h1 := h.le (m := m) (by rw [h'.1]; exact h'.2.1)
  have h2 := h'.le (m := n) (by rw [h.1]; exact h.2.1)
  have : n = m := by omega
  subst this
  exact ⟨rfl, h.1.symm.trans h'.1⟩

theorem Works.unique {stk s l k n r} (h : Works stk s l k n r) : ∀ {k' n' r'}, Works stk s l k' n' r' →
    k = k' ∧ n = n' ∧ r = r' := by
  induction h with
  | noToken h1 => intro _ _ _ h'; cases h' <;> simp_all
  | done h1 h2 =>
    intro _ _ _ h'
    cases h' with
    | done g1 g2 => have := h2.unique g2; simp_all
    | early g1 g2 => have := h2.unique g2; simp_all
    | noToken g1 | refused g1 | shift g1 => simp_all
  | early h1 h2 =>
    intro _ _ _ h'
    cases h' with
    | done g1 g2 => have := h2.unique g2; simp_all
    | early g1 g2 => have := h2.unique g2; simp_all
    | noToken g1 | refused g1 | shift g1 => simp_all
  | refused h1 h2 =>
    intro _ _ _ h'
    cases h' with
    | refused g1 g2 =>
      rw [h1] at g1; cases g1
      have := h2.unique g2; simp_all
    | shift g1 g2 =>
      rw [h1] at g1; cases g1
      have := h2.unique g2; simp_all
    | noToken g1 | done g1 | early g1 => simp_all
  | shift h1 h2 _ ih =>
    intro _ _ _ h'
    cases h' with
    | refused g1 g2 =>
      rw [h1] at g1; cases g1
      have := h2.unique g2; simp_all
    | shift g1 g2 g3 =>
      rw [h1] at g1; cases g1
      have h4 := h2.unique g2
      obtain ⟨rfl, h5⟩ := h4
      cases h5
      obtain ⟨rfl, rfl, rfl⟩ := ih g3
      exact ⟨rfl, rfl, rfl⟩
    | noToken g1 | done g1 | early g1 => simp_all

theorem Inv.reduce_next {stk : Stack} {w : List Tok} {tk : Tok} {r : Nat} {rule : Rule} {s : Nat} {ys'}
    (hinv : Inv stk w tk.type) (ha : action (topState stk) tk.type = .reduce r) (hr : rules[r]? = some rule)
    (hg : goto (topState (stk.drop rule.rhs.length)) rule.lhs = some s)
    (hl' : Lk (rule.lhs :: ys') (s :: (stk.drop rule.rhs.length).map Prod.fst))
    (hend : ¬ (tk.type = tEND ∧ s = endState)) : s ≠ endState := by
  intro hse
  apply hend
  refine ⟨?_, hse⟩
  have hmem : rule ∈ rules := List.mem_of_getElem? hr
  have hlk : Lk ys' ((stk.drop rule.rhs.length).map Prod.fst) := by
    cases hl' with | cons h _ => exact h
  obtain ⟨hl1, hl2, _⟩ := rule_spec hmem
  have heg := (goto_spec hlk.lt hl1 hl2).2.1
  rw [← topState_eq] at heg
  simp only [endGotoOK, hg, hse, Bool.and_eq_true, Bool.or_eq_true, bne_self_eq_false,
    Bool.false_eq_true, false_or, beq_iff_eq] at heg
  have hlt : tk.type < numTerms := by
    rcases Nat.lt_or_ge tk.type numTerms with h | h
    · exact h
    · rw [action_ge h] at ha; cases ha
  obtain ⟨ys, hl, _, _⟩ := hinv
  have hact := (action_spec (p := topState stk) (by rw [topState_eq]; exact hl.lt) hlt).2
  simp only [endOK, ha, hr, heg.1.2.2, bne_self_eq_false, Bool.false_or, Bool.and_eq_true,
    beq_iff_eq] at hact
  exact hact.1

/-- the number of look-ups for one token, amortised by the weight of the stack -/
theorem feed_amortised (n : Nat) : ∀ (stk : Stack) (tk : Tok) (ys : List Nat) (w : List Tok),
    Lk ys (stk.map Prod.fst) → Inv stk w tk.type → feed n stk tk ≠ .fuel →
    ∃ m, feed m stk tk = feed n stk tk ∧
      (∀ stk', feed n stk tk = .shifted stk' →
        ∃ ys', Lk ys' (stk'.map Prod.fst) ∧ m + weightL ys' ≤ weightL ys + 7) ∧
      ((∀ stk', feed n stk tk ≠ .shifted stk') → m ≤ weightL ys + 2) := by
  induction n with
  | zero => intro stk tk ys w _ _ h; exact absurd rfl h
  | succ n ih =>
    intro stk tk ys w hl hinv hf
    cases ha : action (topState stk) tk.type with
    | error => exact ⟨1, by simp [feed, ha], by simp [feed, ha], fun _ => by omega⟩
    | shift s =>
      refine ⟨1, by simp [feed, ha], ?_, fun _ => by omega⟩
      intro stk' h
      unfold feed at h
      simp only [ha] at h
      by_cases he : tk.type = tEND
      · simp [he] at h
      · rw [if_neg he] at h
        cases h
        have hlt : tk.type < tEND := by
          rcases Nat.lt_or_ge tk.type numTerms with h | h
          · simp [numTerms] at h; simp [tEND] at he ⊢; omega
          · rw [action_ge h] at ha; cases ha
        refine ⟨tk.type :: ys, ?_, ?_⟩
        · simp only [List.map_cons]
          exact .cons hl (.inl ⟨hlt, by rw [← topState_eq]; exact ha⟩)
        · have : tk.type < 128 := by simp [tEND] at hlt; omega
          simp only [weightL, symWeight, this, if_true]; omega
    | reduce r =>
      have ha' := ha
      rw [topState_eq] at ha'
      obtain ⟨rule, s, ys', hr, hys, hg⟩ := hl.reduce ha'
      have hmem : rule ∈ rules := List.mem_of_getElem? hr
      obtain ⟨hl1, hl2, _⟩ := rule_spec hmem
      have hlen : ys.length = stk.length := by simpa using hl.length
      have hle : rule.rhs.length ≤ stk.length := by rw [← hlen, hys]; simp
      have hys' : ys' = ys.drop rule.rhs.length := by
        rw [hys, List.drop_append_of_le_length (by simp)]; simp
      have hl' : Lk (rule.lhs :: ys') (s :: (stk.drop rule.rhs.length).map Prod.fst) := by
        refine .cons ?_ (.inr ⟨hl1, hl2, by rw [List.map_drop]; exact hg⟩)
        rw [hys', List.map_drop]; exact hl.drop _
      have hg' : goto (topState (stk.drop rule.rhs.length)) rule.lhs = some s := by
        rw [topState_eq, List.map_drop]; exact hg
      have hw := List.all_eq_true.mp check_weights rule hmem
      have hlt : tk.type < numTerms := by
        rcases Nat.lt_or_ge tk.type numTerms with h | h
        · exact h
        · rw [action_ge h] at ha; cases ha
      have hact := (action_spec (p := topState stk) (by rw [topState_eq]; exact hl.lt) hlt).2
      simp only [endOK, ha, hr, Bool.and_eq_true] at hact
      obtain ⟨_, hact⟩ := hact
      have hunf : ∀ m, feed (m + 1) stk tk =
          if tk.type = tEND ∧ s = endState then
            .accept (buildNode rule ((stk.take rule.rhs.length).reverse.map Prod.snd))
          else feed m ((s, buildNode rule ((stk.take rule.rhs.length).reverse.map Prod.snd)) ::
            stk.drop rule.rhs.length) tk := by
        intro m
        conv_lhs => unfold feed
        simp only [ha, hr, hg']
        rw [if_neg (by omega)]
      rw [hunf] at hf ⊢
      by_cases hend : tk.type = tEND ∧ s = endState
      · simp only [if_pos hend] at hf ⊢
        exact ⟨1, by rw [hunf, if_pos hend], by simp, fun _ => by omega⟩
      · simp only [if_neg hend] at hf ⊢
        have hne := hinv.reduce_next ha hr hg' hl' hend
        obtain ⟨rule2, s2, hr2, _, _, hg2, ys2, hl2', hd2⟩ := hinv.reduce_step ha
        rw [hr] at hr2; cases hr2
        rw [hg'] at hg2; cases hg2
        have hinv' : Inv ((s, buildNode rule ((stk.take rule.rhs.length).reverse.map Prod.snd)) ::
            stk.drop rule.rhs.length) w tk.type := ⟨_, hl2', by simpa [topState] using hne, hd2⟩
        cases hrhs : rule.rhs with
        | nil =>
          simp only [hrhs, List.length_nil, List.drop_zero] at hact hg' hl' hf hunf ⊢
          rw [hg'] at hact
          simp only [Bool.or_eq_true, Bool.and_eq_true, beq_iff_eq] at hact
          rcases hact with h | h
          · exact absurd ⟨h.2, h.1⟩ hend
          · cases hs : action s tk.type with
            | error => simp [hs] at h
            | reduce _ => simp [hs] at h
            | shift s' =>
              cases n with
              | zero => simp [feed] at hf
              | succ n =>
                simp only [feed, topState, hs] at hf ⊢
                refine ⟨2, ?_, ?_, fun _ => by omega⟩
                · rw [hunf, if_neg hend]; simp [feed, topState, hs]
                · intro stk' h'
                  by_cases he : tk.type = tEND
                  · simp [he] at h'
                  · rw [if_neg he] at h'
                    cases h'
                    have hlt' : tk.type < tEND := by
                      simp [numTerms] at hlt; simp [tEND] at he ⊢; omega
                    have hsl : s ≠ endState := hne
                    have hw0 : symWeight rule.lhs = 0 := by
                      have hstart : rule.lhs ≠ 128 := by
                        intro h128
                        have heg := (goto_spec hl.lt hl1 hl2).2.1
                        rw [← topState_eq] at heg
                        simp only [endGotoOK, hg', Bool.and_eq_true, Bool.or_eq_true, bne_iff_ne,
                          beq_iff_eq] at heg
                        rcases heg.2 with h3 | h3
                        · exact h3 h128
                        · exact hne h3
                      simp only [ruleWeightOK, hrhs, weightL, Bool.and_eq_true, Bool.or_eq_true, beq_iff_eq,
                        decide_eq_true_eq] at hw
                      rcases hw with h0 | ⟨⟨⟨h0, _⟩, _⟩, _⟩
                      · cases h0
                      · rcases h0 with ⟨_, h0 | h0⟩ | h0
                        · exact absurd h0 hstart
                        · exact h0
                        · omega
                    refine ⟨tk.type :: rule.lhs :: ys', ?_, ?_⟩
                    · simp only [List.map_cons]
                      exact .cons hl' (.inl ⟨hlt', by simpa [topOf] using hs⟩)
                    · have h128 : tk.type < 128 := by simp [tEND] at hlt'; omega
                      rw [hys, hrhs]
                      simp only [weightL, symWeight, h128, if_true, List.reverse_nil, List.nil_append]
                      simp only [symWeight] at hw0
                      omega
        | cons x xs =>
          have hstep : symWeight rule.lhs + 1 ≤ weightL rule.rhs := by
            simp only [ruleWeightOK, Bool.and_eq_true, Bool.or_eq_true, beq_iff_eq, decide_eq_true_eq] at hw
            rcases hw with h0 | ⟨⟨⟨h0, _⟩, _⟩, _⟩
            · rw [h0] at hact
              simp at hact
            · rcases h0 with ⟨⟨h0, _⟩, _⟩ | h0
              · rw [hrhs] at h0; cases h0
              · exact h0
          rw [← hrhs]
          obtain ⟨m, hm, h1, h2⟩ := ih _ tk (rule.lhs :: ys') w (by simpa using hl') hinv' hf
          have hwt : weightL ys = weightL rule.rhs + weightL ys' := by
            rw [hys, weightL_append, weightL_reverse]
          refine ⟨m + 1, by rw [hunf, if_neg hend]; exact hm, ?_, ?_⟩
          · intro stk' hs'
            obtain ⟨ys2, hl2, hle2⟩ := h1 stk' hs'
            refine ⟨ys2, hl2, ?_⟩
            simp only [weightL] at hle2
            omega
          · intro hno
            have := h2 hno
            simp only [weightL] at this
            omega

theorem parseLoop_works (f : Nat) : ∀ (stk : Stack) (w : List Tok) (s : List Char) (l : Nat) (ys : List Nat),
    (∀ m, Inv stk w m) → Lk ys (stk.map Prod.fst) → s.length < f →
    ∃ k n, Works stk s l k n (parseLoop f stk s l) ∧ k ≤ s.length ∧ n ≤ weightL ys + 7 * k + 2 ∧
      ∀ t, parseLoop f stk s l = .ok t → ∃ w', w'.length = k ∧ DerL [N.start] [t] (w ++ w') tEND := by
  induction f with
  | zero => intro stk w s l ys _ _ h; omega
  | succ f ih =>
    intro stk w s l ys hinv hl hlen
    unfold parseLoop
    have hns := nextTok_sound (acc := accepts (topState stk)) (fun t => accepts_lt) s.length s l
    cases hn : nextTok (accepts (topState stk)) s.length s l with
    | fail => exact ⟨0, 0, .noToken hn, by omega, by omega, by simp⟩
    | eof =>
      simp only
      obtain ⟨f1, f2, f3⟩ := feed_spec (feedFuel stk) stk w ⟨tEND, [], l, l⟩ (hinv _)
      have f4 := Inv.feedFuel_ok ⟨tEND, [], l, l⟩ (hinv _)
      obtain ⟨m, hm, h1, h2⟩ := feed_amortised _ stk ⟨tEND, [], l, l⟩ ys w hl (hinv _) f4
      cases hf : feed (feedFuel stk) stk ⟨tEND, [], l, l⟩ with
      | shifted stk' => have := (f1 stk' hf).2; simp at this
      | accept t =>
        obtain ⟨n, hn', hfe⟩ := feeds_of_feed (hm.trans hf) (by simp)
        have := h2 (by simp [hf])
        refine ⟨0, n, .done hn hfe, by omega, by omega, fun t' ht => ?_⟩
        cases ht
        exact ⟨[], rfl, by simpa using (f2 t hf).1⟩
      | unexpected =>
        obtain ⟨n, hn', hfe⟩ := feeds_of_feed (hm.trans hf) (by simp)
        have := h2 (by simp [hf])
        exact ⟨0, n, .early hn hfe, by omega, by omega, by simp⟩
      | stuck => exact absurd hf f3
      | fuel => exact absurd hf f4
    | tok tk rest =>
      simp only
      obtain ⟨p, x, hs, hp, htext, hlt, htk⟩ := hns.2 tk rest hn
      obtain ⟨f1, f2, f3⟩ := feed_spec (feedFuel stk) stk w tk (hinv _)
      have f4 := Inv.feedFuel_ok tk (hinv _)
      obtain ⟨m, hm, h1, h2⟩ := feed_amortised _ stk tk ys w hl (hinv _) f4
      cases hf : feed (feedFuel stk) stk tk with
      | shifted stk' =>
        simp only
        have hx := htext.ne_nil hlt
        have hl' : rest.length < s.length := by
          rw [hs]
          have := List.length_pos_iff.mpr hx
          simp; omega
        obtain ⟨ys', hlk, hle⟩ := h1 stk' hf
        obtain ⟨k, n, g1, g2, g3, g4⟩ := ih stk' (w ++ [tk]) rest tk.endLine ys' (f1 stk' hf).1 hlk (by omega)
        obtain ⟨n', hn', hfe⟩ := feeds_of_feed (hm.trans hf) (by simp)
        refine ⟨k + 1, n' + n, .shift hn hfe g1, by omega, by omega, fun t ht => ?_⟩
        obtain ⟨w', hw, hd⟩ := g4 t ht
        exact ⟨tk :: w', by simp [hw], by simpa using hd⟩
      | accept t => have := (f2 t hf).2; simp [this] at hlt
      | unexpected =>
        obtain ⟨n, hn', hfe⟩ := feeds_of_feed (hm.trans hf) (by simp)
        have := h2 (by simp [hf])
        exact ⟨0, n, .refused hn hfe, by omega, by omega, by simp⟩
      | stuck => exact absurd hf f3
      | fuel => exact absurd hf f4

/-! ### Nodes of trees -/

theorem nodesL_append (xs ys : List Tree) : Tree.nodesL (xs ++ ys) = Tree.nodesL xs + Tree.nodesL ys := by
  induction xs with
  | nil => simp [Tree.nodesL]
  | cons x xs ih => simp only [List.cons_append, Tree.nodesL, ih]; omega

theorem nodesL_nones (n : Nat) : Tree.nodesL (List.replicate n Tree.none) = 0 := by
  induction n with
  | zero => rfl
  | succ n ih => simp [List.replicate_succ, Tree.nodesL, Tree.nodes, ih]

theorem nodesL_drop (kids : List Tree) (i : Nat) :
    Tree.nodesL (kids.drop i) = (match kids[i]? with | some k => k.nodes | .none => 0) +
      Tree.nodesL (kids.drop (i + 1)) := by
  cases h : kids[i]? with
  | none =>
    have := List.getElem?_eq_none_iff.mp h
    simp [List.drop_eq_nil_of_le this, List.drop_eq_nil_of_le (Nat.le_succ_of_le this), Tree.nodesL]
  | some k =>
    obtain ⟨hi, rfl⟩ := List.getElem?_eq_some_iff.mp h
    rw [List.drop_eq_getElem_cons hi, Tree.nodesL]

theorem nodesL_drop_le (kids : List Tree) {i j : Nat} (h : i ≤ j) :
    Tree.nodesL (kids.drop j) ≤ Tree.nodesL (kids.drop i) := by
  induction h with
  | refl => exact Nat.le_refl _
  | @step m _ ih =>
    have := nodesL_drop kids m
    exact Nat.le_trans (by rw [Nat.succ_eq_add_one]; omega) ih

def keepOne (kids : List Tree) (x : Nat × Bool × Nat) : List Tree :=
  List.replicate x.2.2 Tree.none ++
    (match kids[x.1]? with
     | .none => []
     | some k => if x.2.1 then (match k with | .node _ ks _ => ks | _ => []) else [k])

theorem keep_nodes (kids : List Tree) : ∀ (ks : List (Nat × Bool × Nat)) (n : Nat), incr n ks = true →
    Tree.nodesL (ks.flatMap (keepOne kids)) ≤ Tree.nodesL (kids.drop n)
  | [], n, _ => by simp [Tree.nodesL]
  | (i, inline, nones) :: ks, n, h => by
    simp only [incr, Bool.and_eq_true, decide_eq_true_eq] at h
    have ih := keep_nodes kids ks (i + 1) h.2
    have h1 := nodesL_drop_le kids h.1
    rw [nodesL_drop kids i] at h1
    rw [List.flatMap_cons, nodesL_append]
    have h2 : Tree.nodesL (keepOne kids (i, inline, nones)) ≤
        (match kids[i]? with | some k => k.nodes | .none => 0) := by
      simp only [keepOne, nodesL_append, nodesL_nones]
      cases hk : kids[i]? with
      | none => simp [Tree.nodesL]
      | some k =>
        cases inline with
        | false => simp [Tree.nodesL]
        | true => cases k <;> simp [Tree.nodes, Tree.nodesL]
    omega

theorem keepKids_one (r : Rule) (kids : List Tree) :
    keepKids r kids = r.keep.flatMap (keepOne kids) ++ List.replicate r.tailNones Tree.none := rfl

theorem setSpan_nodes (res : Tree) (kids : List Tree) : (setSpan res kids).nodes = res.nodes := by
  unfold setSpan
  split
  · split
    · split <;> simp [Tree.nodes]
    · rfl
  · rfl

theorem buildNode_nodes {r : Rule} (hr : r ∈ rules) (kids : List Tree) :
    (buildNode r kids).nodes ≤ Tree.nodesL kids + 1 := by
  have hk := keep_nodes kids r.keep 0 (List.all_eq_true.mp check_keep r hr)
  rw [List.drop_zero] at hk
  have hk' : Tree.nodesL (keepKids r kids) ≤ Tree.nodesL kids := by
    rw [keepKids_one, nodesL_append, nodesL_nones]
    exact hk
  unfold buildNode
  rw [setSpan_nodes]
  split
  · rename_i k hk2; rw [hk2] at hk'; simp only [Tree.nodesL] at hk'; omega
  · simp only [Tree.nodes]; omega

/-- nodes and weights against tokens -/
theorem DerL.nodes {ss ts w n} (h : DerL ss ts w n) : 128 ∉ ss →
    Tree.nodesL ts + weightL ss ≤ 5 * w.length + mayBeEmptyL ss := by
  induction h with
  | nil => intro _; simp [Tree.nodesL, weightL]
  | @tok ss ts w n t _ ih =>
    intro hs
    have := ih (fun h => hs (List.mem_cons_of_mem _ h))
    have h5 : symWeight t.type ≤ 5 := by
      unfold symWeight; split
      · omega
      · generalize t.type - 128 = i
        have : ∀ x ∈ ntWeights, x ≤ 5 := by decide
        cases h : ntWeights[i]? with
        | none => simp
        | some x => simpa using this x (List.mem_of_getElem? h)
    simp only [Tree.nodesL, Tree.nodes, weightL, mayBeEmptyL, List.length_cons]
    omega
  | @node ss ts w kids w₁ n r hr hc hk _ ih1 ih2 =>
    intro hs
    have h2 := ih2 (fun h => hs (List.mem_cons_of_mem _ h))
    have hb := buildNode_nodes hr kids
    have hw := List.all_eq_true.mp check_weights r hr
    simp only [ruleWeightOK, Bool.and_eq_true, Bool.or_eq_true, beq_iff_eq, decide_eq_true_eq] at hw
    have hne : r.lhs ≠ 128 := fun e => hs (by simp [e])
    obtain ⟨i, st, hi, hst, ha⟩ := hc
    have hlt : nextT w n < numTerms := by
      rcases Nat.lt_or_ge (nextT w n) numTerms with h | h
      · exact h
      · rw [action_ge h] at ha; cases ha
    have hact := (action_spec hst hlt).2
    simp only [endOK, ha, hi, Bool.and_eq_true] at hact
    rcases hw with h0 | ⟨⟨⟨_, hq⟩, _⟩, hno⟩
    · rw [h0] at hact; simp at hact
    · have h1 := ih1 (by simpa using hno)
      rcases hq with hq | hq
      · exact absurd hq hne
      · simp only [Tree.nodesL, weightL, mayBeEmptyL, List.length_append]
        omega

theorem start_nodes {t w} (h : DerL [N.start] [t] w tEND) : t.nodes ≤ 5 * w.length + 1 := by
  generalize hss : [N.start] = ss at h
  generalize hts : [t] = ts at h
  generalize hm : tEND = m at h
  cases h with
  | nil => cases hts
  | tok t h => cases hts; simp [Tree.nodes]
  | @node _ _ w2 kids w₁ _ r hr hc hk hn =>
    cases hts
    have h128 : r.lhs = 128 := by injection hss with h1 _; exact h1.symm
    cases hn
    have hb := buildNode_nodes hr kids
    have hw := List.all_eq_true.mp check_weights r hr
    simp only [ruleWeightOK, Bool.and_eq_true, Bool.or_eq_true, beq_iff_eq, decide_eq_true_eq, bne_iff_ne,
      Bool.not_eq_true'] at hw
    subst hm
    obtain ⟨i, st, hi, hst, ha⟩ := hc
    have hact := (action_spec hst (y := nextT [] tEND) (by decide)).2
    simp only [endOK, ha, hi, Bool.and_eq_true] at hact
    rcases hw with h0 | ⟨⟨⟨_, _⟩, he⟩, hno⟩
    · rw [h0] at hact; simp at hact
    · have h1 := hk.nodes (by simpa using hno)
      rcases he with he | he
      · exact absurd h128 he
      · simp only [List.append_nil]; omega

end Pycep
