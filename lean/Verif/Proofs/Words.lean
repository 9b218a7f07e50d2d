import Verif.Spec.Words
import Verif.Proofs.LexMarks
import Verif.Parser
import Verif.Proofs.LexerSound
import Verif.Proofs.Syn
import Verif.Proofs.LexComplete
/-
The lexer does not cut words short.
-/
namespace Pycep

/-! ### The scan that found a token -/

theorem scan_inv {top : Re} {t : Nat} {s rest : List Char} : ∀ {ids : List Nat},
    ids.Pairwise (· < ·) → scanWith top ids s = some (t, rest) →
    t ∈ ids ∧ Re.matchIn top (termRe t) s = some rest ∧
    ∀ k ∈ ids, k < t → Re.matchIn top (termRe k) s = .none
  | [], _, h => by simp [scanWith] at h
  | i :: ids, hp, h => by
    rw [List.pairwise_cons] at hp
    unfold scanWith at h
    cases hm : Re.matchIn top (termRe i) s with
    | some r =>
      rw [hm] at h
      simp only [Option.some.injEq, Prod.mk.injEq] at h
      obtain ⟨rfl, rfl⟩ := h
      refine ⟨by simp, hm, fun k hk hlt => ?_⟩
      rcases List.mem_cons.mp hk with rfl | hk
      · omega
      · have := hp.1 k hk; omega
    | none =>
      rw [hm] at h
      obtain ⟨h1, h2, h3⟩ := scan_inv hp.2 h
      refine ⟨by simp [h1], h2, fun k hk hlt => ?_⟩
      rcases List.mem_cons.mp hk with rfl | hk
      · exact hm
      · exact h3 k hk hlt

theorem stops_drop (p : Char → Bool) (s : List Char) : Stops p (s.dropWhile p) := by
  intro c cs h
  have := List.head?_dropWhile_not p s
  rw [h] at this
  simpa using this

theorem mem_takeWhile {p : Char → Bool} {c : Char} : ∀ {s : List Char}, c ∈ s.takeWhile p → p c = true
  | d :: s, h => by
    rw [List.takeWhile_cons] at h
    split at h
    · rcases List.mem_cons.mp h with rfl | h
      · assumption
      · exact mem_takeWhile h
    · simp at h

theorem string_stops {top : Re} {s rest : List Char} (h : Re.matchIn top (termRe T.STRING) s = some rest) :
    Stops isWord rest := by
  have h' : Terminals.STRING.run (recMatcher top s.length) s some = some rest := h
  unfold Terminals.STRING at h'
  rw [Re.run, Re.run] at h'
  split at h'
  · simp at h'
  · rw [Re.run] at h'
    cases s with
    | nil => simp [Re.run] at h'
    | cons c cs =>
      rw [run_set] at h'
      split at h'
      · have e := List.takeWhile_append_dropWhile (p := isWord) (l := cs)
        rw [← e, star_set (stops_drop _ _) (fun c hc => mem_takeWhile hc) rfl] at h'
        cases h'
        exact stops_drop _ _
      · simp at h'

theorem int_stops {top : Re} {s rest : List Char} (h : Re.matchIn top (termRe T.INT) s = some rest) :
    Stops isAsciiDigit rest := by
  have h' : (Re.plus (.set isAsciiDigit)).run (recMatcher top s.length) s some = some rest := h
  cases s with
  | nil => simp [Re.plus, Re.run] at h'
  | cons c cs =>
    rw [Re.plus, run_seq, run_set] at h'
    split at h'
    · have e := List.takeWhile_append_dropWhile (p := isAsciiDigit) (l := cs)
      rw [← e, star_set (stops_drop _ _) (fun c hc => mem_takeWhile hc) rfl] at h'
      cases h'
      exact stops_drop _ _
    · simp at h'

/-! ### The state tables -/

/-- words that are never scanned as such: an identifier and a call are possible in the same place -/
def softWords : List Nat := [T.TRUE, T.FALSE, T.NULL, T.ITEMS]

theorem check_soft : (List.range numStates).all (fun st => softWords.all (fun k => !acts st k ||
    (acts st T.STRING && acts st T.FUNCTION && !acts st T.__ANON_2))) = true := by decide +kernel

theorem check_compare : (List.range numStates).all (fun st =>
    (!acts st T.LESSTHAN || acts st T.__ANON_4) && (!acts st T.MORETHAN || acts st T.__ANON_3)) = true := by
  decide +kernel

theorem soft_acts {st k : Nat} (hs : st < numStates) (hk : k ∈ softWords) (h : acts st k = true) :
    acts st T.STRING = true ∧ acts st T.FUNCTION = true ∧ acts st T.__ANON_2 = false := by
  have h1 := check_soft
  rw [List.all_eq_true] at h1
  have h2 := h1 st (List.mem_range.mpr hs)
  rw [List.all_eq_true] at h2
  have h3 := h2 k hk
  rw [h] at h3
  simpa [and_assoc] using h3

/-! ### Tokens -/

theorem retype_cases (acc : List Nat) (t : Nat) (x : List Char) :
    retype acc t x = t ∨ (retype acc t x ∈ acc ∧ retype acc t x ∈ unlessIds t) := by
  unfold retype
  split
  · rename_i k hk
    have hm := List.mem_of_find?_eq_some hk
    simp only [List.mem_filter, List.contains_iff_mem] at hm
    exact .inr hm
  · exact .inl rfl

theorem retype_plain {acc : List Nat} {t k : Nat} {x : List Char} (h : retype acc t x = k) (h1 : k ∉ keywordIds)
    (h2 : k ≠ T.STAR) : t = k := by
  rcases retype_cases acc t x with h' | ⟨_, h'⟩
  · rw [← h', h]
  · rw [h] at h'
    rcases unless_inv h' with h | h
    · exact absurd h.2 h1
    · exact absurd h.2 h2

theorem soft_facts : ∀ k ∈ softWords, k ∈ keywordIds ∧ k ∉ ignoreIds ∧ k < tEND ∧ k ≠ T.STRING ∧
    (fixedChars k).all isAsciiAlnum = true ∧ fixedChars k ≠ [] := by decide +kernel

theorem soft_text {k : Nat} {x : List Char} (hk : k ∈ softWords) (h : TokText k x) : x = fixedChars k := by
  have : ∀ k ∈ softWords, ∃ d s, term? k = some d ∧ d.strVal = some s ∧ fixedChars k = s.toList := by
    intro k hk
    obtain ⟨d, hd, hs, _⟩ := keyword_term (soft_facts k hk).1
    exact ⟨d, _, hd, hs, by simp⟩
  obtain ⟨d, s, hd, hs, hf⟩ := this k hk
  simp only [softWords, List.mem_cons, List.not_mem_nil, or_false] at hk
  have h' : ∃ d s, term? k = some d ∧ d.strVal = some s ∧ x = s.toList := by
    rcases hk with rfl | rfl | rfl | rfl <;> exact h
  obtain ⟨d', s', hd', hs', rfl⟩ := h'
  rw [hd] at hd'; cases hd'
  rw [hs] at hs'; cases hs'
  exact hf.symm

/-- an identifier-like token that the state could also read as `k` was scanned as an identifier -/
theorem soft_scan {st t k : Nat} {x : List Char} (hst : st < numStates) (hk : k ∈ softWords)
    (hmem : t ∈ scanIds (accepts st)) (h : retype (accepts st) t x = k) :
    t = T.STRING ∧ acts st T.FUNCTION = true := by
  have hk' := soft_facts k hk
  have hacc : k ∈ accepts st := by
    rcases retype_cases (accepts st) t x with h' | ⟨h', _⟩
    · rw [← h, h']; exact (mem_scanIds.mp hmem).1
    · rw [← h]; exact h'
  have ha : acts st k = true := by
    rcases (mem_accepts.mp hacc).2 with h | h
    · exact h
    · exact absurd h hk'.2.1
  obtain ⟨h1, h2, h3⟩ := soft_acts hst hk ha
  refine ⟨?_, h2⟩
  rcases retype_cases (accepts st) t x with h' | ⟨_, h'⟩
  · exfalso
    have e : t = k := by rw [← h', h]
    subst e
    exact (mem_scanIds.mp hmem).2 T.STRING (mem_accepts.mpr ⟨by decide, .inl h1⟩)
      (by rw [unless_string]; exact hk'.1)
  · rw [h] at h'
    rcases unless_inv h' with ⟨h | h, _⟩ | ⟨_, h⟩
    · exact h
    · subst h
      rcases (acts_of_scan hmem).2 with h | h
      · rw [h3] at h; cases h
      · exact absurd h (by decide)
    · exfalso
      rw [h] at hk
      revert hk
      decide

theorem whole_of_scan {st t : Nat} {x rest : List Char} (hst : st < numStates)
    (h : scanWith (scanRe (scanIds (accepts st))) (scanIds (accepts st)) (x ++ rest) = some (t, rest))
    (hx : TokText (retype (accepts st) t x) x) : Whole (retype (accepts st) t x) rest := by
  obtain ⟨hmem, hm, hlow⟩ := scan_inv (scanIds_pairwise st) h
  have hsoft : retype (accepts st) t x ∈ softWords → Stops isWord rest ∧ rest.head? ≠ some '(' := by
    intro hk
    obtain ⟨rfl, hf⟩ := soft_scan hst hk hmem rfl
    refine ⟨string_stops hm, fun hp => ?_⟩
    obtain ⟨r, rfl⟩ : ∃ r, rest = '(' :: r := by
      cases rest with
      | nil => simp at hp
      | cons c r => simp only [List.head?_cons, Option.some.injEq] at hp; exact ⟨r, by rw [hp]⟩
    have := hlow T.FUNCTION (scan_mem (by decide) (.inl hf) (by decide) (by decide)) (by decide)
    have hfun : IsFunctionText (x ++ ['(']) := by
      have hf := soft_facts _ hk
      rw [← soft_text hk hx] at hf
      exact ⟨[], x, by simp, .inl rfl, hf.2.2.2.2.2, by simpa using hf.2.2.2.2.1⟩
    have h2 := function_match (top := scanRe (scanIds (accepts st))) (s := r) hfun
    rw [List.append_assoc] at h2
    rw [show x ++ '(' :: r = x ++ (['('] ++ r) from rfl, h2] at this
    cases this
  refine ⟨fun hk => ?_, fun hk => ?_, fun hk => (hsoft hk).2, fun hk hp => ?_⟩
  · rcases List.mem_cons.mp hk with hk | hk
    · obtain rfl := retype_plain hk (by decide) (by decide)
      exact string_stops hm
    · exact (hsoft hk).1
  · obtain rfl := retype_plain hk (by decide) (by decide)
    exact int_stops hm
  · obtain ⟨r, rfl⟩ : ∃ r, rest = '=' :: r := by
      cases rest with
      | nil => simp at hp
      | cons c r => simp only [List.head?_cons, Option.some.injEq] at hp; exact ⟨r, by rw [hp]⟩
    have hc := check_compare
    rw [List.all_eq_true] at hc
    have hc := hc st (List.mem_range.mpr hst)
    simp only [Bool.and_eq_true, Bool.or_eq_true, Bool.not_eq_true'] at hc
    rcases List.mem_cons.mp hk with hk | hk
    · have ht := retype_plain hk (by decide) (by decide)
      subst ht
      rw [hk] at hx
      obtain ⟨d, s, hd, hs, rfl⟩ : ∃ d s, term? T.LESSTHAN = some d ∧ d.strVal = some s ∧ x = s.toList := hx
      cases hd
      cases hs
      have ha : acts st T.__ANON_4 = true := by
        rcases (acts_of_scan hmem).2 with h | h
        · rcases hc.1 with h' | h'
          · rw [h] at h'; cases h'
          · exact h'
        · exact absurd h (by decide)
      have := hlow T.__ANON_4 (scan_mem (by decide) (.inl ha) (by decide) (by decide)) (by decide)
      have h2 : Re.matchIn (scanRe (scanIds (accepts st))) (termRe T.__ANON_4) (['<', '='] ++ r) = some r := lit_run ['<', '=']
      exact absurd (h2.symm.trans this) (by simp)
    · have hk := List.mem_singleton.mp hk
      have ht := retype_plain hk (by decide) (by decide)
      subst ht
      rw [hk] at hx
      obtain ⟨d, s, hd, hs, rfl⟩ : ∃ d s, term? T.MORETHAN = some d ∧ d.strVal = some s ∧ x = s.toList := hx
      cases hd
      cases hs
      have ha : acts st T.__ANON_3 = true := by
        rcases (acts_of_scan hmem).2 with h | h
        · rcases hc.2 with h' | h'
          · rw [h] at h'; cases h'
          · exact h'
        · exact absurd h (by decide)
      have := hlow T.__ANON_3 (scan_mem (by decide) (.inl ha) (by decide) (by decide)) (by decide)
      have h2 : Re.matchIn (scanRe (scanIds (accepts st))) (termRe T.__ANON_3) (['>', '='] ++ r) = some r := lit_run ['>', '=']
      exact absurd (h2.symm.trans this) (by simp)

theorem nextTok_whole {st : Nat} (hst : st < numStates) : ∀ (n : Nat) (s : List Char) (l : Nat) {tk rest},
    nextTok (accepts st) n s l = .tok tk rest → Whole tk.type rest := by
  intro n
  induction n with
  | zero =>
    intro s l tk rest h
    cases s <;> simp [nextTok] at h
  | succ n ih =>
    intro s l tk rest h
    cases s with
    | nil => simp [nextTok] at h
    | cons c s =>
      unfold nextTok at h
      simp only at h
      cases hs : scanWith (scanRe (scanIds (accepts st))) (scanIds (accepts st)) (c :: s) with
      | none => rw [hs] at h; simp at h
      | some p =>
        obtain ⟨t, r⟩ := p
        rw [hs] at h
        simp only at h
        obtain ⟨hmem, x, hx, hlang⟩ := scanWith_sound hs
        have ht : t < tEND := accepts_lt (List.mem_filter.mp hmem).1
        have hxt : (c :: s).take ((c :: s).length - r.length) = x := by rw [hx]; simp
        rw [hxt] at h
        split at h
        · cases hi : ignoreIds.contains t with
          | true =>
            rw [hi, if_pos rfl] at h
            exact ih _ _ h
          | false =>
            have h0 := h
            rw [hi] at h
            simp only [Bool.false_eq_true, if_false, LexRes.tok.injEq] at h
            obtain ⟨rfl, rfl⟩ := h
            rw [hx] at hs
            refine whole_of_scan hst hs ?_
            have hns := (nextTok_sound (acc := accepts st) (fun t => accepts_lt) (n + 1) (c :: s) l).2
            obtain ⟨p, y, e, hp, h1, h2, h3⟩ := hns ⟨retype (accepts st) t x, x, l, l + countNL x⟩ r (by
              unfold nextTok
              rw [hx]
              simp only [hs]
              rw [hx] at hxt
              rw [hxt, hi, if_pos (by rw [← hx]; assumption)]
              rfl)
            have := congrArg Tok.text h3
            simp only at this
            rw [this]
            rw [this] at h1
            exact h1
        · simp at h

/-! ### Whole texts -/

theorem WordTiling.skips {x} (h : Trivias x) : ∀ {l s w}, WordTiling (l + countNL x) s w →
    WordTiling l (x ++ s) w := by
  induction h with
  | nil => intro l s w h; simpa [countNL] using h
  | @cons x y hx _ ih =>
    intro l s w h
    rw [List.append_assoc]
    refine .skip hx (ih ?_)
    simpa [countNL, Nat.add_assoc] using h

theorem WordTiling.tiling {l s w} (h : WordTiling l s w) : Tiling l s w := by
  induction h with
  | nil => exact .nil
  | skip h _ ih => exact .skip h ih
  | tok h1 h2 _ _ ih => exact .tok h1 h2 ih

theorem parseLoop_words (n : Nat) : ∀ (stk : Stack) (w : List Tok) (s : List Char) (l : Nat),
    (∀ m, Inv stk w m) → s.length < n →
    ∀ t, parseLoop n stk s l = .ok t → ∃ w', WordTiling l s w' ∧ DerL [N.start] [t] (w ++ w') tEND := by
  induction n with
  | zero => intro stk w s l _ h; omega
  | succ n ih =>
    intro stk w s l hinv hlen
    unfold parseLoop
    have hns := nextTok_sound (acc := accepts (topState stk)) (fun t => accepts_lt) s.length s l
    have hnw := @nextTok_whole (topState stk) (hinv tEND).top_lt s.length s l
    cases hn : nextTok (accepts (topState stk)) s.length s l with
    | fail => simp
    | eof =>
      simp only
      obtain ⟨f1, f2, f3⟩ := feed_spec (feedFuel stk) stk w ⟨tEND, [], l, l⟩ (hinv _)
      have f4 := Inv.feedFuel_ok ⟨tEND, [], l, l⟩ (hinv _)
      cases hf : feed (feedFuel stk) stk ⟨tEND, [], l, l⟩ with
      | shifted stk' => have := (f1 stk' hf).2; simp at this
      | accept t =>
        intro t' ht
        simp only [ParseRes.ok.injEq] at ht
        subst ht
        refine ⟨[], ?_, by simpa using (f2 t hf).1⟩
        have := WordTiling.skips (hns.1 hn) (l := l) (.nil)
        simpa using this
      | unexpected => simp
      | stuck => exact absurd hf f3
      | fuel => exact absurd hf f4
    | tok tk rest =>
      simp only
      obtain ⟨p, x, hs, hp, htext, hlt, htk⟩ := hns.2 tk rest hn
      obtain ⟨f1, f2, f3⟩ := feed_spec (feedFuel stk) stk w tk (hinv _)
      cases hf : feed (feedFuel stk) stk tk with
      | shifted stk' =>
        simp only
        have hx := htext.ne_nil hlt
        have hl : rest.length < n := by
          rw [hs] at hlen
          have := List.length_pos_iff.mpr hx
          simp at hlen; omega
        intro t ht
        obtain ⟨w', hw, hd⟩ := ih stk' (w ++ [tk]) rest tk.endLine (f1 stk' hf).1 hl t ht
        refine ⟨tk :: w', ?_, by simpa using hd⟩
        rw [hs, List.append_assoc]
        refine WordTiling.skips hp ?_
        have hwh := hnw hn
        rw [htk] at hw ⊢
        exact .tok htext hlt hwh hw
      | accept t => simp
      | unexpected => simp
      | stuck => exact absurd hf f3
      | fuel => simp

end Pycep
