import Verif.Spec.Text
import Verif.Proofs.RegexSound
import Verif.Proofs.LRSound
import Mathlib.Tactic.IntervalCases
/-
The lexer cuts the text as specified in `Spec/Text.lean`; lifted to `larkParse`.
-/
namespace Pycep

theorem lang_newlines {x} (h : Lang Terminals.NEWLINE x) : IsNewlines x := by
  obtain ⟨a, b, rfl, ha, hb⟩ := h.plus_inv
  have hone : ∀ a, Lang (.seq (Re.opt (Re.chr '\r')) (Re.chr '\n')) a → a = ['\n'] ∨ a = ['\r', '\n'] := by
    intro a ha
    obtain ⟨p, q, rfl, hp, hq⟩ := ha.seq_inv
    rw [hq.chr_inv]
    rcases hp.opt_inv with hp | hp
    · rw [hp.chr_inv]; simp
    · rw [hp]; simp
  have hstar : ∀ b, Lang (.star (.seq (Re.opt (Re.chr '\r')) (Re.chr '\n'))) b → b = [] ∨ IsNewlines b := by
    intro b hb
    refine Lang.star_ind (P := fun b => b = [] ∨ IsNewlines b) (.inl rfl) ?_ hb
    intro x y hx hy
    right
    rcases hone x hx with rfl | rfl <;> rcases hy with rfl | hy
    · exact .lf
    · exact .consLf hy
    · exact .crlf
    · exact .consCrlf hy
  rcases hone a ha with rfl | rfl <;> rcases hstar b hb with rfl | hy
  · exact .lf
  · exact .consLf hy
  · exact .crlf
  · exact .consCrlf hy

theorem lang_sysaz {x} (h : Lang (.seq (.alt (Re.lit ['s', 'y', 's']) (Re.lit ['a', 'z'])) (Re.chr '.')) x) :
    x = "sys.".toList ∨ x = "az.".toList := by
  obtain ⟨p, q, rfl, hp, hq⟩ := h.seq_inv
  rw [hq.chr_inv]
  rcases hp.alt_inv with hp | hp <;> rw [hp.lit_inv] <;> simp

theorem lang_function {x} (h : Lang Terminals.FUNCTION x) : IsFunctionText x := by
  obtain ⟨p, q, rfl, hp, hq⟩ := h.seq_inv
  obtain ⟨n, l, rfl, hn, hl⟩ := hq.seq_inv
  rw [hl.chr_inv]
  refine ⟨p, n, by simp, ?_, hn.plusSet_inv⟩
  rcases hp.opt_inv with hp | hp
  · exact .inr (lang_sysaz hp)
  · exact .inl hp

theorem lang_listFunc {x} (h : Lang Terminals.LIST_FUNC_NAME x) : x ≠ [] ∧ ∀ c ∈ x, isAsciiAlpha c = true := by
  obtain ⟨p, q, rfl, hp, hq⟩ := h.seq_inv
  rw [hp.look_inv]; exact hq.plusSet_inv

theorem lang_string {x} (h : Lang Terminals.STRING x) : IsIdentText x := by
  obtain ⟨p, q, rfl, hp, hq⟩ := h.seq_inv
  rw [hp.nlook_inv]
  obtain ⟨a, b, rfl, ha, hb⟩ := hq.seq_inv
  obtain ⟨c, rfl, hc⟩ := ha.set_inv
  exact ⟨c, b, rfl, by simpa using hc, hb.starSet_inv⟩

theorem lang_qstring {x} (h : Lang Terminals.QUOTED_STRING x) :
    ∃ b, x = '\'' :: b ++ ['\''] ∧ ∀ c ∈ b, isWord c = true ∨ c = '.' := by
  obtain ⟨p, q, rfl, hp, hq⟩ := h.seq_inv
  obtain ⟨a, b, rfl, ha, hb⟩ := hq.seq_inv
  obtain ⟨b, e, rfl, hb, he⟩ := hb.seq_inv
  obtain ⟨c, rfl, hc⟩ := ha.set_inv
  rw [hp.chr_inv, he.chr_inv]
  refine ⟨c :: b, by simp, ?_⟩
  intro d hd
  rcases List.mem_cons.mp hd with rfl | hd
  · left
    unfold isWord
    have hlt : d.toNat < 128 := by
      simp only [Bool.or_eq_true, beq_iff_eq] at hc
      rcases hc with hc | rfl
      · simp only [isAsciiAlpha, inRange, Bool.or_eq_true, Bool.and_eq_true, decide_eq_true_eq] at hc
        have h1 : 'z'.toNat = 122 := by decide
        have h2 : 'Z'.toNat = 90 := by decide
        omega
      · decide
    rw [if_pos hlt]
    simp only [Bool.or_eq_true, beq_iff_eq, isAsciiAlnum] at hc ⊢
    rcases hc with hc | hc
    · exact .inl (.inl hc)
    · exact .inr hc
  · have := hb.starSet_inv d hd
    simpa using this

theorem lang_qinterp {x} (h : Lang Terminals.QUOTED_INTERPOLATION x) : ∃ b, x = '\'' :: b ++ ['\''] := by
  obtain ⟨p, q, rfl, hp, hq⟩ := h.seq_inv
  obtain ⟨a, b, rfl, ha, hb⟩ := hq.seq_inv
  obtain ⟨b, e, rfl, hb, he⟩ := hb.seq_inv
  rw [hp.nlook_inv, ha.chr_inv, he.chr_inv]
  exact ⟨b, by simp⟩

theorem lang_multi {x} (h : Lang Terminals.MULTI_LINE_STRING x) :
    ∃ b, x = '\'' :: '\'' :: '\'' :: b ++ ['\'', '\'', '\''] := by
  obtain ⟨p, q, rfl, hp, hq⟩ := h.seq_inv
  obtain ⟨b, e, rfl, hb, he⟩ := hq.seq_inv
  rw [hp.lit_inv, he.lit_inv]
  exact ⟨b, by simp⟩

theorem lang_cppnl {x} (h : Lang Terminals._CPP_COMMENT_NL x) : IsCommentNewlines x := by
  obtain ⟨p, q, rfl, hp, hq⟩ := h.seq_inv
  rcases hp.opt_inv with hp | hp
  · obtain ⟨a, b, rfl, ha, hb⟩ := hp.seq_inv
    rw [ha.lit_inv]
    refine .inr ⟨b, q, by simp, ?_, lang_newlines hq⟩
    intro d hd
    simpa using hb.starSet_inv d hd
  · rw [hp]; exact .inl (lang_newlines hq)

theorem lang_deco {x} (h : Lang Terminals.decoratorName x) : IsDecoratorText x := by
  obtain ⟨p, q, rfl, hp, hq⟩ := h.seq_inv
  refine ⟨p, q, rfl, ?_, hq.plusSet_inv⟩
  rcases hp.opt_inv with hp | hp
  · exact .inr hp.lit_inv
  · exact .inl hp

theorem lang_ws {x} (h : Lang Terminals.WS_INLINE x) : Trivia x := by
  obtain ⟨a, b, rfl, ha, hb⟩ := h.plus_inv
  have hone : ∀ a, Lang (.alt (Re.chr '\t') (Re.chr ' ')) a → a = ['\t'] ∨ a = [' '] := by
    intro a ha
    rcases ha.alt_inv with ha | ha
    · exact .inl ha.chr_inv
    · exact .inr ha.chr_inv
  have hb' : ∀ c ∈ b, c = ' ' ∨ c = '\t' := by
    refine Lang.star_ind (P := fun b => ∀ c ∈ b, c = ' ' ∨ c = '\t') (by simp) ?_ hb
    intro x y hx hy c hc
    rcases List.mem_append.mp hc with h | h
    · rcases hone x hx with rfl | rfl <;> simp at h <;> simp [h]
    · exact hy c h
  rcases hone a ha with rfl | rfl
  · exact .ws (by simp) (by simpa using hb')
  · exact .ws (by simp) (by simpa using hb')

theorem lang_sh {x} (h : Lang Terminals.SH_COMMENT x) : Trivia x := by
  obtain ⟨p, q, rfl, hp, hq⟩ := h.seq_inv
  rw [hp.chr_inv]
  refine .sh ?_
  intro d hd
  simpa using hq.starSet_inv d hd

theorem lang_c {x} (h : Lang Terminals.C_COMMENT x) : Trivia x := by
  obtain ⟨p, q, rfl, hp, hq⟩ := h.seq_inv
  obtain ⟨b, e, rfl, hb, he⟩ := hq.seq_inv
  rw [hp.lit_inv, he.lit_inv]
  have := Trivia.c b
  simpa using this

/-- the ids of terminals given by a regular expression -/
def reIds : List Nat := [0, 1, 2, 3, 4, 5, 6, 7, 8, 9, 10, 11, 12, 46]

theorem terminals_length : terminals.length = tEND := rfl

theorem strTerm {t : Nat} (ht : t < tEND) (h : t ∉ reIds) :
    ∃ d s, term? t = some d ∧ d.strVal = some s ∧ d.re = Re.lit s.toList ∧ s.toList ≠ [] := by
  unfold tEND at ht
  interval_cases t <;> first
    | exact absurd (by decide) h
    | (refine ⟨_, _, rfl, rfl, rfl, ?_⟩; decide +kernel)

theorem TokText.str {t : Nat} {x : List Char} {d s} (h : t ∉ reIds) (hd : term? t = some d)
    (hs : d.strVal = some s) (hx : x = s.toList) : TokText t x := by
  unfold TokText
  split <;> first
    | exact absurd (by decide) h
    | exact ⟨d, s, hd, hs, hx⟩

/-- What a terminal matches has the specified form. -/
theorem termRe_sound {t : Nat} {x : List Char} (ht : t < tEND) (h : Lang (termRe t) x) :
    if t ∈ ignoreIds then Trivia x else TokText t x := by
  by_cases hr : t ∈ reIds
  · simp only [reIds, List.mem_cons, List.not_mem_nil, or_false] at hr
    rcases hr with rfl | rfl | rfl | rfl | rfl | rfl | rfl | rfl | rfl | rfl | rfl | rfl | rfl | rfl
    · exact lang_listFunc h
    · exact lang_function h
    · exact lang_qinterp h
    · exact lang_multi h
    · exact lang_string h
    · exact lang_cppnl h
    · exact lang_qstring h
    · exact lang_deco h
    · exact lang_c h
    · exact lang_ws h
    · exact lang_newlines h
    · exact Lang.plusSet_inv h
    · exact lang_sh h
    · exact Lang.chr_inv h
  · obtain ⟨d, s, hd, hs, hre, _⟩ := strTerm ht hr
    rw [termRe, hd] at h
    simp only [hre] at h
    have hi : t ∉ ignoreIds := by
      intro h'
      apply hr
      simp only [ignoreIds, List.mem_cons, List.not_mem_nil, or_false] at h'
      rcases h' with rfl | rfl | rfl <;> decide
    rw [if_neg hi]
    exact .str hr hd hs h.lit_inv

theorem IsNewlines.ne_nil {x} (h : IsNewlines x) : x ≠ [] := by cases h <;> simp

theorem TokText.ne_nil {t x} (ht : t < tEND) (h : TokText t x) : x ≠ [] := by
  by_cases hr : t ∈ reIds
  · simp only [reIds, List.mem_cons, List.not_mem_nil, or_false] at hr
    rcases hr with rfl | rfl | rfl | rfl | rfl | rfl | rfl | rfl | rfl | rfl | rfl | rfl | rfl | rfl
    · exact h.1
    · obtain ⟨p, n, rfl, _⟩ := h; simp
    · obtain ⟨b, rfl⟩ := h; simp
    · obtain ⟨b, rfl⟩ := h; simp
    · obtain ⟨c, cs, rfl, _⟩ := h; simp
    · rcases h with h | ⟨c, n, rfl, _⟩
      · exact h.ne_nil
      · simp
    · obtain ⟨b, rfl, _⟩ := h; simp
    · obtain ⟨p, n, rfl, _, hn, _⟩ := h; simp [hn]
    · obtain ⟨d, s, h1, h2, _⟩ := h; cases h1; cases h2
    · obtain ⟨d, s, h1, h2, _⟩ := h; cases h1; cases h2
    · exact IsNewlines.ne_nil h
    · exact h.1
    · obtain ⟨d, s, h1, h2, _⟩ := h; cases h1; cases h2
    · rw [show x = ['*'] from h]; simp
  · obtain ⟨d, s, hd, hs, _, hne⟩ := strTerm ht hr
    unfold TokText at h
    split at h <;> first
      | exact absurd (by decide) hr
      | (obtain ⟨d', s', hd', hs', rfl⟩ := h
         rw [hd] at hd'; cases hd'; rw [hs] at hs'; cases hs'; exact hne)

theorem Trivia.ne_nil {x} (h : Trivia x) : x ≠ [] := by
  cases h with
  | ws h _ => exact h
  | sh _ => simp
  | c _ => simp

/-- No terminal matches the empty text. -/
theorem termRe_ne_nil {t : Nat} {x : List Char} (ht : t < tEND) (h : Lang (termRe t) x) : x ≠ [] := by
  have := termRe_sound ht h
  split at this
  · exact this.ne_nil
  · exact this.ne_nil ht

theorem scanWith_sound {top : Re} : ∀ {ids : List Nat} {s rest : List Char} {t : Nat},
    scanWith top ids s = some (t, rest) → t ∈ ids ∧ ∃ x, s = x ++ rest ∧ Lang (termRe t) x
  | [], _, _, _, h => by simp [scanWith] at h
  | i :: ids, s, rest, t, h => by
    unfold scanWith at h
    split at h
    · rename_i r hr
      simp only [Option.some.injEq, Prod.mk.injEq] at h
      obtain ⟨rfl, rfl⟩ := h
      exact ⟨by simp, Re.matchIn_sound hr⟩
    · obtain ⟨h1, h2⟩ := scanWith_sound h
      exact ⟨List.mem_cons_of_mem _ h1, h2⟩

theorem unlessIds_str {t k : Nat} (h : k ∈ unlessIds t) : k < tEND ∧ k ∉ reIds := by
  unfold unlessIds at h
  split at h
  · revert k; decide
  · split at h
    · revert k; decide
    · split at h
      · revert k; decide
      · simp at h

theorem retype_sound {acc t x} (ht : t < tEND) (h : TokText t x) :
    TokText (retype acc t x) x ∧ retype acc t x < tEND := by
  unfold retype
  split
  · rename_i k hk
    have hmem := List.mem_of_find?_eq_some hk
    have hp := List.find?_some hk
    simp only [List.mem_filter, List.contains_iff_mem] at hmem
    obtain ⟨hlt, hnr⟩ := unlessIds_str hmem.2
    obtain ⟨d, s, hd, hs, _⟩ := strTerm hlt hnr
    simp only [hd, hs, beq_iff_eq, Option.some.injEq] at hp
    refine ⟨.str hnr hd hs ?_, hlt⟩
    rw [hp]; simp
  · exact ⟨h, ht⟩

/-- Sequences of trivia. -/
inductive Trivias : List Char → Prop where
  | nil : Trivias []
  | cons {x y} : Trivia x → Trivias y → Trivias (x ++ y)

theorem Tiling.skips {x} (h : Trivias x) : ∀ {l s w}, Tiling (l + countNL x) s w → Tiling l (x ++ s) w := by
  induction h with
  | nil => intro l s w h; simpa [countNL] using h
  | @cons x y hx _ ih =>
    intro l s w h
    rw [List.append_assoc]
    refine .skip hx (ih ?_)
    simpa [countNL, Nat.add_assoc] using h

theorem nextTok_sound {acc : List Nat} (hacc : ∀ t ∈ acc, t < tEND) : ∀ (n : Nat) (s : List Char) (l : Nat),
    (nextTok acc n s l = .eof → Trivias s) ∧
    (∀ tk rest, nextTok acc n s l = .tok tk rest → ∃ p x, s = p ++ x ++ rest ∧ Trivias p ∧
      TokText tk.type x ∧ tk.type < tEND ∧
      tk = ⟨tk.type, x, l + countNL p, l + countNL p + countNL x⟩) := by
  intro n
  induction n with
  | zero =>
    intro s l
    cases s with
    | nil => exact ⟨fun _ => .nil, by intro tk rest h; simp [nextTok] at h⟩
    | cons c s => exact ⟨by simp [nextTok], by intro tk rest h; simp [nextTok] at h⟩
  | succ n ih =>
    intro s l
    cases s with
    | nil => exact ⟨fun _ => .nil, by intro tk rest h; simp [nextTok] at h⟩
    | cons c s =>
      unfold nextTok
      simp only
      cases hs : scanWith (scanRe (scanIds acc)) (scanIds acc) (c :: s) with
      | none => exact ⟨by simp, by simp⟩
      | some p =>
        obtain ⟨t, rest⟩ := p
        simp only
        obtain ⟨hmem, x, hx, hlang⟩ := scanWith_sound hs
        have ht : t < tEND := hacc t (List.mem_filter.mp hmem).1
        have hxt : (c :: s).take ((c :: s).length - rest.length) = x := by
          rw [hx]; simp
        have hsound := termRe_sound ht hlang
        split
        · rw [hxt]
          cases hi : ignoreIds.contains t with
          | true =>
            rw [if_pos (by simpa using hi)] at hsound
            simp only [if_true]
            obtain ⟨ih1, ih2⟩ := ih rest (l + countNL x)
            refine ⟨fun h => ?_, fun tk r h => ?_⟩
            · rw [hx]; exact .cons hsound (ih1 h)
            · obtain ⟨p, y, e, hp, h1, h2, h3⟩ := ih2 tk r h
              refine ⟨x ++ p, y, by rw [hx, e]; simp, .cons hsound hp, h1, h2, ?_⟩
              rw [h3]; simp [countNL, Nat.add_assoc]
          | false =>
            rw [if_neg (by simpa using hi)] at hsound
            refine ⟨by simp, fun tk r h => ?_⟩
            simp only [Bool.false_eq_true, if_false, LexRes.tok.injEq] at h
            obtain ⟨rfl, rfl⟩ := h
            obtain ⟨h1, h2⟩ := retype_sound (acc := acc) ht hsound
            exact ⟨[], x, by simpa using hx, .nil, h1, h2, by simp [countNL]⟩
        · exact ⟨by simp, by simp⟩

theorem accepts_lt {s t : Nat} (h : t ∈ accepts s) : t < tEND := by
  simp only [accepts, List.mem_filter, List.mem_range] at h
  exact h.1

/-- The fuel of `nextTok` does not matter: the length of the text is enough. -/
theorem nextTok_fuel {acc : List Nat} :
    ∀ (n m : Nat) (s : List Char) (l : Nat), s.length ≤ n → s.length ≤ m →
      nextTok acc n s l = nextTok acc m s l := by
  intro n
  induction n with
  | zero =>
    intro m s l hn hm
    cases s with
    | nil => simp [nextTok]
    | cons c s => simp at hn
  | succ n ih =>
    intro m s l hn hm
    cases s with
    | nil => simp [nextTok]
    | cons c s =>
      cases m with
      | zero => simp at hm
      | succ m =>
        unfold nextTok
        simp only
        cases hs : scanWith (scanRe (scanIds acc)) (scanIds acc) (c :: s) with
        | none => rfl
        | some p =>
          obtain ⟨t, rest⟩ := p
          simp only
          split
          · rename_i hlt
            split
            · simp only [List.length_cons] at hlt hn hm
              exact ih _ _ _ (by omega) (by omega)
            · rfl
          · rfl

/-- The scanner always makes progress, so the last branch of `nextTok` is never taken. -/
theorem scan_progress {acc : List Nat} (hacc : ∀ t ∈ acc, t < tEND) {s rest t}
    (h : scanWith (scanRe (scanIds acc)) (scanIds acc) s = some (t, rest)) : rest.length < s.length := by
  obtain ⟨hmem, x, rfl, hlang⟩ := scanWith_sound h
  have := termRe_ne_nil (hacc t (List.mem_filter.mp hmem).1) hlang
  have := List.length_pos_iff.mpr this
  simp; omega

/-! ### The whole parser -/

theorem symRank_bound {y : Nat} (h : 128 ≤ y) (h' : y < 128 + numNts) : symRank y ≤ 40 := by
  have : ∀ i < numNts, symRank (i + 128) ≤ 40 := by decide +kernel
  have := this (y - 128) (by omega)
  rwa [show y - 128 + 128 = y by omega] at this

theorem Lk.mu_le {ys ss} (h : Lk ys ss) : mu ys ≤ 100 * ys.length + 40 := by
  cases h with
  | nil => simp [mu]
  | @cons ys ss y s hl hs =>
    simp only [mu]
    have : symRank y ≤ 40 := by
      rcases hs with ⟨h', _⟩ | ⟨h1, h2, _⟩
      · exact symRank_le (by simp [tEND] at h'; omega)
      · exact symRank_bound h1 h2
    omega

theorem Inv.feedFuel_ok {stk w} (tk : Tok) (h : Inv stk w tk.type) : feed (feedFuel stk) stk tk ≠ .fuel := by
  obtain ⟨ys, hl, hne, hd⟩ := h
  refine feed_fuel _ stk tk ys hl ⟨w, ys, hl, hne, hd⟩ ?_
  have hlen := hl.length
  rw [List.length_map] at hlen
  have := hl.mu_le
  unfold feedFuel
  omega

theorem parseLoop_sound (n : Nat) : ∀ (stk : Stack) (w : List Tok) (s : List Char) (l : Nat),
    (∀ m, Inv stk w m) → s.length < n →
    parseLoop n stk s l ≠ .stuck ∧ parseLoop n stk s l ≠ .fuel ∧
    ∀ t, parseLoop n stk s l = .ok t → ∃ w', Tiling l s w' ∧ DerL [N.start] [t] (w ++ w') tEND := by
  induction n with
  | zero => intro stk w s l _ h; omega
  | succ n ih =>
    intro stk w s l hinv hlen
    unfold parseLoop
    have hns := nextTok_sound (acc := accepts (topState stk)) (fun t => accepts_lt) s.length s l
    cases hn : nextTok (accepts (topState stk)) s.length s l with
    | fail => simp
    | eof =>
      simp only
      obtain ⟨f1, f2, f3⟩ := feed_spec (feedFuel stk) stk w ⟨tEND, [], l, l⟩ (hinv _)
      have f4 := Inv.feedFuel_ok ⟨tEND, [], l, l⟩ (hinv _)
      cases hf : feed (feedFuel stk) stk ⟨tEND, [], l, l⟩ with
      | shifted stk' => have := (f1 stk' hf).2; simp at this
      | accept t =>
        refine ⟨by simp, by simp, ?_⟩
        intro t' ht
        simp only [ParseRes.ok.injEq] at ht
        subst ht
        refine ⟨[], ?_, by simpa using (f2 t hf).1⟩
        have := Tiling.skips (hns.1 hn) (l := l) (.nil)
        simpa using this
      | unexpected => simp
      | stuck => exact absurd hf f3
      | fuel => exact absurd hf f4
    | tok tk rest =>
      simp only
      obtain ⟨p, x, hs, hp, htext, hlt, htk⟩ := hns.2 tk rest hn
      obtain ⟨f1, f2, f3⟩ := feed_spec (feedFuel stk) stk w tk (hinv _)
      have f4 := Inv.feedFuel_ok tk (hinv _)
      cases hf : feed (feedFuel stk) stk tk with
      | shifted stk' =>
        simp only
        have hx := htext.ne_nil hlt
        have hl : rest.length < n := by
          rw [hs] at hlen
          have := List.length_pos_iff.mpr hx
          simp at hlen; omega
        obtain ⟨g1, g2, g3⟩ := ih stk' (w ++ [tk]) rest tk.endLine (f1 stk' hf).1 hl
        refine ⟨g1, g2, fun t ht => ?_⟩
        obtain ⟨w', hw, hd⟩ := g3 t ht
        refine ⟨tk :: w', ?_, by simpa using hd⟩
        rw [hs, List.append_assoc]
        refine Tiling.skips hp ?_
        rw [htk] at hw ⊢
        exact .tok htext hlt hw
      | accept t => have := (f2 t hf).2; simp [this] at hlt
      | unexpected => simp
      | stuck => exact absurd hf f3
      | fuel => exact absurd hf f4

/-- Parsing terminates without internal error; an accepted text is cut into tokens as specified and
the tree is a derivation of `start` with these tokens as leaves. -/
theorem larkParse_sound (text : String) :
    larkParse text ≠ .stuck ∧ larkParse text ≠ .fuel ∧
    ∀ t, larkParse text = .ok t → ∃ w, Tiling 1 text.toList w ∧ DerL [N.start] [t] w tEND := by
  have := parseLoop_sound (text.toList.length + 1) [] [] text.toList 1 Inv.init (by omega)
  simpa [larkParse] using this

end Pycep
