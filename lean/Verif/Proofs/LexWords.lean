import Verif.Proofs.Scan
/-
The lexer finds identifiers, keywords, function names, numbers, decorators and punctuation.
-/
namespace Pycep

/-! ### What a state accepts -/

theorem StateOK.anon2 {p st t : Nat} (ok : stateOK p st = true) (h : acts st T.__ANON_2 = true)
    (ht : t < tEND) (hne : t ≠ T.__ANON_2) : acts st t = false := by
  simp only [stateOK, Bool.and_eq_true] at ok
  have := ok.1.1.1.1.1.1
  rw [h] at this
  simp only [Bool.not_true, Bool.false_or, List.all_eq_true, List.mem_range, Bool.or_eq_true,
    beq_iff_eq, Bool.not_eq_true'] at this
  exact (this t ht).resolve_left hne

theorem StateOK.star {p st : Nat} (ok : stateOK p st = true) :
    acts st T.__ANON_1 = false ∨ acts st T.STAR = false := by
  simp only [stateOK, Bool.and_eq_true] at ok
  simpa using ok.1.1.1.1.1.2

theorem StateOK.list {p st : Nat} (ok : stateOK p st = true) :
    p = T.DOT ∨ acts st T.LIST_FUNC_NAME = false := by
  simp only [stateOK, Bool.and_eq_true] at ok
  simpa using ok.1.1.1.1.2

theorem StateOK.nest {p st : Nat} (ok : stateOK p st = true) (hp : p ∈ nestAfter)
    (h : acts st T.QUOTED_INTERPOLATION = true) : acts st T.RBRACE = false := by
  simp only [stateOK, Bool.and_eq_true] at ok
  have := ok.1.1.1.2
  simpa [hp, h] using this

theorem StateOK.breaks {p st : Nat} (ok : stateOK p st = true) (hp : p ∈ openEnds)
    (h : acts st T._NEWLINE = true) : acts st T._CPP_COMMENT_NL = false := by
  simp only [stateOK, Bool.and_eq_true] at ok
  have := ok.1.1.2
  simpa [hp, h] using this

theorem StateOK.word {p st k : Nat} (ok : stateOK p st = true) (h : acts st T.STRING = true)
    (hk : k ∈ keywordIds) (hr : reserved p k = false) : acts st k = false := by
  simp only [stateOK, Bool.and_eq_true] at ok
  have := ok.1.2
  rw [h] at this
  simp only [Bool.not_true, Bool.false_or, List.all_eq_true, Bool.or_eq_true, Bool.not_eq_true'] at this
  have := this k hk
  simpa [hr] using this

theorem StateOK.paren {p st k : Nat} (ok : stateOK p st = true) (h : acts st T.FUNCTION = true)
    (hk : k ∈ parenWords) : acts st k = false := by
  simp only [stateOK, Bool.and_eq_true] at ok
  have := ok.2
  rw [h] at this
  simp only [Bool.not_true, Bool.false_or, List.all_eq_true, Bool.not_eq_true'] at this
  exact this k hk

theorem acts_of_scan {st k : Nat} (h : k ∈ scanIds (accepts st)) :
    k < tEND ∧ (acts st k = true ∨ k ∈ ignoreIds) := mem_accepts.mp (mem_scanIds.mp h).1

theorem unless_string : unlessIds T.STRING = keywordIds := by decide +kernel
theorem unless_anon2 : unlessIds T.__ANON_2 = keywordIds := by decide +kernel

/-- only keywords and the star are taken over by a more general terminal -/
theorem unless_inv {r k : Nat} (h : k ∈ unlessIds r) :
    ((r = T.STRING ∨ r = T.__ANON_2) ∧ k ∈ keywordIds) ∨ (r = T.__ANON_1 ∧ k = T.STAR) := by
  unfold unlessIds at h
  split at h
  · exact .inl ⟨.inl ‹_›, h⟩
  · split at h
    · exact .inl ⟨.inr ‹_›, h⟩
    · split at h
      · exact .inr ⟨‹_›, by simpa using h⟩
      · simp at h

theorem scan_mem {st t : Nat} (ht : t < tEND) (h : acts st t = true ∨ t ∈ ignoreIds)
    (hk : t ∉ keywordIds) (hs : t ≠ T.STAR) : t ∈ scanIds (accepts st) := by
  refine mem_scanIds.mpr ⟨mem_accepts.mpr ⟨ht, h⟩, fun r _ hr => ?_⟩
  rcases unless_inv hr with h | h
  · exact hk h.2
  · exact hs h.2

/-- nothing is retyped that is neither a word nor a star -/
theorem retype_other {acc : List Nat} {t : Nat} {x : List Char} (h1 : t ≠ T.STRING)
    (h2 : t ≠ T.__ANON_2) (h3 : t ≠ T.__ANON_1) : retype acc t x = t := by
  have : unlessIds t = [] := by unfold unlessIds; rw [if_neg h1, if_neg h2, if_neg h3]
  unfold retype
  rw [this]
  simp

/-! ### Words -/

/-- terminals that may start with a letter or underscore -/
def wordLike (k : Nat) : Bool :=
  [T.LIST_FUNC_NAME, T.FUNCTION, T.STRING, T.__ANON_2].contains k || keywordIds.contains k

theorem check_wordStart : (List.range 128).all (fun n => !isStart (Char.ofNat n) ||
    (List.range tEND).all (fun k => wordLike k || (termRe k).refuses (some (Char.ofNat n)))) = true := by
  decide +kernel

theorem start_refuse {top : Re} {c : Char} {k : Nat} {s : List Char} (hc : isStart c = true)
    (hk : k < tEND) (hw : wordLike k = false) : Re.matchIn top (termRe k) (c :: s) = .none := by
  have := ascii_all (Q := fun c => (List.range tEND).all (fun k => wordLike k ||
    (termRe k).refuses (some c))) (fun c => start_lt (c := c)) check_wordStart hc
  rw [List.all_eq_true] at this
  have := this k (List.mem_range.mpr hk)
  rw [hw, Bool.false_or] at this
  exact refuse this

theorem lang_listCall {top : Re} {s : List Char} (h : ¬ ListCall s) :
    Re.matchIn top (termRe T.LIST_FUNC_NAME) s = .none := by
  show Terminals.LIST_FUNC_NAME.run _ s some = .none
  unfold Terminals.LIST_FUNC_NAME
  have key : ∀ n k, (Re.seq (.alt (.seq (.set (fun c => c == 'L' || c == 'l'))
      (.seq (Re.lit ['i', 's', 't']) (.star (.set (fun c => inRange 'A' 'z' c || inRange 'a' 'z' c)))))
      (Re.lit ['g', 'e', 't', 'S', 'e', 'c', 'r', 'e', 't'])) (Re.chr '(')).run (recMatcher top n) s k
      = .none := by
    intro n k
    refine run_none fun x y e hl => h ?_
    obtain ⟨a, b, rfl, ha, hb⟩ := hl.seq_inv
    rw [hb.chr_inv] at e
    rcases ha.alt_inv with ha | ha
    · obtain ⟨a1, b1, rfl, ha1, hb1⟩ := ha.seq_inv
      obtain ⟨b2, d, rfl, hb2, hd⟩ := hb1.seq_inv
      obtain ⟨c, rfl, hc⟩ := ha1.set_inv
      rw [hb2.lit_inv] at e
      refine .inr ⟨c, d, y, by rw [e]; simp, ?_, ?_⟩
      · simp at hc; exact hc.symm
      · intro f hf
        have := hd.starSet_inv f hf
        simp only [Bool.or_eq_true] at this
        rcases this with h | h
        · exact h
        · simp only [inRange, Bool.and_eq_true, decide_eq_true_eq] at h ⊢
          have h1 : 'a'.toNat = 97 := by decide
          have h2 : 'A'.toNat = 65 := by decide
          omega
    · rw [ha.lit_inv] at e
      refine .inl ⟨y, ?_⟩
      rw [e]; simp
  rw [Re.run, Re.run, key]
  simp

theorem ident_function_none {top : Re} {x s : List Char} (hx : ∀ c ∈ x, isWord c = true)
    (hs : Stops isWord s) (h1 : s.head? ≠ some '(')
    (h2 : x = "sys".toList ∨ x = "az".toList → s.head? ≠ some '.') :
    Re.matchIn top (termRe T.FUNCTION) (x ++ s) = .none := by
  refine matchIn_none fun y r e hl => ?_
  rcases function_prefix (lang_function hl) e hx hs (fun c => alnum_word) (by decide) (by decide)
    with h | ⟨h, h'⟩
  · exact h1 h
  · exact h2 h' h

theorem string_match {top : Re} {x s : List Char} (hx : IsIdentText x)
    (hs : Stops isWord s) (h2 : x = "sys".toList ∨ x = "az".toList → s.head? ≠ some '.') :
    Re.matchIn top (termRe T.STRING) (x ++ s) = some s := by
  have hw := hx.word
  show Terminals.STRING.run _ (x ++ s) some = some s
  unfold Terminals.STRING
  have hnl : (Re.seq (.alt (Re.lit ['s', 'y', 's']) (Re.lit ['a', 'z'])) (Re.chr '.')).run
      (recMatcher top (x ++ s).length) (x ++ s) some = .none := by
    refine run_none fun y r e hl => ?_
    rcases lang_sysaz hl with rfl | rfl
    · obtain ⟨rfl, rfl⟩ := run_unique (n := "sys".toList) (r := r) (c := '.')
        (by rw [e]; simp) hw hs (fun d hd => alnum_word (sys_word d hd)) (by decide)
      exact h2 (.inl rfl) rfl
    · obtain ⟨rfl, rfl⟩ := run_unique (n := "az".toList) (r := r) (c := '.')
        (by rw [e]; simp) hw hs (fun d hd => alnum_word (az_word d hd)) (by decide)
      exact h2 (.inr rfl) rfl
  rw [Re.run, Re.run, hnl]
  simp only [Option.isSome_none, Bool.false_eq_true, if_false]
  obtain ⟨c, cs, rfl, hc, hcs⟩ := hx
  have hc' : (isAsciiAlpha c || c == '_') = true := by simpa using hc
  rw [Re.run]
  show (if (isAsciiAlpha c || c == '_') = true then
    (Re.star (.set isWord)).run _ (cs ++ s) some else .none) = some s
  rw [if_pos hc']
  exact star_set hs hcs rfl

/-- the terminals tried before STRING fail in front of a word -/
theorem word_low {p st : Nat} (ok : stateOK p st = true) {top : Re} {x s : List Char}
    (hx : IsIdentText x) (hs : Stops isWord s)
    (h1 : s.head? = some '(' → acts st T.FUNCTION = false)
    (h2 : x = "sys".toList ∨ x = "az".toList → s.head? ≠ some '.')
    (h3 : p = T.DOT → ¬ ListCall (x ++ s)) :
    ∀ k ∈ scanIds (accepts st), k < T.STRING → Re.matchIn top (termRe k) (x ++ s) = .none := by
  intro k hk hlt
  obtain ⟨hk1, hk2⟩ := acts_of_scan hk
  have hk2 : acts st k = true := by
    rcases hk2 with h | h
    · exact h
    · simp only [ignoreIds, List.mem_cons, List.not_mem_nil, or_false] at h
      simp only [T.STRING] at hlt
      omega
  have hcase : k = T.LIST_FUNC_NAME ∨ k = T.FUNCTION ∨ wordLike k = false := by
    have : ∀ k < T.STRING, k = T.LIST_FUNC_NAME ∨ k = T.FUNCTION ∨ wordLike k = false := by decide
    exact this k hlt
  rcases hcase with rfl | rfl | hw
  · rcases StateOK.list ok with h | h
    · exact lang_listCall (h3 h)
    · rw [hk2] at h; simp at h
  · by_cases h : s.head? = some '('
    · rw [hk2] at h1; simp at h1; exact absurd h h1
    · exact ident_function_none hx.word hs h h2
  · obtain ⟨c, cs, rfl, hc, hcs⟩ := hx
    exact start_refuse (by simpa [isStart] using hc) hk1 hw

theorem keyword_facts : ∀ k ∈ keywordIds, k < tEND ∧ k ∉ reIds ∧ k ∉ ignoreIds ∧ T.__ANON_2 < k ∧
    (match fixedChars k with | [] => false | c :: cs => isStart c && cs.all isWord) = true ∧
    fixedChars k ≠ "sys".toList ∧ fixedChars k ≠ "az".toList ∧
    (fixedChars k).head?.any (fun c => c == 'l' || c == 'L' || c == 'g') = false := by
  decide +kernel

theorem keyword_inj : ∀ k ∈ keywordIds, ∀ k' ∈ keywordIds, fixedChars k = fixedChars k' → k = k' := by
  decide +kernel

theorem keyword_order : ∀ k ∈ keywordIds, ∀ k' ∈ keywordIds, k' < k →
    (fixedChars k).length ≤ (fixedChars k').length := by decide +kernel

theorem keyword_term {k : Nat} (hk : k ∈ keywordIds) :
    ∃ d, term? k = some d ∧ d.strVal = some (String.ofList (fixedChars k)) ∧
      termRe k = Re.lit (fixedChars k) := by
  obtain ⟨h1, h2, _⟩ := keyword_facts k hk
  obtain ⟨d, s, hd, hs, hre, _⟩ := strTerm h1 h2
  refine ⟨d, hd, ?_, ?_⟩
  · simp [fixedChars, hd, hs]
  · simp [fixedChars, termRe, hd, hs, hre]

theorem keyword_ident {k : Nat} (hk : k ∈ keywordIds) : IsIdentText (fixedChars k) := by
  obtain ⟨_, _, _, _, h, _⟩ := keyword_facts k hk
  cases hx : fixedChars k with
  | nil => rw [hx] at h; simp at h
  | cons c cs =>
    rw [hx] at h
    simp only [Bool.and_eq_true, List.all_eq_true] at h
    exact ⟨c, cs, rfl, by simpa [isStart] using h.1, h.2⟩

/-- what `UnlessCallback` does with a word -/
theorem retype_word {acc : List Nat} {x : List Char} {t : Nat} (ht : unlessIds t = keywordIds) :
    (∀ k ∈ keywordIds, k ∈ acc → x = fixedChars k → retype acc t x = k) ∧
    ((∀ k ∈ keywordIds, k ∈ acc → x ≠ fixedChars k) → retype acc t x = t) := by
  have hpred : ∀ k ∈ keywordIds, (match term? k with
      | some d => d.strVal == some (String.ofList x)
      | .none => false) = true ↔ x = fixedChars k := by
    intro k hk
    obtain ⟨d, hd, hs, _⟩ := keyword_term hk
    rw [hd]
    simp only [hs, beq_iff_eq, Option.some.injEq]
    constructor
    · intro h
      have := congrArg String.toList h
      simpa using this.symm
    · rintro rfl; rfl
  unfold retype
  rw [ht]
  refine ⟨fun k hk hacc hx => ?_, fun h => ?_⟩
  · split
    · rename_i k' hk'
      have hmem := List.mem_of_find?_eq_some hk'
      have hp := List.find?_some hk'
      simp only [List.mem_filter, List.contains_iff_mem] at hmem
      have := (hpred k' hmem.2).mp hp
      exact keyword_inj k' hmem.2 k hk (by rw [← this, hx])
    · rename_i hn
      rw [List.find?_eq_none] at hn
      exact absurd ((hpred k hk).mpr hx) (hn k (by simp [hacc, hk]))
  · split
    · rename_i k' hk'
      have hmem := List.mem_of_find?_eq_some hk'
      have hp := List.find?_some hk'
      simp only [List.mem_filter, List.contains_iff_mem] at hmem
      exact absurd ((hpred k' hmem.2).mp hp) (h k' hmem.2 hmem.1)
    · rfl

/-- the statement of the lexing lemmas -/
def Finds (st t : Nat) (x s : List Char) : Prop :=
  ∀ l, nextTok (accepts st) (x ++ s).length (x ++ s) l = .tok ⟨t, x, l, l + countNL x⟩ s

theorem IsIdentText.ne_nil {x} (h : IsIdentText x) : x ≠ [] := by
  obtain ⟨c, cs, rfl, _⟩ := h; simp

theorem finds_ident {p st : Nat} (ok : stateOK p st = true) {x s : List Char}
    (ha : acts st T.STRING = true) (hx : IsIdentText x) (hs : Stops isWord s)
    (h1 : s.head? ≠ some '(') (h2 : x = "sys".toList ∨ x = "az".toList → s.head? ≠ some '.')
    (hr : ∀ k ∈ keywordIds, x = fixedChars k → reserved p k = false)
    (h3 : p = T.DOT → ¬ ListCall (x ++ s)) : Finds st T.STRING x s := by
  intro l
  rw [nextTok_first (t := T.STRING) hx.ne_nil
    (scan_mem (by decide) (.inl ha) (by decide) (by decide))
    (word_low ok hx hs (fun h => absurd h h1) h2 h3) (string_match hx hs h2)]
  rw [not_ignored (by decide), if_neg (by simp)]
  rw [(retype_word unless_string).2]
  intro k hk hacc hxk
  have hf := StateOK.word ok ha hk (hr k hk hxk)
  rcases (mem_accepts.mp hacc).2 with h | h
  · rw [hf] at h; simp at h
  · exact (keyword_facts k hk).2.2.1 h

/-- a word in front of something that is not part of a word: other keywords do not match -/
theorem keyword_none {top : Re} {k k' : Nat} {s : List Char} (hk : k ∈ keywordIds)
    (hk' : k' ∈ keywordIds) (hlt : k' < k) (hs : Stops isWord s) :
    Re.matchIn top (termRe k') (fixedChars k ++ s) = .none := by
  obtain ⟨_, _, _, hre⟩ := keyword_term hk'
  rw [hre]
  refine lit_run_none _ ?_
  rintro ⟨r, hr⟩
  have hlen := keyword_order k hk k' hk' hlt
  have hpre : fixedChars k <+: fixedChars k' :=
    List.prefix_of_prefix_length_le ⟨s, rfl⟩ ⟨r, hr⟩ hlen
  obtain ⟨z, hz⟩ := hpre
  cases z with
  | nil =>
    have := keyword_inj k hk k' hk' (by simpa using hz)
    omega
  | cons c z =>
    rw [← hz, List.append_assoc] at hr
    have := List.append_cancel_left hr
    have hc := hs c (z ++ r) (by simpa using this.symm)
    rw [(keyword_ident hk').word c (by rw [← hz]; simp)] at hc
    simp at hc

theorem keyword_listCall {k : Nat} (hk : k ∈ keywordIds) (s : List Char) :
    ¬ ListCall (fixedChars k ++ s) := by
  obtain ⟨_, _, _, _, _, _, _, h⟩ := keyword_facts k hk
  have hne := (keyword_ident hk).ne_nil
  generalize fixedChars k = x at *
  cases x with
  | nil => simp at hne
  | cons c cs =>
    simp at h
    rintro (h' | ⟨d, n, r, h', h1, _⟩)
    · have : "getSecret(".toList = 'g' :: "etSecret(".toList := by decide
      rw [this, List.cons_append, List.cons_prefix_cons] at h'
      exact h.2 h'.1.symm
    · simp only [List.cons_append, List.cons.injEq] at h'
      rcases h1 with rfl | rfl
      · exact h.1.1 h'.1
      · exact h.1.2 h'.1

theorem finds_keyword {p st k : Nat} (ok : stateOK p st = true) {s : List Char}
    (ha : acts st k = true) (hk : k ∈ keywordIds) (hs : Stops isWord s)
    (h1 : s.head? = some '(' → k ∈ parenWords) : Finds st k (fixedChars k) s := by
  intro l
  have hid := keyword_ident hk
  obtain ⟨hlt, hnr, hni, hgt, _, hsys, haz, _⟩ := keyword_facts k hk
  have hlow := word_low (top := scanRe (scanIds (accepts st))) ok hid hs (fun h => by
      cases hf : acts st T.FUNCTION with
      | false => rfl
      | true =>
        have := StateOK.paren ok hf (h1 h)
        rw [ha] at this; simp at this)
    (fun h => h.elim (absurd · hsys) (absurd · haz)) (fun _ => keyword_listCall hk s)
  cases hst : acts st T.STRING with
  | true =>
    rw [nextTok_first (t := T.STRING) hid.ne_nil
      (scan_mem (by decide) (.inl hst) (by decide) (by decide)) hlow
      (string_match hid hs (fun h => h.elim (absurd · hsys) (absurd · haz)))]
    rw [not_ignored (by decide), if_neg (by simp)]
    rw [(retype_word unless_string).1 k hk (mem_accepts.mpr ⟨hlt, .inl ha⟩) rfl]
  | false =>
    have hanon : acts st T.__ANON_2 = false := by
      cases h : acts st T.__ANON_2 with
      | false => rfl
      | true =>
        have := StateOK.anon2 ok h hlt (by omega)
        rw [ha] at this; simp at this
    have hmem : k ∈ scanIds (accepts st) := by
      refine mem_scanIds.mpr ⟨mem_accepts.mpr ⟨hlt, .inl ha⟩, fun r hr hu => ?_⟩
      have hr := (mem_accepts.mp hr).2
      rcases unless_inv hu with ⟨rfl | rfl, _⟩ | ⟨_, h⟩
      · rw [hst] at hr; revert hr; decide
      · rw [hanon] at hr; revert hr; decide
      · rw [h] at hk; revert hk; decide
    obtain ⟨_, _, _, hre⟩ := keyword_term hk
    rw [nextTok_first (t := k) hid.ne_nil hmem ?_ (by rw [hre]; exact lit_run _)]
    · rw [not_ignored hni, if_neg (by simp), retype_other]
      · rintro rfl; revert hk; decide
      · rintro rfl; revert hk; decide
      · rintro rfl; revert hk; decide
    · intro k' hk' hlt'
      obtain ⟨hk1, hk2⟩ := acts_of_scan hk'
      by_cases h4 : k' < T.STRING
      · exact hlow k' hk' h4
      · by_cases hkw : k' ∈ keywordIds
        · exact keyword_none hk hkw hlt' hs
        · have hw : wordLike k' = false := by
            unfold wordLike
            simp only [Bool.or_eq_false_iff]
            refine ⟨?_, by simpa using hkw⟩
            cases hc : [T.LIST_FUNC_NAME, T.FUNCTION, T.STRING, T.__ANON_2].contains k' with
            | false => rfl
            | true =>
              simp only [List.contains_iff_mem, List.mem_cons, List.not_mem_nil, or_false] at hc
              rcases hc with rfl | rfl | rfl | rfl
              · exact absurd (by decide) h4
              · exact absurd (by decide) h4
              · rw [hst] at hk2; revert hk2; decide
              · rw [hanon] at hk2; revert hk2; decide
          obtain ⟨c, cs, hx, hc, hcs⟩ := hid
          rw [hx]
          exact start_refuse (by simpa [isStart] using hc) hk1 hw

end Pycep
