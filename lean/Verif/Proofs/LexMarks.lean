import Verif.Proofs.LexWords
/-
The lexer finds punctuation, function names, numbers and decorators.
-/
namespace Pycep

theorem no_act {st k : Nat} (h : k ∈ scanIds (accepts st)) (h1 : acts st k = false)
    (h2 : k ∉ ignoreIds) : False := by
  rcases (acts_of_scan h).2 with h | h
  · rw [h1] at h; simp at h
  · exact h2 h

/-! ### Punctuation -/

theorem op_facts : ∀ t ∈ opIds1 ++ opIds2, t < tEND ∧ t ∉ reIds ∧ t ∉ ignoreIds ∧ t ∉ keywordIds ∧
    (fixedChars t).length = (if t ∈ opIds1 then 1 else 2) := by
  decide +kernel

theorem fixed_re {t : Nat} (ht : t < tEND) (h : t ∉ reIds) : termRe t = Re.lit (fixedChars t) ∧
    fixedChars t ≠ [] := by
  obtain ⟨d, s, hd, hs, hre, hne⟩ := strTerm ht h
  constructor
  · simp [fixedChars, termRe, hd, hs, hre]
  · simpa [fixedChars, hd, hs] using hne

/-- terminals tried before a punctuation mark of one character refuse it, up to exceptions -/
theorem check_op1 : ∀ t ∈ opIds1, ∀ k < t, (termRe k).refuses (fixedChars t).head? = true ∨
    (k ∉ reIds ∧ fixedChars k ∈ pairs) ∨ k = T.C_COMMENT ∨ k = T._CPP_COMMENT_NL ∨
    (k = T.__ANON_1 ∧ t = T.STAR) := by decide +kernel

theorem check_op2 : ∀ t ∈ opIds2, ∀ k < t, (termRe k).refuses (fixedChars t).head? = true ∨
    (k ∈ opIds2 ∧ fixedChars k ≠ fixedChars t) := by decide +kernel

theorem check_op1_slash : ∀ t ∈ opIds1, fixedChars t ≠ ['\n'] ∧ fixedChars t ≠ ['\r'] := by
  decide +kernel

theorem head_append {x s : List Char} (h : x ≠ []) : (x ++ s).head? = x.head? := by
  cases x with
  | nil => simp at h
  | cons c x => rfl

theorem comment_none {top : Re} {s : List Char} (h : ¬ ['/', '*'] <+: s) :
    Re.matchIn top (termRe T.C_COMMENT) s = .none := by
  refine matchIn_none fun x y e hl => h ?_
  have hl : Lang Terminals.C_COMMENT x := hl
  obtain ⟨p, q, rfl, hp, hq⟩ := hl.seq_inv
  rw [hp.lit_inv] at e
  exact ⟨q ++ y, by rw [e]; simp⟩

theorem cppnl_none {top : Re} {s : List Char} (h : ¬ ['/', '/'] <+: s) (h1 : s.head? ≠ some '\n')
    (h2 : s.head? ≠ some '\r') : Re.matchIn top (termRe T._CPP_COMMENT_NL) s = .none := by
  refine matchIn_none fun x y e hl => ?_
  rcases lang_cppnl hl with hl | ⟨c, n, rfl, _⟩
  · cases hl <;> simp [e] at h1 h2
  · exact h ⟨c ++ n ++ y, by rw [e]; simp⟩

theorem finds_op1 {p st t : Nat} (ok : stateOK p st = true) {s : List Char}
    (ha : acts st t = true) (ht : t ∈ opIds1) (hs : ∀ y ∈ pairs, ¬ y <+: fixedChars t ++ s) :
    Finds st t (fixedChars t) s := by
  intro l
  obtain ⟨hlt, hnr, hni, hnk, hlen⟩ := op_facts t (List.mem_append_left _ ht)
  rw [if_pos ht] at hlen
  obtain ⟨hre, hne⟩ := fixed_re hlt hnr
  have hstar : t = T.STAR → acts st T.__ANON_1 = false := by
    rintro rfl
    rcases StateOK.star ok with h | h
    · exact h
    · rw [ha] at h; simp at h
  have hmem : t ∈ scanIds (accepts st) := by
    refine mem_scanIds.mpr ⟨mem_accepts.mpr ⟨hlt, .inl ha⟩, fun r hr hu => ?_⟩
    have hr := (mem_accepts.mp hr).2
    rcases unless_inv hu with ⟨_, h⟩ | ⟨rfl, h⟩
    · exact hnk h
    · rw [hstar h] at hr; revert hr; decide
  rw [nextTok_first (t := t) hne hmem ?_ (by rw [hre]; exact lit_run _)]
  · rw [not_ignored hni, if_neg (by simp), retype_other]
    · rintro rfl; exact hnr (by decide)
    · rintro rfl; exact hnr (by decide)
    · rintro rfl; exact hnr (by decide)
  · intro k hk hkt
    rcases check_op1 t ht k hkt with h | ⟨h, h'⟩ | rfl | rfl | ⟨rfl, h⟩
    · exact Re.refuses_run (by rw [head_append hne]; exact h)
    · obtain ⟨hre', _⟩ := fixed_re (by omega) h
      rw [hre']
      exact lit_run_none _ (hs _ h')
    · exact comment_none (hs _ (by decide))
    · refine cppnl_none (hs _ (by decide)) ?_ ?_
      · rw [head_append hne]
        intro h
        refine (check_op1_slash t ht).1 ?_
        cases hx : fixedChars t with
        | nil => exact absurd hx hne
        | cons c cs =>
          rw [hx] at hlen h
          simp at hlen h
          rw [hlen, h]
      · rw [head_append hne]
        intro h
        refine (check_op1_slash t ht).2 ?_
        cases hx : fixedChars t with
        | nil => exact absurd hx hne
        | cons c cs =>
          rw [hx] at hlen h
          simp at hlen h
          rw [hlen, h]
    · exact (no_act hk (hstar h) (by decide)).elim

theorem finds_op2 {st t : Nat} {s : List Char} (ha : acts st t = true) (ht : t ∈ opIds2) :
    Finds st t (fixedChars t) s := by
  intro l
  have hd : ∀ t ∈ opIds2, t ∉ opIds1 ∧ t ≠ T.STAR := by decide
  obtain ⟨hlt, hnr, hni, hnk, hlen⟩ := op_facts t (List.mem_append_right _ ht)
  rw [if_neg (hd t ht).1] at hlen
  obtain ⟨hre, hne⟩ := fixed_re hlt hnr
  rw [nextTok_first (t := t) hne (scan_mem hlt (.inl ha) hnk (hd t ht).2) ?_
    (by rw [hre]; exact lit_run _)]
  · rw [not_ignored hni, if_neg (by simp), retype_other]
    · rintro rfl; exact hnr (by decide)
    · rintro rfl; exact hnr (by decide)
    · rintro rfl; exact hnr (by decide)
  · intro k hk hkt
    rcases check_op2 t ht k hkt with h | ⟨h, h'⟩
    · exact Re.refuses_run (by rw [head_append hne]; exact h)
    · obtain ⟨hlt', hnr', _, _, hlen'⟩ := op_facts k (List.mem_append_right _ h)
      rw [if_neg (hd k h).1] at hlen'
      obtain ⟨hre', _⟩ := fixed_re hlt' hnr'
      rw [hre']
      refine lit_run_none _ fun hp => h' ?_
      exact (List.prefix_of_prefix_length_le hp ⟨s, rfl⟩ (by omega)).eq_of_length (by omega)

theorem check_star : ∀ k < T.__ANON_1, (termRe k).refuses (some '*') = true := by decide +kernel

theorem finds_importAll {p st : Nat} (ok : stateOK p st = true) {s : List Char}
    (ha : acts st T.__ANON_1 = true) : Finds st T.__ANON_1 ['*'] s := by
  intro l
  rw [nextTok_first (t := T.__ANON_1) (by simp)
    (scan_mem (by decide) (.inl ha) (by decide) (by decide)) ?_ ?_]
  · rw [not_ignored (by decide), if_neg (by simp)]
    have : retype (accepts st) T.__ANON_1 ['*'] = T.__ANON_1 := by
      unfold retype
      have hf : (accepts st).filter (fun k => (unlessIds T.__ANON_1).contains k) = [] := by
        rw [List.filter_eq_nil_iff]
        intro k hk hu
        have hu : k = T.STAR := by simpa [unlessIds] using hu
        subst hu
        have hk := (mem_accepts.mp hk).2
        rcases StateOK.star ok with h | h
        · rw [ha] at h; simp at h
        · rw [h] at hk; revert hk; decide
      rw [hf]
      rfl
    rw [this]
  · intro k _ hk
    exact Re.refuses_run (check_star k hk)
  · show (Re.chr '*').run _ ('*' :: s) some = some s
    exact chr_run

/-! ### Functions -/

theorem function_match {top : Re} {x s : List Char} (hx : IsFunctionText x) :
    Re.matchIn top (termRe T.FUNCTION) (x ++ s) = some s := by
  show Terminals.FUNCTION.run _ (x ++ s) some = some s
  obtain ⟨q, n, rfl, hq, hne, hn⟩ := hx
  have hbody : ∀ d, (Re.seq (Re.plus (.set isAsciiAlnum)) (Re.chr '(')).run (recMatcher top d)
      (n ++ '(' :: s) some = some s := by
    intro d
    rw [Re.run]
    rw [plus_set (Stops.cons (by decide)) hne hn (by rw [chr_run]; rfl), chr_run]
  have hsome : ∀ d, (Re.seq (.alt (Re.lit ['s', 'y', 's']) (Re.lit ['a', 'z'])) (Re.chr '.')).run
      (recMatcher top d) (n ++ '(' :: s)
      (fun s' => (Re.seq (Re.plus (.set isAsciiAlnum)) (Re.chr '(')).run (recMatcher top d) s' some)
      = .none := by
    intro d
    refine run_none fun y r e hl => ?_
    rcases lang_sysaz hl with rfl | rfl
    · have := (run_unique (p := isAsciiAlnum) (n := "sys".toList) (r := r) (c := '.')
        (by rw [e]; simp) hn (Stops.cons (by decide)) sys_word (by decide)).2
      simp at this
    · have := (run_unique (p := isAsciiAlnum) (n := "az".toList) (r := r) (c := '.')
        (by rw [e]; simp) hn (Stops.cons (by decide)) az_word (by decide)).2
      simp at this
  unfold Terminals.FUNCTION
  generalize (q ++ n ++ ['('] ++ s).length = d
  rw [Re.run, Re.opt, Re.run]
  rcases hq with rfl | rfl | rfl
  · simp only [List.nil_append, List.append_assoc, List.cons_append]
    rw [hsome, orElse_none]
    exact hbody d
  · have e : "sys.".toList ++ n ++ ['('] ++ s = ['s', 'y', 's'] ++ ('.' :: (n ++ '(' :: s)) := by simp
    rw [e, run_seq, run_alt, lit_run, chr_run, hbody]
    rfl
  · have e : "az.".toList ++ n ++ ['('] ++ s = ['a', 'z'] ++ ('.' :: (n ++ '(' :: s)) := by simp
    rw [e, run_seq, run_alt, lit_run, lit_run_none _ (by simp), orElse_none, chr_run, hbody]
    rfl

theorem finds_function {p st : Nat} (ok : stateOK p st = true) {x s : List Char}
    (ha : acts st T.FUNCTION = true) (hx : IsFunctionText x)
    (h3 : p = T.DOT → ¬ ListCall (x ++ s)) : Finds st T.FUNCTION x s := by
  intro l
  rw [nextTok_first (t := T.FUNCTION) (by obtain ⟨q, n, rfl, _⟩ := hx; simp)
    (scan_mem (by decide) (.inl ha) (by decide) (by decide)) ?_ (function_match hx)]
  · rw [not_ignored (by decide), if_neg (by simp), retype_other (by decide) (by decide) (by decide)]
  · intro k hk hlt
    have : k = T.LIST_FUNC_NAME := by
      have : ∀ k < T.FUNCTION, k = T.LIST_FUNC_NAME := by decide
      exact this k hlt
    subst this
    rcases StateOK.list ok with h | h
    · exact lang_listCall (h3 h)
    · exact (no_act hk h (by decide)).elim

theorem listCall_look {top : Re} {s : List Char} (h : ListCall s) (d : Nat) :
    ((Re.seq (.alt (.seq (.set (fun c => c == 'L' || c == 'l'))
      (.seq (Re.lit ['i', 's', 't']) (.star (.set (fun c => inRange 'A' 'z' c || inRange 'a' 'z' c)))))
      (Re.lit ['g', 'e', 't', 'S', 'e', 'c', 'r', 'e', 't'])) (Re.chr '(')).run (recMatcher top d) s
      some).isSome = true := by
  rw [Re.run, Re.run, orElse_isSome, Bool.or_eq_true]
  rcases h with ⟨r, rfl⟩ | ⟨c, n, r, rfl, hc, hn⟩
  · right
    have e : "getSecret(".toList ++ r = ['g', 'e', 't', 'S', 'e', 'c', 'r', 'e', 't'] ++ ('(' :: r) := by
      simp
    rw [e, lit_run, chr_run]; rfl
  · left
    have hc' : (c == 'L' || c == 'l') = true := by rcases hc with rfl | rfl <;> decide
    rw [Re.run]
    show (if (c == 'L' || c == 'l') = true then _ else Option.none).isSome = true
    rw [if_pos hc', Re.run]
    have e : ('i' :: 's' :: 't' :: n).append ('(' :: r) = ['i', 's', 't'] ++ (n ++ '(' :: r) := by simp
    rw [e, lit_run, star_set (Stops.cons (by decide)) (fun d hd => by simp [hn d hd])
      (by rw [chr_run]; rfl), chr_run]
    rfl

theorem finds_listFunction {st : Nat} {x s : List Char}
    (ha : acts st T.LIST_FUNC_NAME = true) (hc : ListCall (x ++ s)) (hne : x ≠ [])
    (hx : ∀ c ∈ x, isAsciiAlpha c = true) (hs : Stops isAsciiAlpha s) :
    Finds st T.LIST_FUNC_NAME x s := by
  intro l
  rw [nextTok_first (t := T.LIST_FUNC_NAME) hne
    (scan_mem (by decide) (.inl ha) (by decide) (by decide)) ?_ ?_]
  · rw [not_ignored (by decide), if_neg (by simp), retype_other (by decide) (by decide) (by decide)]
  · intro k _ hk
    simp [T.LIST_FUNC_NAME] at hk
  · show Terminals.LIST_FUNC_NAME.run _ (x ++ s) some = some s
    unfold Terminals.LIST_FUNC_NAME
    rw [Re.run, Re.run, listCall_look hc, if_pos rfl]
    exact plus_set hs hne hx rfl

/-! ### Numbers -/

theorem check_digitStart : (List.range 128).all (fun n => !isAsciiDigit (Char.ofNat n) ||
    (List.range T.INT).all (fun k => [T.FUNCTION, T.__ANON_2].contains k ||
      (termRe k).refuses (some (Char.ofNat n)))) = true := by
  decide +kernel

theorem finds_int {p st : Nat} (ok : stateOK p st = true) {x s : List Char}
    (ha : acts st T.INT = true) (hne : x ≠ []) (hx : ∀ c ∈ x, isAsciiDigit c = true)
    (hs : Stops isAsciiAlnum s) (h1 : s.head? ≠ some '(') : Finds st T.INT x s := by
  intro l
  rw [nextTok_first (t := T.INT) hne (scan_mem (by decide) (.inl ha) (by decide) (by decide)) ?_ ?_]
  · rw [not_ignored (by decide), if_neg (by simp), retype_other (by decide) (by decide) (by decide)]
  · intro k hk hlt
    by_cases hf : k = T.FUNCTION
    · subst hf
      refine matchIn_none fun y r e hl => ?_
      rcases function_prefix (p := isAsciiAlnum) (lang_function hl) e (fun d hd => digit_alnum (hx d hd))
        hs (fun _ h => h) (by decide) (by decide) with h | ⟨_, rfl | rfl⟩
      · exact h1 h
      · exact absurd (hx 's' (by simp)) (by decide)
      · exact absurd (hx 'a' (by simp)) (by decide)
    · by_cases h2 : k = T.__ANON_2
      · subst h2
        rcases (acts_of_scan hk).2 with h | h
        · have := StateOK.anon2 ok h (t := T.INT) (by decide) (by decide)
          rw [ha] at this; simp at this
        · exact absurd h (by decide)
      · cases x with
        | nil => simp at hne
        | cons c cs =>
          have hc := hx c (by simp)
          have := ascii_all (Q := fun c => (List.range T.INT).all (fun k =>
            [T.FUNCTION, T.__ANON_2].contains k || (termRe k).refuses (some c)))
            (fun c h => alnum_lt (digit_alnum h)) check_digitStart hc
          rw [List.all_eq_true] at this
          have := this k (List.mem_range.mpr hlt)
          simp only [Bool.or_eq_true, List.contains_iff_mem, List.mem_cons, List.not_mem_nil,
            or_false] at this
          rcases this with (h | h) | h
          · exact absurd h hf
          · exact absurd h h2
          · exact refuse h
  · show (Re.plus (.set isAsciiDigit)).run _ (x ++ s) some = some s
    exact plus_set (hs.mono fun c => digit_alnum) hne hx rfl

/-! ### Decorators -/

theorem decorator_match {top : Re} {x s : List Char} (hx : IsDecoratorText x)
    (hs : Stops isAsciiAlnum s) (h1 : s.head? ≠ some '.') :
    Re.matchIn top (termRe T.__ANON_2) (x ++ s) = some s := by
  show Terminals.decoratorName.run _ (x ++ s) some = some s
  obtain ⟨q, n, rfl, hq, hne, hn⟩ := hx
  unfold Terminals.decoratorName
  generalize (q ++ n ++ s).length = d
  have hbody : (Re.plus (.set isAsciiAlnum)).run (recMatcher top d) (n ++ s) some = some s :=
    plus_set hs hne hn rfl
  rw [Re.run, Re.opt, Re.run]
  rcases hq with rfl | rfl
  · rw [lit_run_none, orElse_none]
    · exact hbody
    · rintro ⟨r, hr⟩
      have := run_unique (p := isAsciiAlnum) (n := "sys".toList) (r := r) (c := '.')
        (show n ++ s = _ by simpa using hr.symm) hn hs sys_word (by decide)
      rw [this.2] at h1
      exact h1 rfl
  · have e : "sys.".toList ++ n ++ s = ['s', 'y', 's', '.'] ++ (n ++ s) := by simp
    rw [e, lit_run, hbody]
    rfl

theorem finds_decorator {p st : Nat} (ok : stateOK p st = true) {x s : List Char}
    (ha : acts st T.__ANON_2 = true) (hx : IsDecoratorText x) (hs : Stops isAsciiAlnum s)
    (h1 : s.head? ≠ some '.') : Finds st T.__ANON_2 x s := by
  intro l
  rw [nextTok_first (t := T.__ANON_2) (by obtain ⟨q, n, rfl, _, h, _⟩ := hx; simp [h])
    (scan_mem (by decide) (.inl ha) (by decide) (by decide)) ?_ (decorator_match hx hs h1)]
  · rw [not_ignored (by decide), if_neg (by simp), (retype_word unless_anon2).2]
    intro k hk hacc
    obtain ⟨hlt, _, hni, hgt, _⟩ := keyword_facts k hk
    rcases (mem_accepts.mp hacc).2 with h | h
    · rw [StateOK.anon2 ok ha hlt (by omega)] at h; simp at h
    · exact absurd h hni
  · intro k hk hlt
    obtain ⟨hk1, hk2⟩ := acts_of_scan hk
    rw [StateOK.anon2 ok ha hk1 (by omega)] at hk2
    have : ∀ k < T.__ANON_2, k ∉ ignoreIds := by decide
    rcases hk2 with h | h
    · simp at h
    · exact absurd h (this k hlt)

end Pycep
