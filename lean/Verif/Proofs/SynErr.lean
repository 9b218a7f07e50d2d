import Verif.Proofs.Viable
import Verif.Proofs.LexComplete
/-
Proofs about the places of syntax errors.
-/
namespace Pycep

/-! ### Positions -/

/-- number of characters on the current line -/
def lineTail (x : List Char) : Nat := (x.reverse.takeWhile (· != '\n')).length

/-- the counter is at the place behind `pre` -/
structure Ctr.At (c : Ctr) (pre : List Char) : Prop where
  pos : c.pos = pre.length
  line : c.line = lineAt pre
  col : c.col = colAt pre
  start : c.lineStart + lineTail pre = pre.length

theorem Ctr.At.init : Ctr.init.At [] := ⟨rfl, rfl, rfl, rfl⟩

theorem Ctr.At.feed {c : Ctr} {pre x : List Char} {test : Bool} (h : c.At pre)
    (ht : test = false → countNL x = 0) : (c.feed x test).At (pre ++ x) := by
  obtain ⟨h1, h2, h3, h4⟩ := h
  have hcol : ∀ y, colAt y = 1 + lineTail y := fun _ => rfl
  by_cases h0 : countNL x = 0
  · have hno : '\n' ∉ x := List.count_eq_zero.mp h0
    have htail : lineTail (pre ++ x) = x.length + lineTail pre := by
      unfold lineTail
      rw [List.reverse_append, List.takeWhile_append_of_pos]
      · simp
      · intro c hc
        rw [List.mem_reverse] at hc
        simp only [bne_iff_ne, ne_eq]
        rintro rfl; exact hno hc
    have hf : c.feed x test = ⟨c.pos + x.length, c.line, c.pos + x.length - c.lineStart + 1, c.lineStart⟩ := by
      simp [Ctr.feed, h0]
    rw [hf]
    refine ⟨by simp [h1], ?_, ?_, ?_⟩
    · simp only [h2, lineAt, List.count_append]
      rw [show x.count '\n' = 0 from h0]; omega
    · simp only [hcol, htail]; omega
    · simp only [htail, List.length_append]; omega
  · have htrue : test = true := by
      cases test with
      | true => rfl
      | false => exact absurd (ht rfl) h0
    have hmem : '\n' ∈ x.reverse := by
      rw [List.mem_reverse]
      by_contra hno
      exact h0 (List.count_eq_zero.mpr hno)
    obtain ⟨b, a, hx, hb⟩ := List.eq_append_cons_of_mem hmem
    have hlen : x.length = b.length + (a.length + 1) := by
      have := congrArg List.length hx; simpa using this
    have hlast : lastNL x = a.length := by
      unfold lastNL
      rw [hx, List.idxOf_append_of_notMem hb, hlen]
      simp
    have htail : lineTail (pre ++ x) = b.length := by
      unfold lineTail
      rw [List.reverse_append, hx, List.append_assoc, List.takeWhile_append_of_pos]
      · simp
      · intro c hc
        simp only [bne_iff_ne, ne_eq]
        rintro rfl; exact hb hc
    have hf : c.feed x test = ⟨c.pos + x.length, c.line + countNL x,
        c.pos + x.length - (c.pos + lastNL x + 1) + 1, c.pos + lastNL x + 1⟩ := by
      simp [Ctr.feed, h0, htrue]
    rw [hf]
    refine ⟨by simp [h1], ?_, ?_, ?_⟩
    · simp only [h2, lineAt, List.count_append, countNL]; omega
    · simp only [hcol, htail, hlast, hlen]; omega
    · simp only [htail, List.length_append, hlast, hlen]; omega

theorem Ctr.At.behind {c : Ctr} {pre : List Char} (h : c.At pre) (t) :
    SynErr.Behind ⟨t, c.pos, c.line, c.col⟩ pre := ⟨h.pos, h.line, h.col⟩

theorem Ctr.feed_line {c : Ctr} {x : List Char} {test : Bool} (ht : test = false → countNL x = 0) :
    (c.feed x test).line = c.line + countNL x := by
  unfold Ctr.feed
  simp only
  split
  · rfl
  · rename_i h
    by_cases h0 : countNL x = 0
    · omega
    · cases test with
      | false => exact absurd (ht rfl) h0
      | true => simp [h0] at h

/-! ### Terminals without line feeds -/

theorem nl_not {P : Char → Bool} (hP : P '\n' = false) {x : List Char} (h : ∀ c ∈ x, P c = true) :
    countNL x = 0 := by
  refine List.count_eq_zero.mpr fun hm => ?_
  have := h _ hm
  rw [hP] at this; cases this

theorem fixed_nl : ∀ t < tEND, countNL (fixedChars t) = 0 := by decide +kernel

theorem newline_free {t : Nat} {x : List Char} (ht : t < tEND) (hn : newlineTypes.contains t = false)
    (h : Lang (termRe t) x) : countNL x = 0 := by
  have hs := termRe_sound ht h
  by_cases hr : t ∈ reIds
  · simp only [reIds, List.mem_cons, List.not_mem_nil, or_false] at hr
    rcases hr with rfl | rfl | rfl | rfl | rfl | rfl | rfl | rfl | rfl | rfl | rfl | rfl | rfl | rfl <;>
      first | exact absurd hn (by decide) | skip
    · exact nl_not (P := isAsciiAlpha) (by decide) hs.2
    · obtain ⟨p, n, rfl, hp, _, hc⟩ := hs
      simp only [countNL, List.count_append]
      rw [show n.count '\n' = 0 from nl_not (P := isAsciiAlnum) (by decide) hc]
      rcases hp with rfl | rfl | rfl <;> decide
    · obtain ⟨c, cs, rfl, hc, hcs⟩ := hs
      have h1 : c ≠ '\n' := by rintro rfl; revert hc; decide
      simp only [countNL, List.count_cons]
      rw [show cs.count '\n' = 0 from nl_not (P := isWord) (by decide) hcs]
      simpa using h1
    · obtain ⟨b, rfl, hb⟩ := hs
      have : b.count '\n' = 0 := nl_not (P := fun c => isWord c || c == '.') (by decide) (by simpa using hb)
      simp [countNL, this]
    · obtain ⟨p, n, rfl, hp, _, hc⟩ := hs
      simp only [countNL, List.count_append]
      rw [show n.count '\n' = 0 from nl_not (P := isAsciiAlnum) (by decide) hc]
      rcases hp with rfl | rfl <;> decide
    · obtain ⟨a, b, rfl, ha, hb⟩ := (show Lang (Re.plus (.alt (Re.chr '\t') (Re.chr ' '))) x from h).plus_inv
      have hone : ∀ a, Lang (.alt (Re.chr '\t') (Re.chr ' ')) a → countNL a = 0 := by
        intro a ha
        rcases ha.alt_inv with ha | ha <;> rw [ha.chr_inv] <;> decide
      have hb' : countNL b = 0 := by
        refine Lang.star_ind (P := fun b => countNL b = 0) (by decide) ?_ hb
        intro x y hx hy
        have := hone x hx
        simp only [countNL, List.count_append] at *
        omega
      have := hone a ha
      simp only [countNL, List.count_append] at *
      omega
    · exact nl_not (P := isAsciiDigit) (by decide) hs.2
    · obtain rfl : x = ['*'] := hs
      decide
  · obtain ⟨d, f, h1, h2, h3, _⟩ := strTerm ht hr
    have hre : termRe t = Re.lit f.toList := by simp only [termRe, h1, h3]
    rw [hre] at h
    have hx := h.lit_inv
    have := fixed_nl t ht
    simp only [fixedChars, h1, h2, Option.getD_some] at this
    rw [hx]; exact this

/-! ### The lexer -/

/-- forgetting positions -/
def LexAt.erase : LexAt → LexRes
  | .eof => .eof
  | .fail _ _ => .fail
  | .tok t _ rest _ => .tok t rest

theorem nextTokAt_erase {acc : List Nat} (hacc : ∀ t ∈ acc, t < tEND) : ∀ (n : Nat) (s : List Char) (c : Ctr),
    (nextTokAt acc n s c).erase = nextTok acc n s c.line := by
  intro n
  induction n with
  | zero => intro s c; cases s <;> rfl
  | succ n ih =>
    intro s c
    cases s with
    | nil => rfl
    | cons a s =>
      unfold nextTokAt nextTok
      simp only
      cases hs : scanWith (scanRe (scanIds acc)) (scanIds acc) (a :: s) with
      | none => rfl
      | some p =>
        obtain ⟨t, rest⟩ := p
        simp only
        obtain ⟨hmem, x, hx, hlang⟩ := scanWith_sound hs
        have ht : t < tEND := hacc t (List.mem_filter.mp hmem).1
        have hxt : (a :: s).take ((a :: s).length - rest.length) = x := by
          rw [hx]; simp
        rw [hxt]
        have hl : (c.feed x (newlineTypes.contains t)).line = c.line + countNL x :=
          Ctr.feed_line fun h => newline_free ht h hlang
        split
        · cases hi : ignoreIds.contains t with
          | true => simp only [if_true]; rw [ih, hl]
          | false => simp only [Bool.false_eq_true, if_false, LexAt.erase, hl]
        · rfl

theorem nextTokAt_spec {acc : List Nat} (hacc : ∀ t ∈ acc, t < tEND) : ∀ (n : Nat) (s : List Char) (c : Ctr)
    (pre : List Char), s.length ≤ n → c.At pre →
    match nextTokAt acc n s c with
    | .eof => Trivias s
    | .fail s' c' => ∃ p, s = p ++ s' ∧ Trivias p ∧ c'.At (pre ++ p) ∧ s' ≠ [] ∧
        scanWith (scanRe (scanIds acc)) (scanIds acc) s' = .none
    | .tok tk c' rest c'' => ∃ p t, s = p ++ (tk.text ++ rest) ∧ Trivias p ∧ c'.At (pre ++ p) ∧
        c''.At (pre ++ p ++ tk.text) ∧ TokText tk.type tk.text ∧ tk.type < tEND ∧
        tk = ⟨retype acc t tk.text, tk.text, c'.line, c'.line + countNL tk.text⟩ ∧
        scanWith (scanRe (scanIds acc)) (scanIds acc) (tk.text ++ rest) = some (t, rest) ∧
        t ∈ acc ∧ ignoreIds.contains t = false := by
  intro n
  induction n with
  | zero =>
    intro s c pre hn hc
    cases s with
    | nil => exact .nil
    | cons a s => simp at hn
  | succ n ih =>
    intro s c pre hn hc
    cases s with
    | nil => exact .nil
    | cons a s =>
      unfold nextTokAt
      simp only
      cases hs : scanWith (scanRe (scanIds acc)) (scanIds acc) (a :: s) with
      | none => exact ⟨[], rfl, .nil, by simpa using hc, by simp, hs⟩
      | some q =>
        obtain ⟨t, rest⟩ := q
        simp only
        rw [if_pos (scan_progress hacc hs)]
        have hprog := scan_progress hacc hs
        obtain ⟨hmem, x, hx, hlang⟩ := scanWith_sound hs
        have hta := (List.mem_filter.mp hmem).1
        have ht : t < tEND := hacc t hta
        have hxt : (a :: s).take ((a :: s).length - rest.length) = x := by
          rw [hx]; simp
        rw [hxt]
        have hnl : newlineTypes.contains t = false → countNL x = 0 := fun h => newline_free ht h hlang
        have hc' := hc.feed hnl
        have hsound := termRe_sound ht hlang
        cases hi : ignoreIds.contains t with
        | true =>
          rw [if_pos (by simpa using hi)] at hsound
          simp only [if_true]
          have := ih rest (c.feed x (newlineTypes.contains t)) (pre ++ x)
            (by simp only [List.length_cons] at hn hprog; omega) hc'
          split at this
          · rw [hx]; exact .cons hsound this
          · obtain ⟨p, e, h1, h2, h3, h4⟩ := this
            exact ⟨x ++ p, by rw [hx, e]; simp, .cons hsound h1, by simpa using h2, h3, h4⟩
          · obtain ⟨p, t', e, h1, h2, h3, h4⟩ := this
            exact ⟨x ++ p, t', by rw [hx, e]; simp, .cons hsound h1, by simpa using h2, by simpa using h3, h4⟩
        | false =>
          rw [if_neg (by simpa using hi)] at hsound
          simp only [Bool.false_eq_true, if_false]
          obtain ⟨h1, h2⟩ := retype_sound (acc := acc) ht hsound
          refine ⟨[], t, hx, .nil, by simpa using hc, by simpa using hc', h1, h2, ?_, hx ▸ hs, hta, hi⟩
          rw [Ctr.feed_line hnl]

/-! ### The second attempt -/

/-- no recursion in the pattern -/
def Re.plain : Re → Bool
  | .eps | .set _ => true
  | .seq a b | .alt a b => a.plain && b.plain
  | .star r | .lazyStar r | .possStar r | .look r | .nlook r => r.plain
  | .recur => false

theorem Re.plain_run {r : Re} (h : r.plain = true) (m m' : Matcher) : r.run m = r.run m' := by
  induction r with
  | eps => rfl
  | set => rfl
  | seq a b ih1 ih2 =>
    simp only [Re.plain, Bool.and_eq_true] at h
    funext s k
    simp only [Re.run, ih1 h.1, ih2 h.2]
  | alt a b ih1 ih2 =>
    simp only [Re.plain, Bool.and_eq_true] at h
    funext s k
    simp only [Re.run, ih1 h.1, ih2 h.2]
  | star r ih => funext s k; simp only [Re.run, ih h]
  | lazyStar r ih => funext s k; simp only [Re.run, ih h]
  | possStar r ih => funext s k; simp only [Re.run, ih h]
  | look r ih => funext s k; simp only [Re.run, ih h]
  | nlook r ih => funext s k; simp only [Re.run, ih h]
  | recur => cases h

theorem ignored_plain : ∀ t ∈ ignoreIds, (termRe t).plain = true := by decide

theorem scanWith_none {top : Re} {ids : List Nat} {s : List Char} (h : scanWith top ids s = .none) :
    ∀ t ∈ ids, Re.matchIn top (termRe t) s = .none := by
  induction ids with
  | nil => simp
  | cons i ids ih =>
    intro t ht
    unfold scanWith at h
    split at h
    · cases h
    · rename_i hm
      rcases List.mem_cons.mp ht with rfl | ht
      · exact hm
      · exact ih h t ht

theorem scanWith_match {top : Re} {ids : List Nat} {s rest : List Char} {t : Nat}
    (h : scanWith top ids s = some (t, rest)) : Re.matchIn top (termRe t) s = some rest := by
  induction ids with
  | nil => cases h
  | cons i ids ih =>
    unfold scanWith at h
    split at h
    · rename_i hm
      simp only [Option.some.injEq, Prod.mk.injEq] at h
      obtain ⟨rfl, rfl⟩ := h
      exact hm
    · exact ih h

theorem ignored_scan {st t : Nat} (h : t ∈ ignoreIds) : t ∈ scanIds (accepts st) := by
  have : ∀ t ∈ ignoreIds, t < tEND ∧ t ∉ keywordIds ∧ t ≠ T.STAR := by decide
  obtain ⟨h1, h2, h3⟩ := this t h
  exact scan_mem h1 (.inr h) h2 h3

/-- Where the lexer of a state fails, nothing is skipped. -/
theorem fail_ignored {st : Nat} {s : List Char}
    (h : scanWith (scanRe (scanIds (accepts st))) (scanIds (accepts st)) s = .none) (top : Re) :
    ∀ t ∈ ignoreIds, Re.matchIn top (termRe t) s = .none := by
  intro t ht
  rw [← scanWith_none h t (ignored_scan ht)]
  unfold Re.matchIn
  rw [Re.plain_run (ignored_plain t ht) _ (recMatcher (scanRe (scanIds (accepts st))) s.length)]

/-- the expression can match nothing -/
def Re.mayBeEmpty : Re → Bool
  | .eps | .star _ | .lazyStar _ => true
  | .seq a b => a.mayBeEmpty && b.mayBeEmpty
  | .alt a b => a.mayBeEmpty || b.mayBeEmpty
  | _ => false

/-- the expression matches every text that begins with `c` -/
def Re.takes (c : Char) : Re → Bool
  | .set p => p c
  | .seq a b => (a.takes c && b.mayBeEmpty) || (a.mayBeEmpty && b.takes c)
  | .alt a b => a.takes c || b.takes c
  | _ => false

theorem either_isSome {a : Option (List Char)} {b : Unit → Option (List Char)}
    (h : a.isSome = true ∨ (b ()).isSome = true) : (orElse a b).isSome = true := by
  unfold orElse
  cases a with
  | some x => rfl
  | none => simpa using h

theorem Re.mayBeEmpty_run {m : Matcher} {r : Re} (h : r.mayBeEmpty = true) : ∀ {s : List Char} {k : Cont},
    (k s).isSome = true → (r.run m s k).isSome = true := by
  induction r with
  | eps => intro s k hk; exact hk
  | seq a b ih1 ih2 =>
    intro s k hk
    simp only [Re.mayBeEmpty, Bool.and_eq_true] at h
    exact ih1 h.1 (ih2 h.2 hk)
  | alt a b ih1 ih2 =>
    intro s k hk
    simp only [Re.mayBeEmpty, Bool.or_eq_true] at h
    exact either_isSome (h.imp (fun h => ih1 h hk) (fun h => ih2 h hk))
  | star r ih =>
    intro s k hk
    simp only [Re.run]
    cases s.length with
    | zero => exact hk
    | succ n => exact either_isSome (.inr hk)
  | lazyStar r ih =>
    intro s k hk
    simp only [Re.run]
    cases s.length with
    | zero => exact hk
    | succ n => exact either_isSome (.inl hk)
  | set | possStar | look | nlook | recur => cases h

theorem Re.takes_run {m : Matcher} {r : Re} {c : Char} (h : r.takes c = true) {s : List Char} : ∀ {k : Cont},
    (∀ s, (k s).isSome = true) → (r.run m (c :: s) k).isSome = true := by
  induction r with
  | set p => intro k hk; simp only [Re.takes] at h; simp only [Re.run, h, if_true, hk]
  | seq a b ih1 ih2 =>
    intro k hk
    simp only [Re.takes, Bool.or_eq_true, Bool.and_eq_true] at h
    rcases h with ⟨h1, h2⟩ | ⟨h1, h2⟩
    · exact ih1 h1 (fun s => Re.mayBeEmpty_run h2 (hk s))
    · exact Re.mayBeEmpty_run h1 (ih2 h2 hk)
  | alt a b ih1 ih2 =>
    intro k hk
    simp only [Re.takes, Bool.or_eq_true] at h
    exact either_isSome (h.imp (fun h => ih1 h hk) (fun h => ih2 h hk))
  | _ => cases h

/-- Some terminal matches wherever a token may begin. -/
theorem starts_match {c : Char} (h : startsSome c = true) (top : Re) (s : List Char) :
    ∃ t ∈ scanIds (List.range tEND), (Re.matchIn top (termRe t) (c :: s)).isSome = true := by
  have key : ∀ t ∈ scanIds (List.range tEND), (termRe t).takes c = true →
      ∃ t ∈ scanIds (List.range tEND), (Re.matchIn top (termRe t) (c :: s)).isSome = true :=
    fun t h1 h2 => ⟨t, h1, Re.takes_run h2 (fun _ => rfl)⟩
  simp only [startsSome, Bool.or_eq_true] at h
  rcases h with h | h
  · refine key T.__ANON_2 (by decide +kernel) ?_
    simp [show termRe T.__ANON_2 = Terminals.decoratorName from rfl, Terminals.decoratorName, Re.takes, Re.mayBeEmpty, Re.opt, Re.plus, h]
  · have hs : ∀ c ∈ "_ \t\n#@!:,.={<([->%+?})]/*|".toList, c = '_' ∨
        (scanIds (List.range tEND)).any (fun t => (termRe t).takes c) = true := by decide +kernel
    rcases hs c (by simpa using h) with rfl | h
    · refine ⟨T.STRING, by decide +kernel, ?_⟩
      show (Terminals.STRING.run _ ('_' :: s) some).isSome = true
      rw [Terminals.STRING, run_seq]
      have : Re.run (recMatcher top ('_' :: s).length)
          (.nlook (.seq (.alt (Re.lit ['s', 'y', 's']) (Re.lit ['a', 'z'])) (Re.chr '.'))) ('_' :: s) =
          fun k => k ('_' :: s) := by
        funext k
        simp [Re.run, Re.lit, Re.chr, orElse]
      rw [this]
      exact Re.takes_run (by decide) (fun _ => rfl)
    · obtain ⟨t, h1, h2⟩ := List.any_eq_true.mp h
      exact key t h1 h2

theorem range_lt : ∀ t ∈ List.range tEND, t < tEND := fun _ h => List.mem_range.mp h

/-- The second attempt reports the same place, and no `EOFError` escapes. -/
theorem secondTry_spec {st : Nat} {s : List Char} {c : Ctr} (hs : s ≠ [])
    (h : scanWith (scanRe (scanIds (accepts st))) (scanIds (accepts st)) s = .none) :
    ∃ tok, secondTry s c = .err ⟨tok, c.pos, c.line, c.col⟩ ∧
      (∀ t x, tok = some (t, x) → t < tEND ∧ TokText t x ∧ x <+: s) ∧
      (tok = .none → ∀ a r, s = a :: r → startsSome a = false) := by
  unfold secondTry
  cases s with
  | nil => exact absurd rfl hs
  | cons a s =>
    rw [List.length_cons]
    unfold nextTokAt
    simp only
    cases hr : scanWith (scanRe (scanIds (List.range tEND))) (scanIds (List.range tEND)) (a :: s) with
    | none =>
      refine ⟨.none, rfl, by simp, fun _ b r e => ?_⟩
      cases e
      by_contra hb
      obtain ⟨t, ht, hm⟩ := starts_match (by simpa using hb) (scanRe (scanIds (List.range tEND))) s
      rw [scanWith_none hr t ht] at hm
      cases hm
    | some p =>
      obtain ⟨t, rest⟩ := p
      simp only
      rw [if_pos (scan_progress range_lt hr)]
      have hi : ignoreIds.contains t = false := by
        by_contra hi
        have hi : t ∈ ignoreIds := by simpa using hi
        have h1 := fail_ignored h (scanRe (scanIds (List.range tEND))) t hi
        rw [scanWith_match hr] at h1
        cases h1
      rw [hi]
      simp only [Bool.false_eq_true, if_false]
      refine ⟨_, rfl, ?_, by simp⟩
      intro t' x e
      simp only [Option.some.injEq, Prod.mk.injEq] at e
      obtain ⟨hmem, y, hy, hlang⟩ := scanWith_sound hr
      have ht : t < tEND := range_lt t (List.mem_filter.mp hmem).1
      have hxt : (a :: s).take ((a :: s).length - rest.length) = y := by
        rw [hy]; simp
      rw [hxt] at e
      have hsound := termRe_sound ht hlang
      rw [if_neg (by simpa using hi)] at hsound
      obtain ⟨h1, h2⟩ := retype_sound (acc := List.range tEND) ht hsound
      obtain ⟨rfl, rfl⟩ := e
      exact ⟨h2, h1, by rw [hy]; exact List.prefix_append _ _⟩

/-! ### The tokens read so far -/

/-- The stack after the tokens `w`. -/
inductive Fed : List Tok → Stack → Prop where
  | nil : Fed [] []
  | snoc {w stk stk' tk} : Fed w stk → feed (feedFuel stk) stk tk = .shifted stk' → Fed (w ++ [tk]) stk'

theorem Fed.inv {w stk} (h : Fed w stk) : ∀ m, Inv stk w m := by
  induction h with
  | nil => exact Inv.init
  | snoc _ hf ih => exact ((feed_spec _ _ _ _ (ih _)).1 _ hf).1

theorem Fed.lt {w stk} (h : Fed w stk) : ∀ u ∈ w, u.type < tEND := by
  induction h with
  | nil => simp
  | snoc h hf ih =>
    intro u hu
    rcases List.mem_append.mp hu with hu | hu
    · exact ih u hu
    · rw [List.mem_singleton] at hu
      subst hu
      exact ((feed_spec _ _ _ _ (h.inv _)).1 _ hf).2

theorem feed_shifted {n : Nat} {stk stk' : Stack} {tk : Tok} (h : feed n stk tk = .shifted stk') :
    ∃ s stk₁, stk' = (s, .tok tk) :: stk₁ ∧ action (topState stk₁) tk.type = .shift s := by
  induction n generalizing stk with
  | zero => cases h
  | succ n ih =>
    unfold feed at h
    split at h
    · cases h
    · rename_i s hs
      split at h
      · cases h
      · simp only [FeedRes.shifted.injEq] at h
        exact ⟨s, stk, h.symm, hs⟩
    · split at h
      · cases h
      · simp only at h
        split at h
        · cases h
        · split at h
          · cases h
          · split at h
            · cases h
            · exact ih h

theorem Fed.prev {w stk} (h : Fed w stk) : prevOf (topState stk) = prevType w := by
  cases h with
  | nil => exact prevOf_zero
  | @snoc w stk _ tk h hf =>
    obtain ⟨s, stk₁, rfl, ha⟩ := feed_shifted hf
    have hi := (feed_spec _ _ _ _ (h.inv tk.type)).1 _ hf
    rw [show topState ((s, Tree.tok tk) :: stk₁) = s from rfl, prevOf_shift ((hi.1 0).tail_lt) hi.2 ha]
    simp [prevType]

/-- The driver has no choice: a run over `w` and more goes through the stack after `w`. -/
theorem Fed.run {w stk} (h : Fed w stk) : ∀ {v n stk'}, Run [] (w ++ v) n stk' → Run stk v n stk' := by
  induction h with
  | nil => intro v n stk' hr; exact hr
  | @snoc w stk stk₂ tk h hf ih =>
    intro v n stk' hr
    rw [List.append_assoc] at hr
    cases ih hr with
    | @shift _ stk₁ _ _ s _ _ h1 h2 h3 h4 =>
      obtain ⟨k, hk⟩ := feed_red (tk := tk) h1
      have : feed (1 + k) stk tk = .shifted ((s, .tok tk) :: stk₁) := by
        rw [hk 1]
        unfold feed
        simp only [h2]
        rw [if_neg h3]
      rw [feed_eq (h.inv _) (by simp) this] at hf
      simp only [FeedRes.shifted.injEq] at hf
      rw [← hf]; exact h4

/-- A token that can follow is accepted. -/
theorem Fed.follows {w stk u v p} (h : Fed w stk) (hc : p.clear = true) (hv : ∀ x ∈ u :: v, x.type < tEND)
    (hp : ProgSyn p (w ++ u :: v) tEND) : action (topState stk) u.type ≠ .error ∧
      ∀ tk : Tok, tk.type = u.type → feed (feedFuel stk) stk tk ≠ .unexpected := by
  obtain ⟨t, hd, _⟩ := hp.derives hc
  have hw : ∀ x ∈ w ++ u :: v, x.type < tEND := by
    intro x hx
    rcases List.mem_append.mp hx with hx | hx
    · exact h.lt x hx
    · exact hv x hx
  obtain ⟨stk', i, r, hrun, _⟩ := run_start hd hw
  cases h.run hrun with
  | @shift _ stk₁ _ _ s _ _ h1 h2 h3 h4 =>
    refine ⟨h1.action_ne (by rw [h2]; simp), ?_⟩
    intro tk htk
    rw [← htk] at h1 h2 h3
    obtain ⟨k, hk⟩ := feed_red (tk := tk) h1
    have : feed (1 + k) stk tk = .shifted ((s, .tok tk) :: stk₁) := by
      rw [hk 1]
      unfold feed
      simp only [h2]
      rw [if_neg h3]
    rw [feed_eq (h.inv _) (by simp) this]
    simp

/-- The end is accepted if the text is complete. -/
theorem Fed.complete {w stk p l} (h : Fed w stk) (hc : p.clear = true)
    (hp : ProgSyn p w tEND) : feed (feedFuel stk) stk ⟨tEND, [], l, l⟩ ≠ .unexpected := by
  obtain ⟨t, hd, _⟩ := hp.derives hc
  obtain ⟨stk', i, r, hrun, ha, hr, hl, hlen, _⟩ := run_start hd h.lt
  have hrun := h.run (v := []) (by simpa using hrun)
  cases hrun with
  | done hred =>
    obtain ⟨k, hk⟩ := feed_red (tk := ⟨tEND, [], l, l⟩) hred
    have : feed (1 + k) stk ⟨tEND, [], l, l⟩ =
        .accept (buildNode r ((stk'.take r.rhs.length).reverse.map Prod.snd)) := by
      rw [hk 1]
      unfold feed
      simp only [ha, hr]
      rw [if_neg (by omega)]
      have hd : stk'.drop r.rhs.length = [] := by rw [← hlen]; simp
      rw [hd, hl]
      simp only [topState, goto_start]
      simp
    rw [feed_eq (h.inv _) (by simp) this]
    simp

/-! ### Texts -/

theorem Tiling.cat {l x w y v} (h : Tiling l x w) (h' : Tiling (l + countNL x) y v) :
    Tiling l (x ++ y) (w ++ v) := by
  induction h with
  | nil => simpa [countNL] using h'
  | @skip l x s w ht _ ih =>
    rw [List.append_assoc]
    refine .skip ht (ih ?_)
    simpa [countNL, Nat.add_assoc] using h'
  | @tok l x s w t ht hlt _ ih =>
    rw [List.append_assoc, List.cons_append]
    refine .tok ht hlt (ih ?_)
    simpa [countNL, Nat.add_assoc] using h'

theorem Trivias.tiling {x l} (h : Trivias x) : Tiling l x [] := by
  have := Tiling.skips h (l := l) .nil
  simpa using this

theorem blank_match {top : Re} {c : Char} {s : List Char} (hc : isBlank c = true) :
    ∃ r, Re.matchIn top (termRe T.WS_INLINE) (c :: s) = some r := by
  have hall : ∀ d ∈ c :: s.takeWhile isBlank, isBlank d = true := by
    intro d hd
    rcases List.mem_cons.mp hd with rfl | hd
    · exact hc
    · exact List.all_eq_true.mp List.all_takeWhile d hd
  have hstop : Stops isBlank (s.dropWhile isBlank) := by
    intro d ds e
    have := List.head?_dropWhile_not isBlank s
    rw [e] at this
    simpa using this
  have := ws_match (top := top) (by simp) hall hstop
  rw [List.cons_append, List.takeWhile_append_dropWhile] at this
  exact ⟨_, this⟩

theorem Gap.match {x s : List Char} (h : Gap x s) (top : Re) :
    ∃ t ∈ ignoreIds, ∃ r, Re.matchIn top (termRe t) (x ++ s) = some r := by
  cases h with
  | blank => exact ⟨T.WS_INLINE, by decide, blank_match (by decide)⟩
  | tab => exact ⟨T.WS_INLINE, by decide, blank_match (by decide)⟩
  | @hash x _ hx hs =>
    refine ⟨T.SH_COMMENT, by decide, s, ?_⟩
    show Terminals.SH_COMMENT.run _ ('#' :: x ++ s) some = some s
    rw [Terminals.SH_COMMENT, run_seq, List.cons_append, chr_run]
    refine star_set ?_ (fun c hc => by simpa using hx c hc) rfl
    intro c cs e
    rcases hs with rfl | hs
    · simp at e
    · rw [e] at hs; simp at hs; rw [hs]; decide
  | @comment x _ hx =>
    refine ⟨T.C_COMMENT, by decide, s, ?_⟩
    show Terminals.C_COMMENT.run _ _ some = some s
    rw [Terminals.C_COMMENT, run_seq]
    have e : '/' :: '*' :: x ++ ['*', '/'] ++ s = ['/', '*'] ++ (x ++ ('*' :: '/' :: s)) := by simp
    rw [e, lit_run, run_seq]
    exact lazy_comment x _ (by simp) hx

/-- forgetting what the exception says -/
def RunRes.erase : RunRes → ParseRes
  | .ok t => .ok t
  | .err _ | .eofError => .unexpectedInput
  | .stuck => .stuck
  | .fuel => .fuel

/-- where the last token is -/
def LastAt (last : Ctr) (w : List Tok) (pre : List Char) : Prop :=
  w = [] ∨ ∃ w₀ u pre₀, w = w₀ ++ [u] ∧ pre = pre₀ ++ u.text ∧ Tiling 1 pre₀ w₀ ∧ last.At pre₀

theorem runLoop_spec (n : Nat) : ∀ (stk : Stack) (s : List Char) (c last : Ctr) (w : List Tok) (pre : List Char),
    Fed w stk → s.length < n → c.At pre → Tiling 1 pre w → LastAt last w pre →
    (runLoop n stk s c last).erase = parseLoop n stk s c.line ∧ runLoop n stk s c last ≠ .eofError ∧
      ∀ e, runLoop n stk s c last = .err e → WrongAt (pre ++ s) e := by
  induction n with
  | zero => intro stk s c last w pre _ h; omega
  | succ n ih =>
    intro stk s c last w pre hfed hn hc hpre hlast
    have hacc : ∀ t ∈ accepts (topState stk), t < tEND := fun t => accepts_lt
    have hbeg := (hfed.inv 0).begins hfed.lt
    have he := nextTokAt_erase hacc s.length s c
    have hs := nextTokAt_spec hacc s.length s c pre (Nat.le_refl _) hc
    have hcl : c.line = 1 + countNL pre := by rw [hc.line]; rfl
    have hlt := (hfed.inv 0).top_lt
    have hple : prevType w ≤ tEND := by
      unfold prevType
      cases hg : w.getLast? with
      | none => exact Nat.le_refl _
      | some u => exact Nat.le_of_lt (hfed.lt u (List.mem_of_getLast? hg))
    unfold runLoop parseLoop
    rw [← he]
    cases hl : nextTokAt (accepts (topState stk)) s.length s c with
    | eof =>
      rw [hl] at hs
      simp only at hs
      simp only [LexAt.erase]
      cases hf : feed (feedFuel stk) stk ⟨tEND, [], c.line, c.line⟩ with
      | accept t => exact ⟨rfl, by simp, by simp⟩
      | shifted t => exact ⟨rfl, by simp, by simp⟩
      | stuck => exact ⟨rfl, by simp, by simp⟩
      | fuel => exact ⟨rfl, by simp, by simp⟩
      | unexpected =>
        refine ⟨rfl, by simp, fun e h => ?_⟩
        simp only [RunRes.err.injEq] at h
        have htil : Tiling 1 (pre ++ s) w := by simpa using hpre.cat hs.tiling
        have hno : ∀ p, p.clear = true → ¬ ProgSyn p w tEND := fun p hcl hp => hfed.complete hcl hp hf
        rcases hlast with rfl | ⟨w₀, u, pre₀, rfl, rfl, h1, h2⟩
        · exact absurd .nil (hno [] (by decide))
        · refine .incomplete pre₀ u s w₀ rfl h1 htil hbeg hno ?_ ?_
          · rw [← h]; exact h2.behind _
          · rw [← h]
    | fail s' c' =>
      rw [hl] at hs
      obtain ⟨p, rfl, hp, hc', hne, hscan⟩ := hs
      simp only [LexAt.erase]
      obtain ⟨tok, ht, htok, hstray⟩ := secondTry_spec (c := c') hne hscan
      rw [ht]
      refine ⟨rfl, by simp, fun e h => ?_⟩
      simp only [RunRes.err.injEq] at h
      refine .here (pre ++ p) s' w (by simp) (by simpa using hpre.cat hp.tiling) hbeg hne ?_ ?_ ?_ ?_ ?_
      · intro x y hg e
        obtain ⟨t, hi, r, hm⟩ := hg.match (scanRe [])
        rw [← e, fail_ignored hscan _ t hi] at hm
        cases hm
      · intro t x y l l' v q e hfit hcl hv hq
        obtain ⟨ht1, _⟩ := hfit.lt
        have hact := (hfed.follows (u := ⟨t, x, l, l'⟩) hcl (by simpa using ⟨ht1, hv⟩) hq).1
        have hfind := hfit.finds hlt hfed.prev hple (by simpa [acts] using hact) 0
        rw [← e] at hfind
        cases s' with
        | nil => exact hne rfl
        | cons a s' =>
          rw [List.length_cons] at hfind
          unfold nextTok at hfind
          simp only [hscan] at hfind
          cases hfind
      · rw [← h]; exact hc'.behind _
      · rw [← h]; exact htok
      · rw [← h]; exact hstray
    | tok tk c' rest c'' =>
      rw [hl] at hs
      obtain ⟨p, t, rfl, hp, hc', hc'', htext, htlt, htk, hscan, hmem, hi⟩ := hs
      simp only [LexAt.erase]
      have hline : c'.line = 1 + countNL (pre ++ p) := by rw [hc'.line]; rfl
      have htil : Tiling 1 (pre ++ p) w := by simpa using hpre.cat hp.tiling
      have hxne := htext.ne_nil htlt
      cases hf : feed (feedFuel stk) stk tk with
      | accept t => exact ⟨rfl, by simp, by simp⟩
      | stuck => exact ⟨rfl, by simp, by simp⟩
      | fuel => exact ⟨rfl, by simp, by simp⟩
      | shifted stk' =>
        simp only
        have hend : tk.endLine = c''.line := by
          rw [htk, hc''.line, hc'.line]
          simp [lineAt, countNL]; omega
        have htil' : Tiling 1 (pre ++ p ++ tk.text) (w ++ [tk]) := by
          refine htil.cat ?_
          rw [← hline]
          have : Tiling c'.line (tk.text ++ []) [⟨tk.type, tk.text, c'.line, c'.line + countNL tk.text⟩] :=
            .tok htext htlt .nil
          rw [List.append_nil] at this
          have e : tk = ⟨tk.type, tk.text, c'.line, c'.line + countNL tk.text⟩ := by
            conv_lhs => rw [htk]
            conv_rhs => rw [htk]
          rw [e]; exact this
        have hpos := List.length_pos_iff.mpr hxne
        obtain ⟨g1, g2, g3⟩ := ih stk' rest c'' c' (w ++ [tk]) (pre ++ p ++ tk.text) (.snoc hfed hf)
          (by simp at hn; omega) hc'' htil' (.inr ⟨w, tk, pre ++ p, rfl, rfl, htil, hc'⟩)
        refine ⟨by rw [hend]; exact g1, g2, fun e h => ?_⟩
        simpa using g3 e h
      | unexpected =>
        refine ⟨rfl, by simp, fun e h => ?_⟩
        simp only [RunRes.err.injEq] at h
        have hnext : ∀ l, nextTok (accepts (topState stk)) (tk.text ++ rest).length (tk.text ++ rest) l =
            .tok ⟨tk.type, tk.text, l, l + countNL tk.text⟩ rest := by
          intro l
          rw [nextTok_scan hxne hscan, hi]
          simp only [Bool.false_eq_true, if_false]
          rw [show tk.type = retype (accepts (topState stk)) t tk.text by conv_lhs => rw [htk]]
        refine .here (pre ++ p) (tk.text ++ rest) w (by simp) htil hbeg (by simp [hxne]) ?_ ?_ ?_ ?_ (by rw [← h]; simp)
        · intro x y hg e
          have h1 := hg.skips (topState stk) 0
          rw [← e, hnext] at h1
          obtain ⟨q, z, hz, _, _, _, hzz⟩ := (nextTok_sound hacc y.length y _).2 _ _ h1.symm
          have hz' : tk.text = z := by
            have := congrArg Tok.text hzz; simpa using this
          rw [hz, ← hz'] at e
          have := congrArg List.length e
          have := List.length_pos_iff.mpr hg.ne_nil
          simp at *; omega
        · intro t' x y l l' v q e hfit hcl hv hq
          obtain ⟨ht1, _⟩ := hfit.lt
          have hfol := hfed.follows (u := ⟨t', x, l, l'⟩) hcl (by simpa using ⟨ht1, hv⟩) hq
          have hfind := hfit.finds hlt hfed.prev hple (by simpa [acts] using hfol.1) 0
          rw [← e, hnext] at hfind
          simp only [LexRes.tok.injEq, Tok.mk.injEq] at hfind
          exact hfol.2 tk hfind.1.1 hf
        · rw [← h]; exact hc'.behind _
        · rw [← h]
          intro t' x e
          simp only [Option.some.injEq, Prod.mk.injEq] at e
          obtain ⟨rfl, rfl⟩ := e
          exact ⟨htlt, htext, List.prefix_append _ _⟩

end Pycep
