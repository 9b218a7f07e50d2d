import Verif.Spec.Idle
import Verif.Props.Join
/-
C84: what stands behind the last declaration does not matter.
-/
namespace Pycep

/-! ### The tokens of idle text -/

theorem Idle.layout {s} (h : Idle s) : ∀ l, ∃ w, (∀ q, Layout q s l w) ∧ ∀ u ∈ w, u.type = T._CPP_COMMENT_NL := by
  induction h with
  | nil => exact fun l => ⟨[], fun _ => .nil, by simp⟩
  | @gap x s hg _ ih =>
    intro l
    obtain ⟨w, h1, h2⟩ := ih (l + countNL x)
    exact ⟨w, fun q => .gap hg (h1 q), h2⟩
  | @line x s hx hb _ ih =>
    intro l
    obtain ⟨w, h1, h2⟩ := ih (l + countNL x)
    refine ⟨⟨T._CPP_COMMENT_NL, x, l, l + countNL x⟩ :: w, fun q => .tok (.lineEnd hx hb) (h1 _), ?_⟩
    intro u hu
    rcases List.mem_cons.mp hu with rfl | hu
    · rfl
    · exact h2 u hu

/-- Line ends behind a program belong to it. -/
theorem ProgSyn.breaks {p w v} (h : ProgSyn p w tEND) (hv : ∀ u ∈ v, u.type = T._CPP_COMMENT_NL) :
    ProgSyn p (w ++ v) tEND := by
  induction v using List.reverseRecOn with
  | nil => simpa using h
  | append_singleton v u ih =>
    have hu := hv u (by simp)
    have h1 := ih (fun x hx => hv x (by simp [hx]))
    rw [← List.append_assoc]
    have hn := starts_noInfix T._CPP_COMMENT_NL (by decide)
    exact .nl (hu ▸ h1.follow hn.1 hn.2) hu

/-! ### Layout in front of a line end -/

theorem fixed_cr : ∀ t ∈ keywordIds ++ opIds1 ++ opIds2, fixedChars t ≠ ['\r'] := by decide +kernel

theorem Fits.cr {p t s} : ¬ Fits p t ['\r'] s := by
  intro h
  generalize hx : (['\r'] : List Char) = x at h
  cases h with
  | ident h1 =>
    obtain ⟨c, cs, rfl, hc, _⟩ := h1
    simp only [List.cons.injEq] at hx
    rw [← hx.1] at hc
    exact absurd hc (by decide)
  | keyword h1 => exact fixed_cr _ (by simp [h1]) hx.symm
  | op1 h1 => exact fixed_cr _ (by simp [h1]) hx.symm
  | op2 h1 => exact fixed_cr _ (by simp [h1]) hx.symm
  | importAll => simp at hx
  | function h1 =>
    obtain ⟨p, n, rfl, _⟩ := h1
    have := congrArg List.getLast? hx
    simp at this
  | listFunction _ _ h => subst hx; exact absurd (h '\r' (by simp)) (by decide)
  | int _ h => subst hx; exact absurd (h '\r' (by simp)) (by decide)
  | decorator h1 =>
    obtain ⟨p, n, hp, _, hn, h⟩ := h1
    have h2 : n = ['\r'] := by
      have hl := congrArg List.length (hx.trans hp)
      have hne := List.length_pos_iff.mpr hn
      simp only [List.length_append, List.length_cons, List.length_nil] at hl
      have : p = [] := List.length_eq_zero_iff.mp (by omega)
      rw [this] at hp
      simpa using (hx.trans hp).symm
    exact absurd (h '\r' (by simp [h2])) (by decide)
  | lineEnd h1 =>
    rcases h1 with h1 | ⟨c, n, h1, _⟩
    · subst hx; cases h1
    · subst hx; simp at h1
  | lineBreak _ h1 => subst hx; cases h1
  | quoted => simp at hx
  | multiLine => simp at hx

theorem Layout.cr {p l w} : ¬ Layout p ['\r'] l w := by
  intro h
  generalize hx : (['\r'] : List Char) = s at h
  cases h with
  | nil => simp at hx
  | gap h _ => cases h <;> simp at hx
  | tok h _ =>
    have hne := h.lt.2
    rename_i x s _ _
    cases x with
    | nil => exact hne rfl
    | cons c x =>
      simp only [List.cons_append, List.cons.injEq] at hx
      obtain ⟨rfl, hx⟩ := hx
      obtain ⟨rfl, rfl⟩ := List.append_eq_nil_iff.mp hx.symm
      exact h.cr

theorem noBreak_tail {s r : List Char} (h : NoBreak s) (hn : s ≠ []) (hc : s ≠ ['\r']) : NoBreak (s ++ '\n' :: r) := by
  refine ⟨fun h' => h.1 ?_, fun h' => h.2 ?_⟩
  · cases s with
    | nil => exact absurd rfl hn
    | cons c s =>
      rw [List.cons_append, List.cons_prefix_cons] at h'
      rw [List.cons_prefix_cons]
      exact ⟨h'.1, List.nil_prefix⟩
  · match s with
    | [] => exact absurd rfl hn
    | [c] =>
      rw [List.singleton_append, List.cons_prefix_cons] at h'
      exact absurd (by rw [← h'.1]) hc
    | c :: d :: s =>
      simp only [List.cons_append, List.cons_prefix_cons] at h' ⊢
      exact ⟨h'.1, h'.2.1, List.nil_prefix⟩

/-- A token is one if a line end follows the text. -/
theorem Fits.tail {p t x s r} (h : Fits p t x s) (hl : (x ++ s).getLast? ≠ some '\n') (hc : s ≠ ['\r']) :
    Fits p t x (s ++ '\n' :: r) := by
  have hh : ∀ {c : Char}, c ≠ '\n' → s.head? ≠ some c → (s ++ '\n' :: r).head? ≠ some c :=
    fun hc h h' => h (head_more hc h')
  have hlc : ∀ x : List Char, ListCall (x ++ (s ++ '\n' :: r)) ↔ ListCall (x ++ s) := by
    intro x
    rw [← List.append_assoc, listCall_more]
  have hne : IsNewlines x ∨ IsCommentNewlines x → s ≠ [] := by
    intro hx hs
    rw [hs, List.append_nil] at hl
    rcases hx with hx | hx | ⟨c, n, rfl, _, hx⟩
    · exact hl (newlines_ends hx)
    · exact hl (newlines_ends hx)
    · rw [List.getLast?_append, newlines_ends hx] at hl
      exact hl rfl
  cases h with
  | ident h1 h2 h3 h4 h5 h6 =>
    exact .ident h1 (h2.more (by decide)) (hh (by decide) h3) (fun h => hh (by decide) (h4 h)) h5
      (fun h => by rw [hlc]; exact h6 h)
  | keyword h1 h2 h3 => exact .keyword h1 (h2.more (by decide)) (fun h => h3 (head_more (by decide) h))
  | op1 h1 h2 =>
    refine .op1 h1 (fun y hy h => h2 y hy ?_)
    rw [← List.append_assoc] at h
    exact prefix_break h (pairs_noNL y hy)
  | op2 h1 => exact .op2 h1
  | importAll => exact .importAll
  | function h1 h2 => exact .function h1 (fun h => by rw [hlc]; exact h2 h)
  | listFunction h1 h2 h3 h4 => exact .listFunction ((hlc _).mpr h1) h2 h3 (h4.more (by decide))
  | int h1 h2 h3 h4 => exact .int h1 h2 (h3.more (by decide)) (hh (by decide) h4)
  | decorator h1 h2 h3 => exact .decorator h1 (h2.more (by decide)) (hh (by decide) h3)
  | lineEnd h1 h2 => exact .lineEnd h1 (noBreak_tail h2 (hne (.inr h1)) hc)
  | lineBreak h1 h2 h3 => exact .lineBreak h1 h2 (noBreak_tail h3 (hne (.inl h2)) hc)
  | @quoted b y _ h1 h2 h3 =>
    refine .quoted h1 h2 ?_
    have e : '\'' :: y ++ '\'' :: (s ++ '\n' :: r) = ('\'' :: y ++ '\'' :: s) ++ '\n' :: r := by simp
    unfold NoTriple at h3 ⊢
    rw [e, take_break]
    exact h3
  | multiLine h1 => exact .multiLine h1

theorem Gap.tail {x s r} (h : Gap x s) : Gap x (s ++ '\n' :: r) := by
  cases h with
  | blank => exact .blank
  | tab => exact .tab
  | hash h1 h2 =>
    refine .hash h1 (.inr ?_)
    rcases h2 with rfl | h2
    · rfl
    · cases s with
      | nil => rfl
      | cons c s => simpa using h2
  | comment h => exact .comment h

theorem last_rest {x s : List Char} (h : (x ++ s).getLast? ≠ some '\n') : s.getLast? ≠ some '\n' := by
  intro h'
  rw [List.getLast?_append, h'] at h
  exact h rfl

theorem Layout.tail {p s l w1 r w2} (h1 : Layout p s l w1) (hl : s.getLast? ≠ some '\n')
    (h2 : ∀ q, Layout q ('\n' :: r) (l + countNL s) w2) : Layout p (s ++ '\n' :: r) l (w1 ++ w2) := by
  induction h1 with
  | nil => simpa [countNL] using h2 _
  | gap hg _ ih =>
    rw [List.append_assoc]
    exact .gap hg.tail (ih (last_rest hl) (fun q => by rw [Nat.add_assoc, ← countNL_append]; exact h2 q))
  | tok hf hr ih =>
    rw [List.append_assoc, List.cons_append]
    exact .tok (hf.tail hl (fun h => Layout.cr (h ▸ hr)))
      (ih (last_rest hl) (fun q => by rw [Nat.add_assoc, ← countNL_append]; exact h2 q))

/-- Idle text behind a clear text that does not end a line. -/
theorem Writes.tail {t s : String} {p : Program} (h : Writes t p) (hl : t.toList.getLast? ≠ some '\n')
    (hs : Idle s.toList) (hn : s.toList.head? = some '\n') : Writes (t ++ s) p := by
  obtain ⟨w, h1, h2⟩ := h
  obtain ⟨v, h3, h4⟩ := hs.layout (1 + countNL t.toList)
  refine ⟨w ++ v, ?_, h2.breaks h4⟩
  rw [String.toList_append]
  obtain ⟨r, hr⟩ : ∃ r, s.toList = '\n' :: r := by
    cases e : s.toList with
    | nil => rw [e] at hn; simp at hn
    | cons c r => rw [e] at hn; simp at hn; exact ⟨r, by rw [hn]⟩
  rw [hr] at h3 ⊢
  exact h1.tail hl h3

/-- Idle text behind a clear text that ends a line. -/
theorem Writes.more {t s : String} {p : Program} (h : Writes t p) (he : EndsLine t.toList)
    (hs : Idle s.toList) (hb : NoBreak s.toList) : Writes (t ++ s) p := by
  obtain ⟨w, h1, h2⟩ := h
  obtain ⟨v, h3, h4⟩ := hs.layout (1 + countNL t.toList)
  refine ⟨w ++ v, ?_, h2.breaks h4⟩
  rw [String.toList_append]
  exact h1.append he hb h3

/-! ### Triple quotes -/

theorem occ_tail {x y : List Char} {n m : Nat} (hx : Occ x n) (hy : Occ ('\n' :: y) m) : Occ (x ++ '\n' :: y) (n + m) := by
  induction hx with
  | nil => simpa using hy
  | @hit x n _ ih =>
    rw [Nat.add_right_comm]
    exact .hit ih
  | @miss c x n hm _ ih =>
    refine .miss (fun z hz => ?_) ih
    obtain ⟨z', hz'⟩ := prefix_break (y := ['\'', '\'', '\'']) (s := c :: x) (r := y) ⟨z, hz.symm⟩ (by decide)
    exact hm z' hz'.symm

theorem isValid_tail {t s : String} (hn : s.toList.head? = some '\n') (h : isValid t = true) :
    isValid (t ++ s) = isValid s := by
  obtain ⟨n, ht⟩ := occ_exists t.toList
  obtain ⟨m, hs⟩ := occ_exists s.toList
  have : Occ (t ++ s).toList (n + m) := by
    rw [String.toList_append]
    cases e : s.toList with
    | nil => rw [e] at hn; simp at hn
    | cons c r =>
      rw [e] at hn hs
      simp at hn
      subst hn
      exact occ_tail ht hs
  rw [isValid_iff ht] at h
  rw [isValid_iff this, isValid_iff hs]
  simp only [beq_iff_eq] at h
  rw [Nat.add_mod, h, Nat.zero_add, Nat.mod_mod]

/-! ### The properties -/

/-- **C84.**  Behind a clearly written text `t` that does not end its last line, line ends, blanks and
comments make no difference to the outcome of `parse`: same result with the same line numbers, or same error.
(Occurrences of `'''` in these comments count, C02; so their number has to be even.) -/
theorem C84_behind (P : Parser) {x q x' q'} {t s : String} {p : Program} (hw : Writes t p) (hc : p.clear = true)
    (h : chosenText x q = .ok t) (h' : chosenText x' q' = .ok (t ++ s)) {n m : Nat} (ht : Occ t.toList n)
    (hn : n % 2 = 0) (hs : Occ s.toList m) (hm : m % 2 = 0) (hi : Idle s.toList)
    (hl : (t.toList.getLast? ≠ some '\n' ∧ s.toList.head? = some '\n') ∨ (EndsLine t.toList ∧ NoBreak s.toList)) :
    P.parse x' q' = P.parse x q := by
  have hv : isValid t = true := by rw [isValid_iff ht, hn]; rfl
  have hvs : isValid s = true := by rw [isValid_iff hs, hm]; rfl
  rcases hl with ⟨h1, h2⟩ | ⟨h1, h2⟩
  · rw [parse_writes P h hv hw hc, parse_writes P h' (by rw [isValid_tail h2 hv, hvs]) (hw.tail h1 hi h2) hc]
  · rw [parse_writes P h hv hw hc, parse_writes P h' (by rw [isValid_append h1 hv, hvs]) (hw.more h1 hi h2) hc]

/-- **C84, the line break at the end of the last line.** It may be there or not. -/
theorem C84_last_line (P : Parser) {t : String} {p : Program} (hw : Writes t p) (hc : p.clear = true) (hne : t ≠ "")
    (hl : t.toList.getLast? ≠ some '\n') {n : Nat} (ht : Occ t.toList n) (hn : n % 2 = 0) :
    P.parse (some (t ++ "\n")) .none = P.parse (some t) .none := by
  have hch : ∀ x : String, x ≠ "" → chosenText (some x) .none = .ok x := by
    intro x hx
    unfold chosenText
    split <;> simp_all
  refine C84_behind P hw hc (hch t hne) (hch _ ?_) ht hn (m := 0) (.miss (by intro y h; cases h) .nil) rfl
    (.line (x := ['\n']) (s := []) (.inl .lf) ⟨by decide, by decide⟩ .nil) (.inl ⟨hl, rfl⟩)
  intro h
  have := congrArg String.toList h
  rw [String.toList_append] at this
  simp at this

/-! Examples. -/

/-- A text the theorems apply to. -/
theorem exTail_writes : ∃ p : Program, Writes "var x=1" p ∧ p.clear = true := by
  have hx : IsIdentText ['x'] := ⟨'x', [], rfl, by decide, by decide⟩
  have hi : (['1'] : List Char) ≠ [] ∧ ∀ c ∈ ['1'], isAsciiDigit c = true := by decide
  refine ⟨[((1, 1), .var [] ⟨['x'], hx⟩ .none (.expr (.int ⟨['1'], hi⟩)))],
    ⟨[⟨T.VAR, ['v', 'a', 'r'], 1, 1⟩, ⟨T.STRING, ['x'], 1, 1⟩, ⟨T.EQUAL, ['='], 1, 1⟩, ⟨T.INT, ['1'], 1, 1⟩],
      ?_, ?_⟩, rfl⟩
  · refine .tok (t := T.VAR) (x := ['v', 'a', 'r']) ?_ (.gap (x := [' ']) .blank (.tok (t := T.STRING) (x := ['x']) ?_
      (.tok (t := T.EQUAL) (x := ['=']) ?_ (.tok (t := T.INT) (x := ['1']) (s := []) ?_ .nil))))
    · exact Fits.keyword (k := T.VAR) (by decide) (by intro c cs h; cases h; decide) (by decide)
    · refine .ident hx (by intro c cs h; cases h; decide) (by decide) (by decide) ?_ (fun h => absurd h (by decide))
      have : ∀ k ∈ keywordIds, ['x'] ≠ fixedChars k := by decide +kernel
      exact fun k hk he => absurd he (this k hk)
    · exact Fits.op1 (t := T.EQUAL) (by decide) (by decide +kernel)
    · exact .int (by decide) (by decide) (by intro c cs h; cases h) (by decide)
  · have hv : Kw "var" ⟨T.VAR, ['v', 'a', 'r'], 1, 1⟩ := ⟨by decide +kernel, rfl⟩
    have he : Kw "=" ⟨T.EQUAL, ['='], 1, 1⟩ := ⟨by decide +kernel, rfl⟩
    have hn := starts_noInfix tEND (by decide)
    have h1 : ESyn false (.int ⟨['1'], hi⟩) ([] ++ [⟨T.INT, ['1'], 1, 1⟩]) tEND := .int (.inl rfl) ⟨rfl, rfl⟩
    have h2 : DeclSyn (.var [] ⟨['x'], hx⟩ .none (.expr (.int ⟨['1'], hi⟩)))
        ([] ++ (⟨T.VAR, ['v', 'a', 'r'], 1, 1⟩ :: ⟨T.STRING, ['x'], 1, 1⟩ :: ([] ++ (⟨T.EQUAL, ['='], 1, 1⟩ ::
          ([] ++ [⟨T.INT, ['1'], 1, 1⟩]))))) tEND :=
      .var .nil hv ⟨rfl, rfl⟩ .no he (.expr (.plain h1 hn.2) hn.1)
    exact ProgSyn.decl (p := []) (w1 := []) .nil h2 (l := (1, 1)) ⟨_, _, rfl, rfl, rfl⟩

/-- The text with and without a line break and comments behind it, as the theorem says. -/
example : (∃ p : Program, Writes "var x=1" p ∧ p.clear = true) ∧ Idle "\n // a\n\n# b".toList ∧
    (Parser.mk true).parse (some "var x=1") .none =
      .ok (.dict [("globals", .dict [("scope", .dict [("value", .str "resourceGroup"), ("__start_line__", .int 0),
          ("__end_line__", .int 0)])]),
        ("variables", .dict [("x", .dict [("decorators", .list []), ("value", .int 1), ("__start_line__", .int 1),
          ("__end_line__", .int 1)])])]) ∧
    (Parser.mk true).parse (some "var x=1\n // a\n\n# b") .none =
      (Parser.mk true).parse (some "var x=1") .none := by
  have hid : Idle "\n // a\n\n# b".toList := by
    refine .line (x := ['\n']) (s := " // a\n\n# b".toList) (.inl .lf) ⟨by decide, by decide⟩ ?_
    refine .gap (x := [' ']) (s := "// a\n\n# b".toList) .blank ?_
    refine .line (x := "// a\n\n".toList) (s := "# b".toList)
      (.inr ⟨" a".toList, "\n\n".toList, by decide, by decide, .consLf .lf⟩) ⟨by decide, by decide⟩ ?_
    exact .gap (x := "# b".toList) (s := []) (.hash (x := " b".toList) (by decide) (.inl rfl)) .nil
  obtain ⟨p, h, c⟩ := exTail_writes
  refine ⟨⟨p, h, c⟩, hid, eq_of_outIs (by decide +kernel), ?_⟩
  have occ : ∀ l : List Char, '\'' ∉ l → Occ l 0 := by
    intro l
    induction l with
    | nil => exact fun _ => .nil
    | cons d l ih =>
      intro hd
      refine .miss (fun y hy => hd ?_) (ih (fun h => hd (List.mem_cons_of_mem _ h)))
      rw [hy]; exact List.mem_cons_self
  exact C84_behind _ h c (q := .none) (q' := .none) rfl rfl (occ _ (by decide)) rfl (occ _ (by decide)) rfl hid
    (.inl ⟨by decide, by decide⟩)

/-- A `//` comment in the last line needs its line break. -/
example : (Parser.mk false).parse (some "var x=1 // a") .none = .error .unexpectedInput ∧
    (∃ v, (Parser.mk false).parse (some "var x=1 // a\n") .none = .ok v) :=
  ⟨eq_of_errIs (by decide +kernel), _, eq_of_outIs (v := .dict [("globals", .dict [("scope", .dict
    [("value", .str "resourceGroup")])]), ("variables", .dict [("x", .dict [("decorators", .list []), ("value", .int 1)])])])
    (by decide +kernel)⟩

/-- The hypothesis that the text is clear is needed.  This text is accepted, as a division with a comment in front
of the divisor; with a line break behind it everything from the stroke on is a comment. -/
example : (Parser.mk false).parse (some "var x=a//**/b") .none =
      .ok (.dict [("globals", .dict [("scope", .dict [("value", .str "resourceGroup")])]),
        ("variables", .dict [("x", .dict [("decorators", .list []), ("value", .dict [("operator", .dict
          [("type", .str "divide"), ("operands", .dict [("operand_1", .elem "a"), ("operand_2", .elem "b")])])])])])]) ∧
    (Parser.mk false).parse (some "var x=a//**/b\n") .none =
      .ok (.dict [("globals", .dict [("scope", .dict [("value", .str "resourceGroup")])]),
        ("variables", .dict [("x", .dict [("decorators", .list []), ("value", .elem "a")])])]) :=
  ⟨eq_of_outIs (by decide +kernel), eq_of_outIs (by decide +kernel)⟩

end Pycep
