import Verif.Proofs.LineStart
/-
C89: what a line can begin with.
-/
namespace Pycep

/-- **C89, all texts.** In an accepted text, the token behind a line break (or behind the line ends that
follow a `//` comment) does not begin with an operator: it may begin with `/` only as a comment. -/
theorem C89_lines {P : Parser} {text path v} (h : P.parse text path = .ok v) :
    ∃ t p w, chosenText text path = .ok t ∧ Spells t p ∧ ExactTiling 1 t.toList w ∧ ProgSyn p w tEND ∧
      Program.val P.addLineNumbers p = .ok v ∧ ∀ x u u' y, w = x ++ u :: u' :: y → u.type = T._NEWLINE ∨ u.type = T._CPP_COMMENT_NL →
        ∀ c, u'.text.head? = some c → c ∈ infixChars → ['/', '/'] <+: u'.text := by
  rw [parse_eq] at h
  rcases createTree'_cases text path with ⟨e, h1, h2⟩ | ⟨t, m, h1, h2, h3, h4⟩ | ⟨t, h1, h2, _, h3⟩ |
    ⟨t, tree, _, h1, h2, h3, _, _, h5⟩
  · rw [h2] at h; cases h
  · rw [h3] at h; cases h
  · rw [h3] at h; cases h
  · obtain ⟨p, w, h6, h7, h8, h9, h10⟩ := larkParse_adjacent_syn h3
    refine ⟨t, p, w, h1, h10, h6, h8, ?_, fun x u u' y e hu c hc hm => ?_⟩
    · rw [h5] at h
      simp only [Except.bind, bicepToJson_program h9] at h
      unfold liftV at h
      split at h <;> simp_all
    subst e
    have h11 : ∀ {x p}, Adjacent p (x ++ u :: u' :: y) → Follows u.type u'.type := by
      intro x
      induction x with
      | nil => intro p h; cases h with | cons _ h => cases h with | cons h _ => exact h
      | cons _ x ih => intro p h; cases h with | cons _ h => exact ih h
    have ht := h6.tiling.tokText u' (by simp)
    exact break_infix (by rcases hu with h | h <;> rw [h] <;> rfl) (h11 h7) ht.2 ht.1 hc hm

/-! ### The first line break in front of an operator -/

/-- behind a line break: blanks, then an operator -/
theorem Tiling.no_operator {l s w} (h : Tiling l s w) : ∀ {p b c r}, breakType p = true → Adjacent p w →
    (∀ d ∈ b, d = ' ' ∨ d = '\t') → c ∈ infixChars → (c = '/' → r.head? ≠ some '/' ∧ r.head? ≠ some '*') →
    s ≠ b ++ c :: r := by
  have opc : ∀ {c}, c ∈ infixChars → c ≠ ' ' ∧ c ≠ '\t' ∧ c ≠ '#' := by
    intro c hc
    have hall : infixChars.all (fun c => c != ' ' && c != '\t' && c != '#') = true := by decide +kernel
    have := List.all_eq_true.mp hall c hc
    simpa [and_assoc] using this
  induction h with
  | nil => intro p b c r _ _ _ _ _ e; simp at e
  | @skip l x s w hx _ ih =>
    intro p b c r hp ha hb hc hr e
    rcases cut_cases e with ⟨b', rfl, rfl⟩ | ⟨x', rfl, rfl⟩
    · exact ih hp ha (fun d hd => hb d (List.mem_append_right _ hd)) hc hr rfl
    · generalize e' : b ++ c :: x' = z at hx
      cases hx with
      | ws _ h =>
        rcases h c (by rw [← e']; simp) with h | h
        · exact (opc hc).1 h
        · exact (opc hc).2.1 h
      | sh _ =>
        cases b with
        | nil => exact (opc hc).2.2 (List.cons.inj e').1
        | cons d b =>
          have := (List.cons.inj e').1
          subst this
          exact absurd (hb '#' (by simp)) (by decide)
      | c y =>
        cases b with
        | nil =>
          have h1 : c = '/' := (List.cons.inj e').1
          have h2 : x' = '*' :: (y ++ ['*', '/']) := (List.cons.inj e').2
          rw [h2] at hr
          exact (hr h1).2 rfl
        | cons d b =>
          have := (List.cons.inj e').1
          subst this
          exact absurd (hb '/' (by simp)) (by decide)
  | @tok l x s w t h1 h2 _ ih =>
    intro p b c r hp ha hb hc hr e
    cases ha with
    | cons hf _ =>
      cases b with
      | nil =>
        obtain ⟨d, x', rfl, _⟩ := h1.start
        have e1 : d = c := (List.cons.inj e).1
        have e2 : x' ++ s = r := (List.cons.inj e).2
        subst e1
        obtain ⟨y, hy⟩ := break_infix hp hf h1 h2 rfl hc
        have e3 : '/' = d := (List.cons.inj hy).1
        have e4 : '/' :: y = x' := (List.cons.inj hy).2
        rw [← e2, ← e4] at hr
        exact (hr e3.symm).1 rfl
      | cons d b =>
        obtain ⟨d', x', rfl, _⟩ := h1.start
        have e1 : d' = d := (List.cons.inj e).1
        subst e1
        have := h1.not_blank h2
        rcases hb d' (by simp) with rfl | rfl
        · exact this.1 rfl
        · exact this.2 rfl

theorem newline_token {t x} (h : TokText t x) (ht : t < tEND) (ho : ¬ Opens x) (hn : '\n' ∈ x) :
    breakType t = true ∧ IsNewlines x := by
  have na : isAsciiAlnum '\n' ≠ true := by decide
  have np : ∀ {p : List Char}, (p = [] ∨ p = "sys.".toList ∨ p = "az.".toList) → '\n' ∉ p := by
    rintro p (rfl | rfl | rfl) <;> decide
  have check : (List.range tEND).all (fun t => match (term? t).bind (·.strVal) with
    | some s => !s.toList.contains '\n'
    | .none => true) = true := by decide +kernel
  unfold TokText at h
  split at h
  · exact absurd (alpha_alnum (h.2 _ hn)) na
  · obtain ⟨p, n, rfl, hp, _, hc⟩ := h
    simp only [List.mem_append, List.mem_singleton] at hn
    rcases hn with (hn | hn) | hn
    · exact absurd hn (np hp)
    · exact absurd (hc _ hn) na
    · cases hn
  · obtain ⟨b, rfl⟩ := h; exact absurd trivial ho
  · obtain ⟨b, rfl⟩ := h; exact absurd trivial ho
  · exact absurd (IsIdentText.word h _ hn) (by decide)
  · rcases h with h | ⟨b, n, rfl, hb, hn⟩
    · exact ⟨rfl, h⟩
    · exact absurd trivial ho
  · obtain ⟨b, rfl, _⟩ := h; exact absurd trivial ho
  · obtain ⟨p, n, rfl, hp, _, hc⟩ := h
    rcases List.mem_append.mp hn with hn | hn
    · exact absurd hn (np (hp.imp_right .inl))
    · exact absurd (hc _ hn) na
  · exact ⟨rfl, h⟩
  · exact absurd (digit_alnum (h.2 _ hn)) na
  · rw [show x = ['*'] from h] at hn; simp at hn
  · obtain ⟨d, s, h1, h2, rfl⟩ := h
    have := List.all_eq_true.mp check t (List.mem_range.mpr ht)
    simp only [h1, Option.bind_some, h2, Bool.not_eq_true'] at this
    rw [← Bool.not_eq_true, List.contains_iff_mem] at this
    exact absurd hn this

theorem Tiling.no_line {l s w} (h : Tiling l s w) : ∀ {p a b c r}, Adjacent p w → Quiet a →
    (∀ d ∈ b, d = ' ' ∨ d = '\t') → c ∈ infixChars → (c = '/' → r.head? ≠ some '/' ∧ r.head? ≠ some '*') →
    s ≠ a ++ '\n' :: (b ++ c :: r) := by
  have opn : ∀ {a x : List Char}, Quiet a → ¬ Opens (a ++ '\n' :: x) := fun ha =>
    ha.not_opens' fun {c y} e => by
      have : '\n' = c := (List.cons.inj e).1
      subst this
      decide
  induction h with
  | nil => intro p a b c r _ _ _ _ _ e; simp at e
  | @skip l x s w hx _ ih =>
    intro p a b c r had ha hb hc hr e
    rcases cut_cases e with ⟨a', rfl, rfl⟩ | ⟨x', rfl, _⟩
    · exact ih had ha.drop hb hc hr rfl
    · have ho := opn (x := x') ha
      generalize e' : a ++ '\n' :: x' = z at hx ho
      cases hx with
      | ws _ h => exact absurd (h '\n' (by rw [← e']; simp)) (by decide)
      | sh _ => exact ho trivial
      | c y => exact ho trivial
  | @tok l x s w t h1 h2 hw ih =>
    intro p a b c r had ha hb hc hr e
    cases had with
    | cons hf had =>
      rcases cut_cases e with ⟨a', rfl, rfl⟩ | ⟨x', rfl, hx'⟩
      · exact ih had ha.drop hb hc hr rfl
      · obtain ⟨hbr, hnl⟩ := newline_token h1 h2 (opn ha) (by simp)
        have hx0 : x' = [] := by
          cases x' with
          | nil => rfl
          | cons d x' =>
            have hd := hnl.chars d (by simp)
            cases b with
            | nil =>
              have e1 : c = d := (List.cons.inj hx').1
              subst e1
              rcases hd with rfl | rfl <;> exact absurd hc (by decide +kernel)
            | cons d' b =>
              have e1 : d' = d := (List.cons.inj hx').1
              subst e1
              rcases hb d' (by simp) with h | h <;> rcases hd with h' | h' <;> rw [h] at h' <;> cases h'
        subst hx0
        exact hw.no_operator hbr had hb hc hr (by simpa using hx'.symm)

/-- **C89, a line that begins with an operator.** If, with no string or comment in front, a line begins with
one of the characters `=:?.+*/%&|<>` that does not begin a comment, then the text is rejected whatever
follows, and the error is reported there or before: no expression can be continued in this way. -/
theorem C89_rejected (P : Parser) {text path t a b c r} (ht : chosenText text path = .ok t)
    (he : t.toList = a ++ '\n' :: (b ++ c :: r)) (ha : Quiet a) (hb : ∀ d ∈ b, d = ' ' ∨ d = '\t')
    (hc : c ∈ infixChars) (hr : c = '/' → r.head? ≠ some '/' ∧ r.head? ≠ some '*') :
    (∀ v, P.parse text path ≠ .ok v) ∧
    (isValid t = true → P.parse text path = .error .unexpectedInput ∧
      P.createTree text path = .error .unexpectedInput ∧
      ∃ e, larkRun t = .err e ∧ e.pos ≤ a.length + 1 + b.length) := by
  have nt : ∀ tr, larkParse t ≠ .ok tr := fun tr htr => by
    obtain ⟨w, hw, had⟩ := larkParse_adjacent htr
    exact hw.tiling.no_line had ha hb hc hr he
  refine ⟨(not_parsed ht nt).1, fun hv => ?_⟩
  obtain ⟨g1, g2, e, h1, _⟩ := rejected (P := P) ht hv nt
  refine ⟨g1, g2, e, h1, ?_⟩
  obtain ⟨w, had, h2 | ⟨pre, rest, hs, hp, hpos⟩⟩ := larkRun_adjacent h1
  · exact absurd he (h2.no_line had ha hb hc hr)
  · rw [hpos]
    apply Classical.byContradiction
    intro hn
    rw [he, show a ++ '\n' :: (b ++ c :: r) = (a ++ '\n' :: b) ++ c :: r by simp] at hs
    rcases cut_cases hs.symm with ⟨a', h, _⟩ | ⟨x', h, h'⟩
    · have := congrArg List.length h
      simp at this
      omega
    · refine hp.no_line had ha hb hc (r := x') (fun h0 => ?_) (by rw [h]; simp)
      have := hr h0
      rw [h'] at this
      cases x' with
      | nil => simp
      | cons d x' => exact this

/-! ### Examples -/

/-- a conditional expression over several lines, as bicep allows it, is rejected -/
example : Parser.parse ⟨false⟩ (some "var x = c\n  ? 1\n  : 2\n") .none = .error .unexpectedInput ∧
    Parser.createTree ⟨false⟩ (some "var x = c\n  ? 1\n  : 2\n") .none = .error .unexpectedInput ∧
    ∃ e, larkRun "var x = c\n  ? 1\n  : 2\n" = .err e ∧ e.pos ≤ 12 :=
  (C89_rejected ⟨false⟩ (a := "var x = c".toList) (b := "  ".toList) (c := '?') (r := " 1\n  : 2\n".toList) rfl
    (by decide +kernel) (by unfold Quiet; decide +kernel) (by decide +kernel) (by decide +kernel) (by decide)).2
    (by decide +kernel)

/-- behind the operator there may be a line break -/
example : ∃ v, Parser.parse ⟨false⟩ (some "var x = 1 +\n  2\n") .none = .ok v :=
  ⟨_, eq_of_outIs (v := .dict [("globals", .dict [("scope", .dict [("value", .str "resourceGroup")])]),
      ("variables", .dict [("x", .dict [("decorators", .list []), ("value", .dict [("operator",
        .dict [("type", .str "add"), ("operands", .dict [("operand_1", .int 1), ("operand_2", .int 2)])])])])])])
    (by decide +kernel)⟩

end Pycep
