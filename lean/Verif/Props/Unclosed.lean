import Verif.Proofs.Adjacent
import Verif.Props.Extents
/-
C87: strings and comments that are not closed.
-/
namespace Pycep

/-! ### Strings -/

theorem occ_one_quote {a r : List Char} (ha : '\'' ∉ a) (hr : '\'' ∉ r) : Occ (a ++ '\'' :: r) 0 := by
  induction a with
  | nil =>
    refine .miss (fun y e => ?_) (occ_no_quote hr)
    simp only [List.cons.injEq, true_and] at e
    rw [e] at hr
    simp at hr
  | cons c a ih =>
    simp only [List.mem_cons, not_or] at ha
    exact .miss (fun y e => ha.1 (List.cons.inj e).1.symm) (ih ha.2)

/-- With the first quote of a text, if no comment came before it, a string literal begins. -/
theorem Tiling.first_quote {l s w} (h : Tiling l s w) : ∀ {a r}, Quiet a → s = a ++ '\'' :: r →
    ∃ x r', '\'' :: r = x ++ r' ∧ IsLiteral x := by
  induction h with
  | nil => intro a r _ e; simp at e
  | @skip l x s w hx _ ih =>
    intro a r ha e
    rcases cut_cases e with ⟨a', rfl, rfl⟩ | ⟨x', rfl, _⟩
    · exact ih ha.drop rfl
    · exact absurd (List.append_nil _) (ha.not_comment (hx.stray (by simp) stray_quote))
  | @tok l x s w t h1 h2 _ ih =>
    intro a r ha e
    rcases cut_cases e with ⟨a', rfl, rfl⟩ | ⟨x', rfl, rfl⟩
    · exact ih ha.drop rfl
    · rcases h1.stray (by simp) stray_quote with h | ⟨y, z, e', hy, hz⟩
      · have : a = [] := by
          cases a with
          | nil => rfl
          | cons c a =>
            have hc := ha.1
            rcases h with ⟨b, e⟩ | ⟨b, e⟩ <;>
            · simp only [List.cons_append, List.cons.injEq] at e
              exact absurd (by simp [e.1]) hc
        subst this
        exact ⟨_, s, rfl, h⟩
      · exact absurd e'.symm (ha.not_comment hy)

theorem literal_two {x r r' : List Char} (h : '\'' :: r = x ++ r') (hx : IsLiteral x) : '\'' ∈ r := by
  rcases hx with ⟨b, rfl⟩ | ⟨b, rfl⟩ <;>
  · simp only [List.cons_append, List.cons.injEq, true_and] at h
    rw [h]
    simp

/-- **C87, strings.** If a text has only one quote, and no comment begins in front of it, then the text is
rejected as a syntax error, and the place of the error is not behind the quote. -/
theorem C87_string (P : Parser) {text path t a r} (ht : chosenText text path = .ok t)
    (he : t.toList = a ++ '\'' :: r) (ha : Quiet a) (hr : '\'' ∉ r) :
    P.parse text path = .error .unexpectedInput ∧ P.createTree text path = .error .unexpectedInput ∧
      ∃ e, larkRun t = .err e ∧ e.pos ≤ a.length := by
  have hv : isValid t = true := by
    rw [isValid_iff (he ▸ occ_one_quote ha.1 hr)]; rfl
  have no : ∀ {l s w}, Tiling l s w → ∀ {r₁ r₂}, s = a ++ '\'' :: r₁ → r = r₁ ++ r₂ → False := by
    intro l s w h r₁ r₂ h1 h2
    obtain ⟨x, r', e, hx⟩ := h.first_quote ha h1
    exact hr (by rw [h2]; exact List.mem_append_left _ (literal_two e hx))
  obtain ⟨g1, g2, e, h1, h2⟩ := rejected (P := P) ht hv fun tr htr => by
    obtain ⟨p, ⟨⟨w, hw, _⟩, _⟩, _⟩ := larkParse_program htr
    exact no hw.tiling he (List.append_nil r).symm
  refine ⟨g1, g2, e, h1, ?_⟩
  cases h2 with
  | here pre rest w hs hp _ _ _ _ hb =>
    rw [hb.1]
    apply Classical.byContradiction
    intro hn
    rw [he] at hs
    rcases cut_cases hs.symm with ⟨a', h, _⟩ | ⟨x', h, h'⟩
    · rw [h] at hn
      simp at hn
    · exact no hp h h'
  | incomplete pre u rest w hs _ ht' => exact absurd (no ht' he (List.append_nil r).symm) id

/-! ### Comments -/

theorem slash_texts : ∀ t < tEND, ∀ d s, term? t = some d → d.strVal = some s →
    ('/' ∈ s.toList → t = T.SLASH ∧ s.toList = ['/']) ∧ (s.toList.head? = some '*' → t = T.STAR) := by
  have h : (List.range tEND).all (fun t => match term? t with
    | some d => match d.strVal with
      | some s => (!s.toList.contains '/' || (t == T.SLASH && s.toList == ['/'])) &&
          (s.toList.head? != some '*' || t == T.STAR)
      | .none => true
    | .none => true) = true := by decide +kernel
  intro t ht d s hd hs
  have := List.all_eq_true.mp h t (List.mem_range.mpr ht)
  simp only [hd, hs, Bool.and_eq_true, Bool.or_eq_true, Bool.not_eq_true', beq_iff_eq, bne_iff_ne] at this
  refine ⟨fun h => ?_, fun h => ?_⟩
  · rcases this.1 with h' | h'
    · rw [← Bool.not_eq_true, List.contains_iff_mem] at h'
      exact absurd h h'
    · exact h'
  · rcases this.2 with h' | h'
    · exact absurd h h'
    · exact h'

/-- A slash in a token: the division sign, or part of a string literal or of a comment. -/
theorem TokText.slash {t x} (h : TokText t x) (ht : t < tEND) (hc : '/' ∈ x) :
    (t = T.SLASH ∧ x = ['/']) ∨ x.head? = some '\'' ∨ ['/', '/'] <+: x := by
  have na : isAsciiAlnum '/' ≠ true := by decide
  have np : ∀ {p : List Char}, (p = [] ∨ p = "sys.".toList ∨ p = "az.".toList) → '/' ∉ p := by
    rintro p (rfl | rfl | rfl) <;> decide
  unfold TokText at h
  split at h
  · exact absurd (alpha_alnum (h.2 _ hc)) na
  · obtain ⟨p, n, rfl, hp, _, hn⟩ := h
    simp only [List.mem_append, List.mem_singleton] at hc
    rcases hc with (hc | hc) | hc
    · exact absurd hc (np hp)
    · exact absurd (hn _ hc) na
    · cases hc
  · obtain ⟨b, rfl⟩ := h; exact .inr (.inl rfl)
  · obtain ⟨b, rfl⟩ := h; exact .inr (.inl rfl)
  · exact absurd (IsIdentText.word h _ hc) (by decide)
  · rcases h with h | ⟨b, n, rfl, hb, hn⟩
    · rcases h.chars _ hc with h | h <;> cases h
    · exact .inr (.inr ⟨b ++ n, by simp⟩)
  · obtain ⟨b, rfl, _⟩ := h; exact .inr (.inl rfl)
  · obtain ⟨p, n, rfl, hp, _, hn⟩ := h
    rcases List.mem_append.mp hc with hc | hc
    · exact absurd hc (np (hp.imp_right .inl))
    · exact absurd (hn _ hc) na
  · rcases IsNewlines.chars h _ hc with h | h <;> cases h
  · exact absurd (digit_alnum (h.2 _ hc)) na
  · rw [show x = ['*'] from h] at hc; simp at hc
  · obtain ⟨d, s, h1, h2, rfl⟩ := h
    exact .inl ((slash_texts t ht d s h1 h2).1 hc)

theorem TokText.asterisk {t x} (h : TokText t x) (ht : t < tEND) (hc : x.head? = some '*') :
    t = T.STAR ∨ t = T.__ANON_1 := by
  have na : isAsciiAlnum '*' ≠ true := by decide
  have hm : '*' ∈ x := List.mem_of_head? hc
  unfold TokText at h
  split at h
  · exact absurd (alpha_alnum (h.2 _ hm)) na
  · obtain ⟨p, n, rfl, hp, hne, hn⟩ := h
    rcases hp with rfl | rfl | rfl
    · cases n with
      | nil => exact absurd rfl hne
      | cons c n =>
        simp only [List.nil_append, List.cons_append, List.head?_cons, Option.some.injEq] at hc
        exact absurd (hn '*' (by simp [hc])) na
    · cases hc
    · cases hc
  · obtain ⟨b, rfl⟩ := h; cases hc
  · obtain ⟨b, rfl⟩ := h; cases hc
  · exact absurd (IsIdentText.word h _ hm) (by decide)
  · rcases h with h | ⟨b, n, rfl, hb, hn⟩
    · rcases h.chars _ hm with h | h <;> cases h
    · cases hc
  · obtain ⟨b, rfl, _⟩ := h; cases hc
  · obtain ⟨p, n, rfl, hp, hne, hn⟩ := h
    rcases hp with rfl | rfl
    · exact absurd (hn _ (by simpa using hm)) na
    · cases hc
  · rcases IsNewlines.chars h _ hm with h | h <;> cases h
  · exact absurd (digit_alnum (h.2 _ hm)) na
  · exact .inr rfl
  · obtain ⟨d, s, h1, h2, rfl⟩ := h
    exact .inl ((slash_texts t ht d s h1 h2).2 hc)

theorem no_star {l r w} (h : Tiling l ('*' :: r) w) (ha : Adjacent T.SLASH w) : False := by
  generalize e : '*' :: r = s at h
  cases h with
  | nil => cases e
  | @skip _ x _ _ hx _ =>
    cases hx with
    | ws hne hb =>
      cases x with
      | nil => exact hne rfl
      | cons c x =>
        have hc : '*' = c := (List.cons.inj e).1
        rcases hb c (by simp) with h | h <;> rw [h] at hc <;> cases hc
    | sh => exact absurd (List.cons.inj e).1 (by decide)
    | c => exact absurd (List.cons.inj e).1 (by decide)
  | @tok _ x s w t h1 h2 _ =>
    cases ha with
    | cons hf _ =>
      have hx : x.head? = some '*' := by
        cases x with
        | nil => exact absurd rfl (h1.ne_nil h2)
        | cons c x =>
          have hc : '*' = c := (List.cons.inj e).1
          rw [hc]; rfl
      rcases h1.asterisk h2 hx with rfl | rfl
      · exact (slash_star hf).1 rfl
      · exact (slash_star hf).2 rfl

theorem Tiling.first_comment {l s w} (h : Tiling l s w) : ∀ {p a r}, Adjacent p w →
    Quiet (a ++ ['/']) → s = a ++ '/' :: '*' :: r → ['*', '/'] <:+: r := by
  induction h with
  | nil => intro p a r _ _ e; simp at e
  | @skip l x s w hx _ ih =>
    intro p a r had ha e
    rcases cut_cases e with ⟨a', rfl, rfl⟩ | ⟨x', h1, h2⟩
    · rw [List.append_assoc] at ha
      exact ih had ha.drop rfl
    · obtain ⟨q1, q2, q3, q4⟩ := ha
      cases hx with
      | ws _ hb => exact absurd (hb '/' (by rw [h1]; simp)) (by decide)
      | sh _ =>
        cases a with
        | nil => exact absurd (List.cons.inj h1).1 (by decide)
        | cons c a =>
          have hc : '#' = c := (List.cons.inj h1).1
          subst hc; exact absurd (by simp) q2
      | c y =>
        cases a with
        | nil =>
          have h3 : x' = '*' :: y ++ ['*', '/'] := by
            simpa using (List.cons.inj h1).2.symm
          rw [h3, List.cons_append, List.cons_append] at h2
          have h4 := (List.cons.inj h2).2
          rw [h4]
          exact ⟨y, s, by simp⟩
        | cons c a =>
          have hc : '/' = c := (List.cons.inj h1).1
          have h5 : '*' :: (y ++ ['*', '/']) = a ++ '/' :: x' := (List.cons.inj h1).2
          cases a with
          | nil => exact absurd (List.cons.inj h5).1 (by decide)
          | cons d a =>
            have hd : '*' = d := (List.cons.inj h5).1
            subst hc hd; exact absurd ⟨[], a ++ ['/'], by simp⟩ q4
  | @tok l x s w t h1 h2 hw ih =>
    intro p a r had ha e
    cases had with
    | cons hf had =>
      rcases cut_cases e with ⟨a', rfl, rfl⟩ | ⟨x', h5, h6⟩
      · rw [List.append_assoc] at ha
        exact ih had ha.drop rfl
      · obtain ⟨q1, q2, q3, q4⟩ := ha
        rcases h1.slash h2 (by rw [h5]; simp) with ⟨rfl, hx⟩ | hx | hx
        · rw [hx] at h5
          cases a with
          | nil =>
            have h7 : x' = [] := (List.cons.inj h5).2.symm
            rw [h7, List.nil_append] at h6
            rw [← h6] at hw
            exact absurd had (no_star hw)
          | cons c a => exact absurd (List.cons.inj h5).2 (by simp)
        · rw [h5] at hx
          cases a with
          | nil => cases hx
          | cons c a =>
            simp only [List.cons_append, List.head?_cons, Option.some.injEq] at hx
            exact absurd (by simp [hx]) q1
        · obtain ⟨y, hy⟩ := hx
          rw [h5] at hy
          cases a with
          | nil =>
            have h7 : '/' :: y = x' := (List.cons.inj hy).2
            rw [← h7] at h6
            exact absurd (List.cons.inj h6).1 (by decide)
          | cons c a =>
            have hc : '/' = c := (List.cons.inj hy).1
            have h7 : '/' :: y = a ++ '/' :: x' := (List.cons.inj hy).2
            cases a with
            | nil => subst hc; exact absurd ⟨[], [], by simp⟩ q3
            | cons d a =>
              have hd : '/' = d := (List.cons.inj h7).1
              subst hc hd; exact absurd ⟨[], a ++ ['/'], by simp⟩ q3

/-- **C87, comments.** If a text contains `/*`, no string or comment begins in front of it, and no `*/` stands
behind it, then the text is rejected, with a syntax error if the multi-line quotes in it are balanced, and
the place of the error is not behind the asterisk: the slash is not taken for a division sign, nor the
asterisk for anything else. -/
theorem C87_comment (P : Parser) {text path t a r} (ht : chosenText text path = .ok t)
    (he : t.toList = a ++ '/' :: '*' :: r) (ha : Quiet (a ++ ['/'])) (hr : ¬ ['*', '/'] <:+: r) :
    (∀ v, P.parse text path ≠ .ok v) ∧
    (isValid t = true → P.parse text path = .error .unexpectedInput ∧
      P.createTree text path = .error .unexpectedInput ∧ ∃ e, larkRun t = .err e ∧ e.pos ≤ a.length + 1) := by
  have no : ∀ tr, larkParse t ≠ .ok tr := fun tr htr => by
    obtain ⟨w, hw, had⟩ := larkParse_adjacent htr
    exact hr (hw.tiling.first_comment had ha he)
  refine ⟨(not_parsed ht no).1, fun hv => ?_⟩
  obtain ⟨g1, g2, e, h1, _⟩ := rejected (P := P) ht hv no
  refine ⟨g1, g2, e, h1, ?_⟩
  obtain ⟨w, had, h2 | ⟨pre, rest, hs, hp, hpos⟩⟩ := larkRun_adjacent h1
  · exact absurd (h2.first_comment had ha he) hr
  · rw [hpos]
    apply Classical.byContradiction
    intro hn
    rw [he, show a ++ '/' :: '*' :: r = (a ++ ['/']) ++ '*' :: r by simp] at hs
    rcases cut_cases hs.symm with ⟨a', h, _⟩ | ⟨x', h, h'⟩
    · have := congrArg List.length h
      simp at this
      omega
    · refine hr ((hp.first_comment had ha (r := x') (by rw [h]; simp)).trans ?_)
      rw [h']
      exact (List.prefix_append _ _).isInfix

/-! ### Examples -/

example : Parser.parse ⟨false⟩ (some "var x = 'abc\nvar y = 2\n") .none = .error .unexpectedInput ∧
    Parser.createTree ⟨false⟩ (some "var x = 'abc\nvar y = 2\n") .none = .error .unexpectedInput ∧
    ∃ e, larkRun "var x = 'abc\nvar y = 2\n" = .err e ∧ e.pos ≤ 8 :=
  C87_string ⟨false⟩ (a := "var x = ".toList) (r := "abc\nvar y = 2\n".toList) rfl (by decide +kernel)
    (by unfold Quiet; decide +kernel) (by decide +kernel)

example : Parser.parse ⟨false⟩ (some "var x = 1 /* one\nvar y = 2\n") .none = .error .unexpectedInput :=
  ((C87_comment ⟨false⟩ (t := "var x = 1 /* one\nvar y = 2\n") (a := "var x = 1 ".toList) (r := " one\nvar y = 2\n".toList)
    rfl (by decide +kernel) (by unfold Quiet; decide +kernel) (by decide +kernel)).2 (by decide +kernel)).1

example : ∃ e, larkRun "var x = 1 /* one\nvar y = 2\n" = .err e ∧ e.pos ≤ 11 :=
  ((C87_comment ⟨false⟩ (t := "var x = 1 /* one\nvar y = 2\n") (a := "var x = 1 ".toList) (r := " one\nvar y = 2\n".toList)
    (text := some "var x = 1 /* one\nvar y = 2\n") (path := .none)
    rfl (by decide +kernel) (by unfold Quiet; decide +kernel) (by decide +kernel)).2 (by decide +kernel)).2.2

/-- With `*/` the text is accepted, ... -/
example : ∃ v, Parser.parse ⟨false⟩ (some "var x = 1 /* one\nvar y = 2*/\n") .none = .ok v :=
  ⟨_, eq_of_outIs (v := .dict [("globals", .dict [("scope", .dict [("value", .str "resourceGroup")])]),
      ("variables", .dict [("x", .dict [("decorators", .list []), ("value", .int 1)])])]) (by decide +kernel)⟩

/-- ... as it is if the `/*` is part of another comment. -/
example : ∃ v, Parser.parse ⟨false⟩ (some "var x = 1 // /* one\nvar y = 2\n") .none = .ok v :=
  ⟨_, eq_of_outIs (v := .dict [("globals", .dict [("scope", .dict [("value", .str "resourceGroup")])]),
      ("variables", .dict [("x", .dict [("decorators", .list []), ("value", .int 1)]),
        ("y", .dict [("decorators", .list []), ("value", .int 2)])])]) (by decide +kernel)⟩

end Pycep
