import Verif.Proofs.Brackets
import Verif.Props.Unclosed
/-
C88: brackets match.
-/
namespace Pycep

theorem larkParse_brackets {text : String} {t : Tree} (h : larkParse text = .ok t) :
    ∃ p w, ExactTiling 1 text.toList w ∧ ProgSyn p w tEND ∧ t.core = p.tree ∧ Spells text p ∧
      Bracketed (w.flatMap Tok.brackets) := by
  obtain ⟨w, hw, hd⟩ := parseLoop_exact (text.toList.length + 1) [] [] text.toList 1 Inv.init (by omega) t
    (by simpa [larkParse] using h)
  rw [List.nil_append] at hd
  obtain ⟨p, hp, hs⟩ := derL_program hd hw.tiling.tokText
  exact ⟨p, w, hw, hs, hp, spells_of h hp hw hs, der_bracketed hd.der hw.tiling.tokText⟩

/-- **C88, all texts.** In an accepted text the brackets outside of string literals and comments match:
every `(`, `[` and `{` is closed by a bracket of its kind, and what stands between the two matches too. -/
theorem C88_match {P : Parser} {text path v} (h : P.parse text path = .ok v) :
    ∃ t p w, chosenText text path = .ok t ∧ Spells t p ∧ ExactTiling 1 t.toList w ∧ ProgSyn p w tEND ∧
      Program.val P.addLineNumbers p = .ok v ∧ Bracketed (w.flatMap Tok.brackets) := by
  rw [parse_eq] at h
  rcases createTree'_cases text path with ⟨e, h1, h2⟩ | ⟨t, m, h1, h2, h3, h4⟩ | ⟨t, h1, h2, _, h3⟩ |
    ⟨t, tree, _, h1, h2, h3, _, _, h5⟩
  · rw [h2] at h; cases h
  · rw [h3] at h; cases h
  · rw [h3] at h; cases h
  · obtain ⟨p, w, h6, h7, h8, h9, h10⟩ := larkParse_brackets h3
    refine ⟨t, p, w, h1, h9, h6, h7, ?_, h10⟩
    rw [h5] at h
    simp only [Except.bind, bicepToJson_program h8] at h
    unfold liftV at h
    split at h <;> simp_all

/-! ### Brackets of the text itself -/

/-- a piece of text that begins a string literal or a comment -/
def Opens : List Char → Prop
  | '\'' :: _ => True
  | '#' :: _ => True
  | '/' :: '/' :: _ => True
  | '/' :: '*' :: _ => True
  | _ => False

theorem Quiet.not_opens' {a x : List Char} (h : Quiet a)
    (hb : ∀ {c y}, x = c :: y → c ≠ '\'' ∧ c ≠ '#' ∧ c ≠ '/' ∧ c ≠ '*') : ¬ Opens (a ++ x) := by
  obtain ⟨h1, h2, h3, h4⟩ := h
  intro ho
  generalize e : a ++ x = s at ho
  unfold Opens at ho
  split at ho
  · cases a with
    | nil => exact (hb e).1 rfl
    | cons c a => cases e; simp at h1
  · cases a with
    | nil => exact (hb e).2.1 rfl
    | cons c a => cases e; simp at h2
  · cases a with
    | nil => exact (hb e).2.2.1 rfl
    | cons c a =>
      have e1 := (List.cons.inj e).1
      have e2 := (List.cons.inj e).2
      cases a with
      | nil => exact (hb e2).2.2.1 rfl
      | cons d a =>
        have e3 := (List.cons.inj e2).1
        subst e1 e3
        exact h3 ⟨[], a, by simp⟩
  · cases a with
    | nil => exact (hb e).2.2.1 rfl
    | cons c a =>
      have e1 := (List.cons.inj e).1
      have e2 := (List.cons.inj e).2
      cases a with
      | nil => exact (hb e2).2.2.2 rfl
      | cons d a =>
        have e3 := (List.cons.inj e2).1
        subst e1 e3
        exact h4 ⟨[], a, by simp⟩
  · exact ho

theorem Quiet.not_opens {a x : List Char} (h : Quiet a) (hx : x = [] ∨ ∃ c y, x = c :: y ∧ isBracket c = true) :
    ¬ Opens (a ++ x) := by
  refine h.not_opens' fun {c y} e => ?_
  rcases hx with hx | ⟨c', y', e', hc⟩
  · rw [hx] at e; cases e
  · rw [e'] at e
    cases e
    refine ⟨?_, ?_, ?_, ?_⟩ <;> (rintro rfl; exact absurd hc (by decide))

theorem Trivia.no_brackets {x} (h : Trivia x) (ho : ¬ Opens x) : x.filter isBracket = [] := by
  cases h with
  | ws _ h => exact filter_none fun c hc => by rcases h c hc with rfl | rfl <;> decide
  | sh => exact absurd trivial ho
  | c => exact absurd trivial ho

theorem brackets_text {u : Tok} (ho : ¬ Opens u.text) : u.brackets = u.text.filter isBracket := by
  refine Tok.brackets_plain ?_
  unfold plainStart
  split
  · rename_i e; rw [e] at ho; exact absurd trivial ho
  · rename_i e; rw [e] at ho; exact absurd trivial ho
  · rfl

theorem Quiet.take {x a} (h : Quiet (x ++ a)) : Quiet x := by
  obtain ⟨h1, h2, h3, h4⟩ := h
  simp only [List.mem_append, not_or] at h1 h2
  exact ⟨h1.1, h2.1, fun h => h3 (h.trans (List.prefix_append _ _).isInfix),
    fun h => h4 (h.trans (List.prefix_append _ _).isInfix)⟩

theorem cut_two {x s a r : List Char} (h : x ++ s = a ++ r) :
    (∃ a', a = x ++ a' ∧ s = a' ++ r) ∨ ∃ c x', x = a ++ c :: x' ∧ r = c :: x' ++ s := by
  rcases List.append_eq_append_iff.mp h with ⟨a', h1, h2⟩ | ⟨c', h1, h2⟩
  · exact .inl ⟨a', h1, h2⟩
  · cases c' with
    | nil => exact .inl ⟨[], by simpa using h1.symm, by simpa using h2.symm⟩
    | cons d c' => exact .inr ⟨d, c', h1, h2⟩

/-- Up to the first bracket behind a stretch without literals and comments, the brackets of the tokens
are those of the text. -/
theorem Tiling.brackets {l s w} (h : Tiling l s w) : ∀ {a r : List Char}, Quiet a →
    (r = [] ∨ ∃ c y, r = c :: y ∧ isBracket c = true) → s = a ++ r →
    ∃ z, w.flatMap Tok.brackets = a.filter isBracket ++ z ∧ z.head? = r.head? := by
  induction h with
  | nil =>
    intro a r _ _ e
    obtain ⟨rfl, rfl⟩ := List.append_eq_nil_iff.mp e.symm
    exact ⟨[], rfl, rfl⟩
  | @skip l x s w hx _ ih =>
    intro a r ha hr e
    rcases cut_two e with ⟨a', rfl, rfl⟩ | ⟨c, x', rfl, rfl⟩
    · obtain ⟨z, h1, h2⟩ := ih ha.drop hr rfl
      have := hx.no_brackets (by simpa using ha.take.not_opens (.inl rfl))
      exact ⟨z, by rw [h1, List.filter_append, this, List.nil_append], h2⟩
    · rcases hr with hr | ⟨c', y, e', hc⟩
      · cases hr
      · cases e'
        have := hx.no_brackets (ha.not_opens (.inr ⟨c, x', rfl, hc⟩))
        rw [List.filter_append, List.filter_cons_of_pos hc] at this
        simp at this
  | @tok l x s w t h1 h2 _ ih =>
    intro a r ha hr e
    rcases cut_two e with ⟨a', rfl, rfl⟩ | ⟨c, x', rfl, rfl⟩
    · obtain ⟨z, h3, h4⟩ := ih ha.drop hr rfl
      refine ⟨z, ?_, h4⟩
      rw [List.flatMap_cons, h3, brackets_text (by simpa using ha.take.not_opens (.inl rfl)), List.filter_append,
        List.append_assoc]
    · rcases hr with hr | ⟨c', y, e', hc⟩
      · cases hr
      · cases e'
        rw [List.flatMap_cons, brackets_text (ha.not_opens (.inr ⟨c, x', rfl, hc⟩)), List.filter_append,
          List.filter_cons_of_pos hc, List.append_assoc]
        exact ⟨_, rfl, rfl⟩

theorem Tiling.brackets_all {l s w} (h : Tiling l s w) (hq : Quiet s) :
    w.flatMap Tok.brackets = s.filter isBracket := by
  obtain ⟨z, h1, h2⟩ := h.brackets hq (.inl rfl) (List.append_nil s).symm
  rw [h1, List.head?_eq_none_iff.mp h2, List.append_nil]

/-- **C88, texts without strings and comments.** The brackets of such an accepted text match. -/
theorem C88_plain {P : Parser} {text path v} (h : P.parse text path = .ok v) :
    ∃ t p, chosenText text path = .ok t ∧ Spells t p ∧ Program.val P.addLineNumbers p = .ok v ∧
      (Quiet t.toList → Bracketed (t.toList.filter isBracket)) := by
  obtain ⟨t, p, w, h1, h2, h3, _, h5, h6⟩ := C88_match h
  refine ⟨t, p, h1, h2, h5, fun hq => ?_⟩
  rw [← h3.tiling.brackets_all hq]
  exact h6

/-- **C88, brackets that do not match.** A text without strings and comments whose brackets do not match
is rejected as a syntax error. -/
theorem C88_rejected (P : Parser) {text path t} (ht : chosenText text path = .ok t) (hq : Quiet t.toList)
    (hb : ¬ Bracketed (t.toList.filter isBracket)) :
    P.parse text path = .error .unexpectedInput ∧ P.createTree text path = .error .unexpectedInput := by
  have hv : isValid t = true := by
    rw [isValid_iff (occ_no_quote hq.1)]; rfl
  refine (not_parsed ht fun tr htr => hb ?_).2 hv
  obtain ⟨p, w, h1, _, _, _, h2⟩ := larkParse_brackets htr
  rw [← h1.tiling.brackets_all hq]
  exact h2

/-- **C88, a wrong closing bracket.** If a bracket, in front of which there are no strings and comments,
leaves no way to make the brackets match, then the text is rejected whatever follows, and the error is
reported there or before. -/
theorem C88_closing (P : Parser) {text path t a c r} (ht : chosenText text path = .ok t)
    (he : t.toList = a ++ c :: r) (hq : Quiet a) (hc : isBracket c = true)
    (hb : ∀ z, ¬ Bracketed (a.filter isBracket ++ c :: z)) :
    (∀ v, P.parse text path ≠ .ok v) ∧
    (isValid t = true → P.parse text path = .error .unexpectedInput ∧
      P.createTree text path = .error .unexpectedInput ∧ ∃ e, larkRun t = .err e ∧ e.pos ≤ a.length) := by
  have no : ∀ {l s w r₁}, Tiling l s w → s = a ++ c :: r₁ → ∀ {b}, ¬ Bracketed (w.flatMap Tok.brackets ++ b) := by
    intro l s w r₁ h1 h2 b h3
    obtain ⟨z, h4, h5⟩ := h1.brackets hq (.inr ⟨c, r₁, rfl, hc⟩) h2
    obtain ⟨y, rfl⟩ : ∃ y, z = c :: y := by
      cases z with
      | nil => cases h5
      | cons d y =>
        simp only [List.head?_cons, Option.some.injEq] at h5
        exact ⟨y, by rw [h5]⟩
    rw [h4, List.append_assoc] at h3
    exact hb _ h3
  have begins : ∀ {l s w r₁}, Tiling l s w → s = a ++ c :: r₁ → ¬ Beginning w := by
    intro l s w r₁ h1 h2 ⟨w', tr, h3, h4⟩
    have := der_bracketed h4 fun u hu => (List.mem_append.mp hu).elim (h1.tokText u) (h3 u)
    rw [List.flatMap_append] at this
    exact no h1 h2 this
  have nt : ∀ tr, larkParse t ≠ .ok tr := fun tr htr => by
    obtain ⟨p, w, h1, _, _, _, h2⟩ := larkParse_brackets htr
    exact no h1.tiling he (b := []) (by rwa [List.append_nil])
  refine ⟨(not_parsed ht nt).1, fun hv => ?_⟩
  obtain ⟨g1, g2, e, h1, h2⟩ := rejected (P := P) ht hv nt
  refine ⟨g1, g2, e, h1, ?_⟩
  cases h2 with
  | here pre rest w hs hp hbeg _ _ _ hpos =>
    rw [hpos.1]
    apply Classical.byContradiction
    intro hn
    rw [he] at hs
    rcases cut_cases hs.symm with ⟨a', h, _⟩ | ⟨x', h, h'⟩
    · rw [h] at hn
      simp at hn
    · exact begins hp h hbeg
  | incomplete pre u rest w hs _ ht' hbeg => exact absurd hbeg (begins ht' he)

/-! ### Examples -/

theorem not_bracketed {a : List Char} (h : (track [] a == some []) = false) : ¬ Bracketed a := fun hb => by
  rw [track_of_bracketed hb] at h
  exact absurd h (by decide)

theorem no_bracketed {a : List Char} (h : (track [] a).isNone = true) : ∀ z, ¬ Bracketed (a ++ z) := fun z hb => by
  have := track_of_bracketed hb []
  rw [track_append] at this
  cases ht : track [] a with
  | none => rw [ht] at this; cases this
  | some _ => rw [ht] at h; cases h

/-- brackets inside of strings and comments do not count -/
example : ∃ v, Parser.parse ⟨false⟩ (some "var x = [\n  '[(' // {\n  (1)\n]\n") .none = .ok v :=
  ⟨_, eq_of_outIs (v := .dict [("globals", .dict [("scope", .dict [("value", .str "resourceGroup")])]),
      ("variables", .dict [("x", .dict [("decorators", .list []), ("value", .list [.str "[(", .int 1])])])]) (by decide +kernel)⟩

example : Parser.parse ⟨false⟩ (some "var x = [\n  f(1\n]\n") .none = .error .unexpectedInput :=
  (C88_rejected ⟨false⟩ (t := "var x = [\n  f(1\n]\n") rfl (by unfold Quiet; decide +kernel)
    (not_bracketed (by decide +kernel))).1

example : Parser.parse ⟨false⟩ (some "var x = (1]\nvar y = 'z'\n") .none = .error .unexpectedInput ∧
    Parser.createTree ⟨false⟩ (some "var x = (1]\nvar y = 'z'\n") .none = .error .unexpectedInput ∧
    ∃ e, larkRun "var x = (1]\nvar y = 'z'\n" = .err e ∧ e.pos ≤ 10 :=
  (C88_closing ⟨false⟩ (a := "var x = (1".toList) (c := ']') (r := "\nvar y = 'z'\n".toList) rfl (by decide +kernel)
    (by unfold Quiet; decide +kernel) (by decide) (fun z => by
      rw [List.append_cons]
      exact no_bracketed (by decide +kernel) z)).2 (by decide +kernel)

end Pycep
