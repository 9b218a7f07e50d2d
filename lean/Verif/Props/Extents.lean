import Verif.Proofs.Extents
import Verif.Props.Stray
import Verif.Props.Words
/-
C86: where string literals, comments and line ends end.
-/
namespace Pycep

/-- **C86.** An accepted text can be cut into the tokens of its program in such a way that everything
extends exactly as far as it should: a quoted string up to the first quote that is neither behind a
backslash nor part of an interpolation, a multi-line string up to the first three quotes, a `#` comment
up to the end of its line, a block comment up to the first `*/`, a run of blanks or of line ends as far as
it goes; and words and numbers are whole. -/
theorem C86_extents {P : Parser} {text path v} (h : P.parse text path = .ok v) :
    ∃ t p w, chosenText text path = .ok t ∧ Spells t p ∧ ExactTiling 1 t.toList w ∧ ProgSyn p w tEND ∧
      Program.val P.addLineNumbers p = .ok v := by
  rw [parse_eq] at h
  rcases createTree'_cases text path with ⟨e, h1, h2⟩ | ⟨t, m, h1, h2, h3, h4⟩ | ⟨t, h1, h2, _, h3⟩ |
    ⟨t, tree, _, h1, h2, h3, _, _, h5⟩
  · rw [h2] at h; cases h
  · rw [h3] at h; cases h
  · rw [h3] at h; cases h
  · obtain ⟨p, w, h6, h7, h8, h9⟩ := larkParse_exact h3
    refine ⟨t, p, w, h1, h9, h6, h7, ?_⟩
    rw [h5] at h
    simp only [Except.bind, bicepToJson_program h8] at h
    unfold liftV at h
    split at h <;> simp_all

/-- **C86, literals on one line.** In an accepted text a multi-line string that stands behind a quoted
string begins on a later line than that one. -/
theorem C86_lines {P : Parser} {text path v} (h : P.parse text path = .ok v) :
    ∃ t p w, chosenText text path = .ok t ∧ Spells t p ∧ ExactTiling 1 t.toList w ∧ ProgSyn p w tEND ∧
      ∀ {a b c u v}, w = a ++ u :: (b ++ v :: c) → u.type = T.QUOTED_INTERPOLATION →
        v.type = T.MULTI_LINE_STRING → u.line < v.line := by
  obtain ⟨t, p, w, h1, h2, h3, h4, _⟩ := C86_extents h
  exact ⟨t, p, w, h1, h2, h3, h4, fun e hu hv => h3.apart e hu hv⟩

/-! ### The first quote of a text -/

/-- nothing in the text begins a string or a comment -/
def Quiet (a : List Char) : Prop :=
  '\'' ∉ a ∧ '#' ∉ a ∧ ¬ ['/', '/'] <:+: a ∧ ¬ ['/', '*'] <:+: a

theorem Quiet.drop {x a} (h : Quiet (x ++ a)) : Quiet a := by
  obtain ⟨h1, h2, h3, h4⟩ := h
  simp only [List.mem_append, not_or] at h1 h2
  exact ⟨h1.2, h2.2, fun h => h3 (h.trans (List.suffix_append _ _).isInfix),
    fun h => h4 (h.trans (List.suffix_append _ _).isInfix)⟩

theorem stray_quote : Stray '\'' := by unfold Stray; decide

/-- No comment begins in front of the first quote. -/
theorem Quiet.not_comment {a x y z : List Char} (h : Quiet a) (hx : IsComment y) :
    y ++ z ≠ a ++ '\'' :: x := by
  obtain ⟨h1, h2, h3, h4⟩ := h
  intro e
  have two : ∀ {c d : Char} {r : List Char}, c :: d :: r = a ++ '\'' :: x → c ≠ '\'' → d ≠ '\'' →
      [c, d] <:+: a := by
    intro c d r e hc hd
    cases a with
    | nil => exact absurd (List.cons.inj e).1 hc
    | cons c' a =>
      cases a with
      | nil => exact absurd (List.cons.inj (List.cons.inj e).2).1 hd
      | cons d' a =>
        simp only [List.cons_append, List.cons.injEq] at e
        exact ⟨[], a, by simp [e.1, e.2.1]⟩
  rcases hx with ⟨b, rfl, _⟩ | ⟨b, rfl⟩ | ⟨b, rfl, _⟩
  · cases a with
    | nil => exact absurd (List.cons.inj e).1 (by decide)
    | cons c a =>
      have hc : '#' = c := (List.cons.inj e).1
      exact h2 (hc ▸ List.mem_cons_self)
  · exact h4 (two e (by decide) (by decide))
  · exact h3 (two e (by decide) (by decide))

/-- two ways to cut a text -/
theorem cut_cases {x s a r : List Char} {c : Char} (h : x ++ s = a ++ c :: r) :
    (∃ a', a = x ++ a' ∧ s = a' ++ c :: r) ∨ ∃ x', x = a ++ c :: x' ∧ r = x' ++ s := by
  rcases List.append_eq_append_iff.mp h with ⟨a', h1, h2⟩ | ⟨c', h1, h2⟩
  · exact .inl ⟨a', h1, h2⟩
  · cases c' with
    | nil => exact .inl ⟨[], by simpa using h1.symm, by simpa using h2.symm⟩
    | cons d c' =>
      simp only [List.cons_append, List.cons.injEq] at h2
      exact .inr ⟨c', by rw [h1, h2.1], h2.2⟩

/-- With the first quote of a text, if no comment came before it, a string literal begins. -/
theorem ExactTiling.first_quote {l s w} (h : ExactTiling l s w) : ∀ {a r}, Quiet a → s = a ++ '\'' :: r →
    ∃ t x r', '\'' :: r = x ++ r' ∧ TokText t x ∧ t < tEND ∧ EndsWell t x r' ∧ IsLiteral x := by
  induction h with
  | nil => intro a r _ e; simp at e
  | @skip l x s w hx _ ih =>
    intro a r ha e
    rcases cut_cases e with ⟨a', rfl, rfl⟩ | ⟨x', rfl, _⟩
    · exact ih ha.drop rfl
    · have := hx.trivia.stray (by simp) stray_quote
      exact absurd (List.append_nil _) (ha.not_comment this)
  | @tok l t x s w h1 h2 h3 h4 _ ih =>
    intro a r ha e
    rcases cut_cases e with ⟨a', rfl, rfl⟩ | ⟨x', rfl, rfl⟩
    · exact ih ha.drop rfl
    · rcases h1.stray (by simp) stray_quote with h | ⟨y, z, e', hy, hz⟩
      · have : a = [] := by
          cases a with
          | nil => rfl
          | cons c a =>
            have hc := ha.1
            rcases h with ⟨b, e⟩ | ⟨b, e⟩ <;>
            · simp only [List.cons_append, List.cons.injEq] at e
              exact absurd (by simp [e.1]) hc
        subst this
        exact ⟨t, _, s, rfl, h1, h2, h4, h⟩
      · exfalso
        exact ha.not_comment hy e'.symm

theorem literal_type {t : Nat} {x : List Char} (h : TokText t x) (hx : IsLiteral x) :
    t = T.QUOTED_INTERPOLATION ∨ t = T.MULTI_LINE_STRING ∨ t = T.QUOTED_STRING := by
  have hq : '\'' ∈ x := by rcases hx with ⟨b, rfl⟩ | ⟨b, rfl⟩ <;> simp
  have hh : x.head? = some '\'' := by rcases hx with ⟨b, rfl⟩ | ⟨b, rfl⟩ <;> rfl
  unfold TokText at h
  split at h
  · exact absurd (alpha_alnum (h.2 _ hq)) stray_quote.not_alnum
  · obtain ⟨p, n, rfl, hp, _, hn⟩ := h
    simp only [List.mem_append, List.mem_singleton] at hq
    rcases hq with (hq | hq) | hq
    · exact absurd stray_quote (prefix_chars hp hq)
    · exact absurd (hn _ hq) stray_quote.not_alnum
    · cases hq
  · exact .inl rfl
  · exact .inr (.inl rfl)
  · exact absurd (IsIdentText.word h _ hq) (by decide)
  · rcases h with h | ⟨b, n, rfl, hb, hn⟩
    · rcases h.chars _ hq with h | h <;> cases h
    · simp at hh
  · exact .inr (.inr rfl)
  · obtain ⟨p, n, rfl, hp, _, hn⟩ := h
    rcases List.mem_append.mp hq with hq | hq
    · exact absurd stray_quote (prefix_chars (hp.imp_right .inl) hq)
    · exact absurd (hn _ hq) stray_quote.not_alnum
  · rcases IsNewlines.chars h _ hq with h | h <;> cases h
  · exact absurd (digit_alnum (h.2 _ hq)) stray_quote.not_alnum
  · rw [show x = ['*'] from h] at hq; simp at hq
  · obtain ⟨d, s, h1, h2, rfl⟩ := h
    rcases (fixed_chars d (List.mem_of_getElem? h1) s h2).1 _ hq with h | h
    · exact absurd h (by decide)
    · exact absurd h (by decide)

theorem no_tree_triple {t : String} {a b r : List Char} {c : Char} (he : t.toList = a ++ '\'' :: (b ++ r)) (ha : Quiet a)
    (hq : '\'' ∉ b) (hc : c ∈ b) (hw : isWord c = false ∧ c ≠ '.')
    (h3 : ¬ NoTriple (b ++ r)) : ∀ tr, larkParse t ≠ .ok tr := by
  intro tr htr
  obtain ⟨p, w, hw', _⟩ := larkParse_exact htr
  obtain ⟨ty, x, r', e, h1, h2, h4, h5⟩ := hw'.first_quote ha he
  have hb : b ≠ [] := by rintro rfl; cases hc
  rcases literal_type h1 h5 with rfl | rfl | rfl
  · have := (h4.1 rfl).2
    rw [← e] at this
    exact h3 (this.tail (by decide))
  · obtain ⟨y, rfl⟩ := h1
    cases b with
    | nil => exact hb rfl
    | cons d b =>
      simp only [List.cons_append, List.cons.injEq, true_and] at e
      exact hq (by simp [e.1])
  · obtain ⟨y, rfl, hy⟩ := h1
    have hyq : '\'' ∉ y := fun h => by
      rcases hy _ h with h | h
      · exact absurd h (by decide)
      · cases h
    simp only [List.cons_append, List.cons.injEq, true_and, List.append_assoc, List.nil_append] at e
    rcases List.append_eq_append_iff.mp e with ⟨z, h, _⟩ | ⟨z, h, h'⟩
    · have := hy c (by rw [h]; simp [hc])
      rcases this with h | h
      · rw [hw.1] at h; cases h
      · exact hw.2 h
    · cases z with
      | nil =>
        rw [List.append_nil] at h
        rcases hy c (by rw [← h]; exact hc) with h | h
        · rw [hw.1] at h; cases h
        · exact hw.2 h
      | cons d z =>
        simp only [List.cons_append, List.cons.injEq] at h'
        exact hq (by rw [h, ← h'.1]; simp)

/-- A text without a tree is not accepted. -/
theorem not_parsed {P : Parser} {text path t} (ht : chosenText text path = .ok t) (no : ∀ tr, larkParse t ≠ .ok tr) :
    (∀ v, P.parse text path ≠ .ok v) ∧
    (isValid t = true → P.parse text path = .error .unexpectedInput ∧
      P.createTree text path = .error .unexpectedInput) := by
  refine ⟨fun v h => ?_, fun hv => ?_⟩
  · rw [parse_eq] at h
    rcases createTree'_cases text path with ⟨e, h1, h2⟩ | ⟨t', m, h1, h2, h3, h4⟩ | ⟨t', h1, h2, _, h3⟩ |
      ⟨t', tree, _, h1, h2, h3, _, _, h5⟩
    · rw [h2] at h; cases h
    · rw [h3] at h; cases h
    · rw [h3] at h; cases h
    · rw [ht] at h1
      cases h1
      exact no _ h3
  · obtain ⟨h1, h2, _⟩ := rejected (P := P) ht hv no
    exact ⟨h1, h2⟩

/-- **C86, three quotes behind a quoted string.** If the first string of a document is a quoted string
that is more than a plain name, and three quotes stand behind it on the same line - as the beginning of
a multi-line string, or just in a comment - then the document is rejected, with a syntax error if the
multi-line quotes in it are balanced. -/
theorem C86_rejected (P : Parser) {text path t a b r c} (ht : chosenText text path = .ok t)
    (he : t.toList = a ++ '\'' :: (b ++ r)) (ha : Quiet a) (hq : '\'' ∉ b) (hc : c ∈ b)
    (hw : isWord c = false ∧ c ≠ '.') (h3 : ¬ NoTriple (b ++ r)) :
    (∀ v, P.parse text path ≠ .ok v) ∧
    (isValid t = true → P.parse text path = .error .unexpectedInput ∧
      P.createTree text path = .error .unexpectedInput) := by
  exact not_parsed ht (no_tree_triple he ha hq hc hw h3)

/-! ### Examples -/

/-- A multi-line string behind a quoted string: rejected on the same line, ... -/
example : Parser.parse ⟨false⟩ (some "var x = ['a b', '''c''']\n") .none = .error .unexpectedInput :=
  ((C86_rejected ⟨false⟩ (t := "var x = ['a b', '''c''']\n") (a := "var x = [".toList) (b := "a b".toList)
    (r := "', '''c''']\n".toList) (c := ' ') rfl (by decide +kernel) (by unfold Quiet; decide +kernel) (by decide +kernel) (by decide +kernel) (by decide +kernel)
    (by unfold NoTriple; rw [not_not]; decide +kernel)).2 (by decide +kernel)).1

/-- ... accepted the other way round ... -/
example : ∃ v, Parser.parse ⟨false⟩ (some "var x = ['''c''', 'a b']\n") .none = .ok v :=
  ⟨_, eq_of_outIs (v := .dict [("globals", .dict [("scope", .dict [("value", .str "resourceGroup")])]),
      ("variables", .dict [("x", .dict [("decorators", .list []), ("value", .list [.str "c", .str "a b"])])])])
    (by decide +kernel)⟩

/-- ... and on different lines. -/
example : ∃ v, Parser.parse ⟨false⟩ (some "var x = [\n  'a b'\n  '''c'''\n]\n") .none = .ok v :=
  ⟨_, eq_of_outIs (v := .dict [("globals", .dict [("scope", .dict [("value", .str "resourceGroup")])]),
      ("variables", .dict [("x", .dict [("decorators", .list []), ("value", .list [.str "a b", .str "c"])])])])
    (by decide +kernel)⟩

/-- Three quotes in a comment have the same effect. -/
example : Parser.parse ⟨false⟩ (some "param x string = 'a b' // ''' '''\n") .none = .error .unexpectedInput :=
  ((C86_rejected ⟨false⟩ (t := "param x string = 'a b' // ''' '''\n") (a := "param x string = ".toList) (b := "a b".toList)
    (r := "' // ''' '''\n".toList) (c := ' ') rfl (by decide +kernel) (by unfold Quiet; decide +kernel) (by decide +kernel) (by decide +kernel) (by decide +kernel)
    (by unfold NoTriple; rw [not_not]; decide +kernel)).2 (by decide +kernel)).1

/-- A plain name as a key in front of a multi-line string is no obstacle. -/
example : ∃ v, Parser.parse ⟨false⟩ (some "var x = {\n  'k.l': '''c'''\n}\n") .none = .ok v :=
  ⟨_, eq_of_outIs (v := .dict [("globals", .dict [("scope", .dict [("value", .str "resourceGroup")])]),
      ("variables", .dict [("x", .dict [("decorators", .list []), ("value", .dict [("'k.l'", .str "c")])])])])
    (by decide +kernel)⟩

end Pycep
