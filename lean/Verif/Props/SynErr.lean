import Verif.Props.ApiProps
import Verif.Proofs.SynErr
import Verif.Proofs.Examples
/-
What the exception for a text with a syntax error says about the place of the error (C63).
-/
namespace Pycep

/-- the run with positions, from the beginning -/
theorem larkRun_spec (text : String) : (larkRun text).erase = larkParse text ∧ larkRun text ≠ .eofError ∧
    ∀ e, larkRun text = .err e → WrongAt text.toList e := by
  have := runLoop_spec (text.toList.length + 1) [] text.toList .init .init [] [] .nil (by omega) .init .nil (.inl rfl)
  simpa [larkRun, larkParse, Ctr.init] using this

theorem larkRun_err {text : String} (h : larkParse text = .unexpectedInput) : ∃ e, larkRun text = .err e := by
  obtain ⟨h1, h2, _⟩ := larkRun_spec text
  rw [h] at h1
  cases hr : larkRun text with
  | err e => exact ⟨e, rfl⟩
  | eofError => exact absurd hr h2
  | ok t => rw [hr] at h1; cases h1
  | stuck => rw [hr] at h1; cases h1
  | fuel => rw [hr] at h1; cases h1

theorem syntax_error_cases {text path} (h : createTree' text path = .error .unexpectedInput) :
    ∃ t, chosenText text path = .ok t ∧ larkParse t = .unexpectedInput := by
  rcases createTree'_cases text path with ⟨e, h1, h2⟩ | ⟨t, m, _, _, h3, _⟩ | ⟨t, h1, _, h3, _⟩ |
    ⟨t, tree, p, _, _, _, _, _, h3⟩
  · rw [h] at h2
    rcases chosenText_cases text path with ⟨_, _, h⟩ | ⟨_, _, h⟩ | ⟨_, _, _, _, h⟩ | ⟨_, _, _, _, _, h⟩ |
        ⟨_, _, _, _, _, h⟩ <;> rw [h] at h1 <;> cases h1 <;> cases h2
  · rw [h] at h3; cases h3
  · exact ⟨t, h1, h3⟩
  · rw [h] at h3; cases h3

theorem parse_syntax_error {P : Parser} {text path} (h : P.parse text path = .error .unexpectedInput) :
    createTree' text path = .error .unexpectedInput := by
  rw [parse_eq] at h
  cases hc : createTree' text path with
  | error e => rw [hc] at h; simpa [Except.bind] using h
  | ok t =>
    rw [hc] at h
    simp only [Except.bind, liftV] at h
    cases hb : bicepToJson P.addLineNumbers t with
    | ok v => rw [hb] at h; cases h
    | error e => rw [hb] at h; cases e <;> cases h

/-- **C63.** When `parse` ends with a syntax error, the exception carries a place and that place is
right: the tokens in front of it are the beginning of something grammatical, nothing that is skipped
stands there, and no token that clearly stands there continues them to a program; or else the text
ends too early, and the place is that of the last token. -/
theorem C63_parse (P : Parser) {text : Option String} {path : Option PathArg}
    (h : P.parse text path = .error .unexpectedInput) :
    ∃ t e, chosenText text path = .ok t ∧ larkRun t = .err e ∧ WrongAt t.toList e := by
  obtain ⟨t, h1, h2⟩ := syntax_error_cases (parse_syntax_error h)
  obtain ⟨e, he⟩ := larkRun_err h2
  exact ⟨t, e, h1, he, (larkRun_spec t).2.2 e he⟩

/-- **C63, for trees.** -/
theorem C63_tree {text : Option String} {path : Option PathArg}
    (h : createTree' text path = .error .unexpectedInput) :
    ∃ t e, chosenText text path = .ok t ∧ larkRun t = .err e ∧ WrongAt t.toList e := by
  obtain ⟨t, h1, h2⟩ := syntax_error_cases h
  obtain ⟨e, he⟩ := larkRun_err h2
  exact ⟨t, e, h1, he, (larkRun_spec t).2.2 e he⟩

/-- **C63, the place is in the text.** The position is that of a character of the text, and line and
column are those of this position. -/
theorem C63_place {s : List Char} {e : SynErr} (h : WrongAt s e) :
    e.pos < s.length ∧ e.line = lineAt (s.take e.pos) ∧ e.col = colAt (s.take e.pos) := by
  cases h with
  | here pre rest w hs _ _ hne _ _ hb _ _ =>
    obtain ⟨h1, h2, h3⟩ := hb
    have := List.length_pos_iff.mpr hne
    rw [h1, hs, List.take_left]
    exact ⟨by simp; omega, h2, h3⟩
  | incomplete pre u rest w hs h1 h2 _ _ hb _ =>
    obtain ⟨h1, h3, h4⟩ := hb
    have hu : u.text ≠ [] := by
      obtain ⟨hl, ht⟩ := h2.tokText u (by simp)
      exact ht.ne_nil hl
    have := List.length_pos_iff.mpr hu
    rw [h1, hs, List.append_assoc, List.take_left]
    exact ⟨by simp; omega, h3, h4⟩

/-- **C63, refinement.** The run with positions and second attempt gives the tree of the parser, or
one of the two exceptions exactly when the parser rejects the text; never an `EOFError`, and no
failure of the driver. -/
theorem C63_outcome (text : String) :
    (∃ t, larkParse text = .ok t ∧ larkRun text = .ok t) ∨
    (∃ e, larkParse text = .unexpectedInput ∧ larkRun text = .err e) := by
  obtain ⟨h1, h2, _⟩ := larkRun_spec text
  cases hr : larkRun text with
  | ok t => rw [hr] at h1; exact .inl ⟨t, h1.symm, rfl⟩
  | err e => rw [hr] at h1; exact .inr ⟨e, h1.symm, rfl⟩
  | eofError => exact absurd hr h2
  | stuck => rw [hr] at h1; exact absurd h1.symm (larkParse_sound text).1
  | fuel => rw [hr] at h1; exact absurd h1.symm (larkParse_sound text).2.1

/-- comparison for the examples -/
def RunRes.errIs (r : RunRes) (e : SynErr) : Bool := match r with
  | .err e' => e' == e
  | _ => false

theorem eq_of_runErrIs {r : RunRes} {e : SynErr} (h : r.errIs e = true) : r = .err e := by
  cases r with
  | err e' => simp only [RunRes.errIs, beq_iff_eq] at h; rw [h]
  | ok t => cases h
  | eofError => cases h
  | stuck => cases h
  | fuel => cases h

/-- a missing name: the `=` is reported -/
example : larkRun "var x = 1\nvar = 2\n" = .err ⟨some (T.EQUAL, ['=']), 14, 2, 5⟩ :=
  eq_of_runErrIs (by decide +kernel)

/-- a character that begins no token -/
example : larkRun "/* a\n b */ var x = ~1\n" = .err ⟨.none, 19, 2, 15⟩ :=
  eq_of_runErrIs (by decide +kernel)

/-- a text that ends too early: the place is that of the last token -/
example : larkRun "var x = 1\nvar long =  " = .err ⟨some (tEND, []), 19, 2, 10⟩ :=
  eq_of_runErrIs (by decide +kernel)

/-- these texts are rejected by `parse` -/
example : Parser.parse ⟨true⟩ (some "var x = 1\nvar = 2\n") .none = .error .unexpectedInput :=
  eq_of_errIs (by decide +kernel)

end Pycep
