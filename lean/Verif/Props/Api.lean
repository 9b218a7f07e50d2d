import Verif.Proofs.EndToEnd
/-
The public methods `BicepParser.parse` and `BicepParser.create_tree`: arguments, the validity gate,
files, sessions, and the relation between the two methods.
-/
namespace Pycep

/-! ### The text that is parsed -/

theorem createTree'_eq (text : Option String) (path : Option PathArg) :
    createTree' text path = (chosenText text path).bind (fun t =>
      if isValid t then
        match larkParse t with
        | .ok t => .ok t
        | .unexpectedInput => .error .unexpectedInput
        | .stuck => .error .internal
        | .fuel => .error .internal
      else match path with
        | some p => .error (.valueError (p.name ++ " file content is invalid"))
        | .none => .error (.valueError "Text is invalid")) := by
  unfold createTree' chosenText
  rcases text with _ | t
  · rcases path with _ | p
    · simp [bind, Except.bind]
    · obtain ⟨nm, c⟩ := p
      cases c with
      | error e => simp [bind, Except.bind]
      | ok t =>
        simp only [bind, Except.bind, Option.isSome_some, Bool.false_and, Bool.false_eq_true, if_false]
        cases hv : isValid t
        · rfl
        · cases larkParse t <;> rfl
  · by_cases ht : t = ""
    · subst ht
      rcases path with _ | p
      · simp [bind, Except.bind]
      · obtain ⟨nm, c⟩ := p
        cases c with
        | error e => simp [bind, Except.bind]
        | ok t =>
          simp only [bind, Except.bind, bne_self_eq_false, Option.isSome_some, Bool.false_and,
            Bool.false_eq_true, if_false]
          cases hv : isValid t
          · rfl
          · cases larkParse t <;> rfl
    · rcases path with _ | p
      · have : (t != "") = true := by simp [ht]
        simp only [this, Option.isSome_none, Bool.and_false, Bool.false_eq_true, if_false]
        simp only [bind, Except.bind]
        cases hv : isValid t
        · rfl
        · cases larkParse t <;> rfl
      · have : (t != "") = true := by simp [ht]
        simp [this, Except.bind]

/-- no text: `None` or `''` -/
def NoText (text : Option String) : Prop := text = .none ∨ text = some ""

theorem chosenText_cases (text : Option String) (path : Option PathArg) :
    (NoText text ∧ path = .none ∧ chosenText text path =
      .error (.typeError "Either 'text' or 'file_path' has to be set")) ∨
    (¬ NoText text ∧ path.isSome ∧ chosenText text path =
      .error (.typeError "Either 'text' or 'file_path' can be set")) ∨
    (∃ t, text = some t ∧ t ≠ "" ∧ path = .none ∧ chosenText text path = .ok t) ∨
    (∃ p t, NoText text ∧ path = some p ∧ p.content = .ok t ∧ chosenText text path = .ok t) ∨
    (∃ p e, NoText text ∧ path = some p ∧ p.content = .error e ∧
      chosenText text path = .error .io) := by
  unfold NoText chosenText
  rcases text with _ | t
  · rcases path with _ | p
    · simp
    · cases hc : p.content <;> simp [hc]
  · by_cases ht : t = ""
    · subst ht
      rcases path with _ | p
      · simp
      · cases hc : p.content <;> simp [hc]
    · rcases path with _ | p <;> simp [ht]

/-! ### What a call can result in -/

/-- Results of a valid call. -/
theorem createTree'_cases (text : Option String) (path : Option PathArg) :
    (∃ e, chosenText text path = .error e ∧ createTree' text path = .error e) ∨
    (∃ t m, chosenText text path = .ok t ∧ isValid t = false ∧
      createTree' text path = .error (.valueError m) ∧
      m = (match path with | some p => p.name ++ " file content is invalid" | .none => "Text is invalid")) ∨
    (∃ t, chosenText text path = .ok t ∧ isValid t = true ∧ larkParse t = .unexpectedInput ∧
      createTree' text path = .error .unexpectedInput) ∨
    (∃ t tree p, chosenText text path = .ok t ∧ isValid t = true ∧ larkParse t = .ok tree ∧
      Spells t p ∧ tree.core = p.tree ∧ createTree' text path = .ok tree) := by
  rw [createTree'_eq]
  cases hc : chosenText text path with
  | error e => exact .inl ⟨e, rfl, rfl⟩
  | ok t =>
    right
    simp only [Except.bind]
    cases hv : isValid t with
    | false =>
      left
      refine ⟨t, _, rfl, hv, ?_, rfl⟩
      cases path <;> simp
    | true =>
      right
      simp only [if_true]
      have hs := larkParse_sound t
      cases hp : larkParse t with
      | ok tree =>
        obtain ⟨p, h1, h2⟩ := larkParse_program hp
        exact .inr ⟨t, tree, p, rfl, hv, hp, h1, h2, rfl⟩
      | unexpectedInput => exact .inl ⟨t, rfl, hv, hp, rfl⟩
      | stuck => exact absurd hp hs.1
      | fuel => exact absurd hp hs.2.1

/-- how `parse` reports the outcome of the transformation -/
def liftV : Except VErr Val → Except ApiErr Val
  | .ok v => .ok v
  | .error (.visit r e) => .error (.visitError r e)
  | .error (.noCallback _) => .error .internal

theorem parse_eq (P : Parser) (text : Option String) (path : Option PathArg) :
    P.parse text path = (createTree' text path).bind (fun t => liftV (bicepToJson P.addLineNumbers t)) := by
  unfold Parser.parse
  cases createTree' text path with
  | error e => rfl
  | ok t =>
    simp only [bind, Except.bind, liftV]
    cases bicepToJson P.addLineNumbers t with
    | ok v => rfl
    | error e => cases e <;> rfl

theorem bicepToJson_program {ln t} {p : Program} (h : t.core = p.tree) : bicepToJson ln t = p.val ln := by
  rw [← bicepToJson_core, h, program_val]

/-- **Everything `parse` can do.** It refuses the arguments, or the text, or the text is tiled by
tokens that spell a program and the outcome is the meaning of that program. -/
theorem parse_cases (P : Parser) (text : Option String) (path : Option PathArg) :
    (∃ e, chosenText text path = .error e ∧ P.parse text path = .error e) ∨
    (∃ t m, chosenText text path = .ok t ∧ isValid t = false ∧
      P.parse text path = .error (.valueError m) ∧
      m = (match path with | some p => p.name ++ " file content is invalid" | .none => "Text is invalid")) ∨
    (∃ t, chosenText text path = .ok t ∧ isValid t = true ∧
      P.parse text path = .error .unexpectedInput) ∨
    (∃ t p, chosenText text path = .ok t ∧ isValid t = true ∧ Spells t p ∧
      P.parse text path = liftV (p.val P.addLineNumbers)) := by
  rw [parse_eq]
  rcases createTree'_cases text path with ⟨e, h1, h2⟩ | ⟨t, m, h1, h2, h3, h4⟩ | ⟨t, h1, h2, _, h3⟩ |
    ⟨t, tree, p, h1, h2, _, h3, h4, h5⟩
  · rw [h2]; exact .inl ⟨e, h1, rfl⟩
  · rw [h3]; exact .inr (.inl ⟨t, m, h1, h2, rfl, h4⟩)
  · rw [h3]; exact .inr (.inr (.inl ⟨t, h1, h2, rfl⟩))
  · rw [h5]
    refine .inr (.inr (.inr ⟨t, p, h1, h2, h3, ?_⟩))
    simp only [Except.bind, bicepToJson_program h4]

/-- A result of `parse` is the meaning of a program spelled by the text. -/
theorem parse_ok {P : Parser} {text path v} (h : P.parse text path = .ok v) :
    ∃ t p, chosenText text path = .ok t ∧ Spells t p ∧ Program.val P.addLineNumbers p = .ok v := by
  rcases parse_cases P text path with ⟨e, _, h2⟩ | ⟨t, m, _, _, h3, _⟩ | ⟨t, _, _, h3⟩ | ⟨t, p, h1, _, h3, h4⟩
  · rw [h] at h2; cases h2
  · rw [h] at h3; cases h3
  · rw [h] at h3; cases h3
  · refine ⟨t, p, h1, h3, ?_⟩
    rw [h] at h4
    unfold liftV at h4
    split at h4 <;> simp_all

/-- A `VisitError` is the meaning of a program spelled by the text. -/
theorem parse_visitError {P : Parser} {text path r e} (h : P.parse text path = .error (.visitError r e)) :
    ∃ t p, chosenText text path = .ok t ∧ Spells t p ∧
      Program.val P.addLineNumbers p = .error (.visit r e) := by
  rcases parse_cases P text path with ⟨e', h1, h2⟩ | ⟨t, m, _, _, h3, _⟩ | ⟨t, _, _, h3⟩ | ⟨t, p, h1, _, h3, h4⟩
  · rw [h] at h2; cases h2
    rcases chosenText_cases text path with ⟨_, _, h⟩ | ⟨_, _, h⟩ | ⟨_, _, _, _, h⟩ | ⟨_, _, _, _, _, h⟩ |
      ⟨_, _, _, _, _, h⟩ <;> rw [h] at h1 <;> cases h1
  · rw [h] at h3; cases h3
  · rw [h] at h3; cases h3
  · refine ⟨t, p, h1, h3, ?_⟩
    rw [h] at h4
    unfold liftV at h4
    split at h4 <;> simp_all

end Pycep
