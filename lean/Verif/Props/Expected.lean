import Verif.Props.SynErr
import Verif.Proofs.Expected
/-
What the exception for a text with a syntax error says about acceptable tokens (C74).
-/
namespace Pycep

theorem larkChoices_spec (text : String) :
    (∀ e, larkRun text = .err e → ∃ c, larkChoices text = some c ∧ PlacedAt text.toList c.read e ∧
      NamesRightly c ∧ (e.token = .none → c.byLexer = true)) ∧
    ((∀ e, larkRun text ≠ .err e) → larkChoices text = .none) := by
  have := choicesLoop_spec (text.toList.length + 1) [] text.toList .init .init [] [] .nil (by omega) .init .nil
  simpa [larkRun, larkChoices, Ctr.init] using this

/-- **C74.** When `parse` ends with a syntax error, everything that the exception accepts in place of
what is there (`accepts`) can indeed stand behind the tokens in front of the error.  If the error is that
no acceptable token stands there, and always for `UnexpectedCharacters`, everything that stands there in
some clearly written program is accepted.  What is accepted is also expected, apart from the end of the
text and keywords for which a more general terminal is named. -/
theorem C74_accepts (P : Parser) {text : Option String} {path : Option PathArg}
    (h : P.parse text path = .error .unexpectedInput) :
    ∃ t e c, chosenText text path = .ok t ∧ larkRun t = .err e ∧ larkChoices t = some c ∧
      PlacedAt t.toList c.read e ∧ NamesRightly c ∧ (e.token = .none → c.byLexer = true) := by
  obtain ⟨t, h1, h2⟩ := syntax_error_cases (parse_syntax_error h)
  obtain ⟨e, he⟩ := larkRun_err h2
  obtain ⟨c, hc, h3, h4, h5⟩ := (larkChoices_spec t).1 e he
  exact ⟨t, e, c, h1, he, hc, h3, h4, h5⟩

/-- **C74, for trees.** -/
theorem C74_accepts_tree {text : Option String} {path : Option PathArg}
    (h : createTree' text path = .error .unexpectedInput) :
    ∃ t e c, chosenText text path = .ok t ∧ larkRun t = .err e ∧ larkChoices t = some c ∧
      PlacedAt t.toList c.read e ∧ NamesRightly c ∧ (e.token = .none → c.byLexer = true) := by
  obtain ⟨t, h1, h2⟩ := syntax_error_cases h
  obtain ⟨e, he⟩ := larkRun_err h2
  obtain ⟨c, hc, h3, h4, h5⟩ := (larkChoices_spec t).1 e he
  exact ⟨t, e, c, h1, he, hc, h3, h4, h5⟩

/-- **C74, refinement.** There are such sets exactly when the parser rejects the text. -/
theorem C74_outcome (text : String) : (larkChoices text).isSome = true ↔ larkParse text = .unexpectedInput := by
  rcases C63_outcome text with ⟨t, h1, h2⟩ | ⟨e, h1, h2⟩
  · rw [(larkChoices_spec text).2 (by simp [h2]), h1]; simp
  · obtain ⟨c, hc, _⟩ := (larkChoices_spec text).1 e h2
    rw [hc, h1]; simp

/-! ### What does not hold -/

/-- braces that are open behind `l`, if none is closed too early -/
def braces : Nat → List Nat → Option Nat
  | k, [] => some k
  | k, x :: l =>
    if x = T.LBRACE then braces (k + 1) l
    else if x = T.RBRACE then (match k with | 0 => .none | k + 1 => braces k l)
    else braces k l

theorem braces_append (k : Nat) (a b : List Nat) : braces k (a ++ b) = (braces k a).bind fun k' => braces k' b := by
  induction a generalizing k with
  | nil => rfl
  | cons x a ih =>
    rw [List.cons_append]
    conv_lhs => unfold braces
    conv => rhs; arg 1; unfold braces
    split
    · exact ih _
    · split
      · cases k with
        | zero => rfl
        | succ k => exact ih k
      · exact ih k

theorem braces_lift {a : List Nat} {k m : Nat} (h : braces k a = some m) (n : Nat) : braces (k + n) a = some (m + n) := by
  induction a generalizing k with
  | nil => simp only [braces, Option.some.injEq] at h; simp [braces, h]
  | cons x a ih =>
    unfold braces at h ⊢
    split at h
    · rw [if_pos ‹_›, Nat.add_right_comm]; exact ih h
    · rw [if_neg ‹_›]
      split at h
      · rw [if_pos ‹_›]
        cases k with
        | zero => cases h
        | succ k => rw [Nat.add_right_comm]; exact ih h
      · rw [if_neg ‹_›]; exact ih h

theorem rule_braces : (rules.all fun r => braces 0 r.rhs == some 0) = true := by decide +kernel

theorem der_braces {ss ts w} (h : Der ss ts w) : ∀ {k m}, braces k ss = some m → braces k (w.map Tok.type) = some m := by
  induction h with
  | nil => exact fun h => h
  | tok t _ ih =>
    intro k m h
    rw [List.map_cons]
    unfold braces at h ⊢
    split at h
    · rw [if_pos ‹_›]; exact ih h
    · rw [if_neg ‹_›]
      split at h
      · rw [if_pos ‹_›]
        cases k with
        | zero => cases h
        | succ k => exact ih h
      · rw [if_neg ‹_›]; exact ih h
  | node r hr _ _ ih1 ih2 =>
    intro k m h
    have h0 := List.all_eq_true.mp rule_braces r hr
    rw [beq_iff_eq] at h0
    have h1 := ih1 (by simpa using braces_lift h0 k)
    have hl := (rule_spec hr).1
    rw [List.map_append, braces_append, h1]
    unfold braces at h
    rw [if_neg (by intro e; rw [e] at hl; exact absurd hl (by decide)),
      if_neg (by intro e; rw [e] at hl; exact absurd hl (by decide))] at h
    exact ih2 h

/-- comparison for the examples -/
def choicesAre (o : Option Choices) (types : List Nat) (byLexer : Bool) (expected accepts : List Nat) : Bool :=
  match o with
  | some c => c.read.map Tok.type == types && c.byLexer == byLexer && c.expected == expected && c.accepts == accepts
  | .none => false

theorem of_choicesAre {o : Option Choices} {ts b xs ys} (h : choicesAre o ts b xs ys = true) :
    ∃ c, o = some c ∧ c.read.map Tok.type = ts ∧ c.byLexer = b ∧ c.expected = xs ∧ c.accepts = ys := by
  cases o with
  | none => cases h
  | some c =>
    simp only [choicesAre, Bool.and_eq_true, beq_iff_eq] at h
    exact ⟨c, rfl, h.1.1.1, h.1.1.2, h.1.2, h.2⟩

/-- a missing name: only a name could stand there -/
example : ∃ c, larkChoices "var x = 1\nvar = 2\n" = some c ∧
    c.read.map Tok.type = [T.VAR, T.STRING, T.EQUAL, T.INT, T._CPP_COMMENT_NL, T.VAR] ∧ c.byLexer = true ∧
    c.expected = [T.STRING] ∧ c.accepts = [T.STRING] :=
  of_choicesAre (by decide +kernel)

/-- a text that ends too early -/
example : ∃ c, larkChoices "param x" = some c ∧
    c.read.map Tok.type = [T.PARAM, T.STRING] ∧ c.byLexer = false ∧
    c.expected = [T.STRING, T.LPAR] ∧ c.accepts = [T.STRING, T.LPAR] :=
  of_choicesAre (by decide +kernel)

/-- a missing value: three keywords are not named, they are covered by the identifiers -/
example : ∃ c, larkChoices "module x 'a.bicep' = {\n  name: \n}" = some c ∧
    c.read.map Tok.type = [T.MODULE, T.STRING, T.QUOTED_INTERPOLATION, T.EQUAL, T.LBRACE, T._CPP_COMMENT_NL, T.STRING, T.COLON, T._NEWLINE] ∧
    c.byLexer = true ∧ c.expected = [T.FUNCTION, T.QUOTED_INTERPOLATION, T.STRING, T.INT] ∧
    c.accepts = [T.FUNCTION, T.QUOTED_INTERPOLATION, T.STRING, T.INT, T.FALSE, T.NULL, T.TRUE] :=
  of_choicesAre (by decide +kernel)

/-- **C74, expected is more.** The `allowed` of `UnexpectedCharacters` may name a token that can never
stand there: behind `var x = 1 ` a closing brace is named. -/
theorem C74_expected_more : ∃ e c, larkRun "var x = 1 ~\n" = .err e ∧ e.token = .none ∧
    larkChoices "var x = 1 ~\n" = some c ∧ T.RBRACE ∈ c.expected ∧ ¬ CanFollow c.read T.RBRACE := by
  have h0 : larkRun "var x = 1 ~\n" = .err ⟨.none, 10, 1, 11⟩ := eq_of_runErrIs (by decide +kernel)
  have h1 : (match larkChoices "var x = 1 ~\n" with
    | some c => c.expected.contains T.RBRACE && c.read.map Tok.type == [T.VAR, T.STRING, T.EQUAL, T.INT]
    | .none => false) = true := by decide +kernel
  cases hc : larkChoices "var x = 1 ~\n" with
  | none => rw [hc] at h1; cases h1
  | some c =>
    rw [hc] at h1
    simp only [Bool.and_eq_true, beq_iff_eq, List.contains_iff_mem] at h1
    refine ⟨_, c, h0, rfl, rfl, h1.1, ?_⟩
    rintro (⟨h, _⟩ | ⟨_, x, _, hb⟩)
    · exact absurd h (by decide)
    · obtain ⟨w', t, _, hd⟩ := hb 0 0
      have := der_braces hd (k := 0) (m := 0) (by decide)
      rw [List.map_append, List.map_append, braces_append, braces_append, h1.2] at this
      have h2 : braces 0 [T.VAR, T.STRING, T.EQUAL, T.INT] = some 0 := by decide
      rw [h2] at this
      simp [braces] at this

/-- **C74, accepts is less.** The sets of an `UnexpectedToken` may lack a token that can stand there:
`!` behind `var x = 1 `, if there is a closing brace. -/
theorem C74_accepts_less : ∃ c tree, larkChoices "var x = 1 }\n" = some c ∧ T.BANG ∉ c.expected ∧
    T.BANG ∉ c.accepts ∧ createTree' (some "var x = 1 !\n") .none = .ok tree := by
  have h1 : (match larkChoices "var x = 1 }\n" with
    | some c => !c.expected.contains T.BANG && !c.accepts.contains T.BANG
    | .none => false) = true := by decide +kernel
  have h2 : (match createTree' (some "var x = 1 !\n") .none with
    | .ok _ => true
    | .error _ => false) = true := by decide +kernel
  cases hc : larkChoices "var x = 1 }\n" with
  | none => rw [hc] at h1; cases h1
  | some c =>
    rw [hc] at h1
    cases ht : createTree' (some "var x = 1 !\n") .none with
    | error e => rw [ht] at h2; cases h2
    | ok tree => exact ⟨c, tree, rfl, by simpa using ((Bool.and_eq_true _ _).mp h1).1,
        by simpa using ((Bool.and_eq_true _ _).mp h1).2, rfl⟩

end Pycep
