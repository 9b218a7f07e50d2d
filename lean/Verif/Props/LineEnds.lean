import Verif.Props.ApiProps
import Verif.Proofs.LineEndsParse
import Verif.Proofs.Examples
/-
C71: Windows and Unix line ends.
-/
namespace Pycep

theorem unixText_ne {t : String} (h : t ≠ "") : unixText t ≠ "" := by
  intro e
  have : unix t.toList = [] := by
    have := congrArg String.toList e
    simpa [unixText] using this
  have := unix_eq_nil this
  exact h (by rw [← String.ofList_toList (s := t), this])

theorem unixText_empty : unixText "" = "" := rfl

theorem chosenText_unix (t : String) : chosenText (some (unixText t)) .none =
    (chosenText (some t) .none).map unixText := by
  by_cases h : t = ""
  · subst h; rfl
  · have h' := unixText_ne h
    have c : ∀ u : String, u ≠ "" → chosenText (some u) .none = .ok u := by
      intro u hu
      unfold chosenText
      split <;> simp_all
    rw [c _ h, c _ h']; rfl

theorem createTree'_unix {t : String} (h : NoCrCrLf t.toList) :
    createTree' (some (unixText t)) .none = (createTree' (some t) .none).map Tree.unix := by
  rw [createTree'_eq, createTree'_eq, chosenText_unix]
  by_cases ht : t = ""
  · subst ht; rfl
  · have hc : chosenText (some t) .none = .ok t := by
      unfold chosenText
      split <;> simp_all
    simp only [hc, Except.map, Except.bind, isValid_unix, larkParse_unix h]
    split
    · cases larkParse t <;> rfl
    · rfl

theorem createTree'_fine {text path tree} (h : createTree' text path = .ok tree) : tree.Fine := by
  rcases createTree'_cases text path with ⟨e, _, h2⟩ | ⟨t, m, _, _, h3, _⟩ | ⟨t, _, _, _, h3⟩ |
    ⟨t, tr, p, _, _, h3, _, _, h6⟩
  · rw [h2] at h; cases h
  · rw [h3] at h; cases h
  · rw [h3] at h; cases h
  · rw [h6] at h; cases h; exact larkParse_fine h3

/-- **C71, the tree.**  `create_tree` of the text with Unix line ends is the tree of the text, printed
with Unix line ends; if the text is rejected, so is the other, with the same exception. -/
theorem C71_tree (P : Parser) {t : String} (h : NoCrCrLf t.toList) :
    P.createTree (some (unixText t)) .none = (P.createTree (some t) .none).map unixText := by
  unfold Parser.createTree
  rw [createTree'_unix h]
  cases hc : createTree' (some t) .none with
  | error e => rfl
  | ok tree =>
    simp only [Except.map]
    rw [pretty_unix tree 0 (createTree'_fine hc)]

/-- **C71, the result.**  If the tree `create_tree` prints has no Windows line end in it (only string
literals can bring one in), then the text with Unix line ends has the same tree, and `parse` gives the
same result for it, line numbers included, or the same exception. -/
theorem C71_same_result (P : Parser) {t : String} (h : NoCrCrLf t.toList)
    (hw : ∀ s, P.createTree (some t) .none = .ok s → ¬ HasCrLf s.toList) :
    P.parse (some (unixText t)) .none = P.parse (some t) .none ∧
    P.createTree (some (unixText t)) .none = P.createTree (some t) .none := by
  have e : createTree' (some (unixText t)) .none = createTree' (some t) .none := by
    rw [createTree'_unix h]
    cases hc : createTree' (some t) .none with
    | error e => rfl
    | ok tree =>
      have : tree.unix = tree := by
        refine Tree.unix_id fun w hm hcr => ?_
        refine hw (tree.prettyAux 0) ?_ (hcr.mono (texts_pretty tree 0 w hm))
        unfold Parser.createTree; rw [hc]; rfl
      simp only [Except.map, this]
  refine ⟨?_, ?_⟩
  · rw [parse_eq, parse_eq, e]
  · unfold Parser.createTree; rw [e]

/-- **C71, the verdict.**  Whether `parse` rejects a text (with a syntax error or as invalid) does not
depend on the line ends. -/
theorem C71_same_verdict (P : Parser) {t : String} (h : NoCrCrLf t.toList) {e : ApiErr}
    (he : ∀ r x, e ≠ .visitError r x) :
    P.parse (some t) .none = .error e ↔ P.parse (some (unixText t)) .none = .error e := by
  rw [parse_eq, parse_eq, createTree'_unix h]
  cases hc : createTree' (some t) .none with
  | error e' => simp [Except.map, Except.bind]
  | ok tree =>
    have no : ∀ (t' : String) (tree : Tree), larkParse t' = .ok tree →
        liftV (bicepToJson P.addLineNumbers tree) ≠ .error e := by
      intro t' tree hl
      cases hb : bicepToJson P.addLineNumbers tree with
      | ok v => simp [liftV]
      | error x =>
        cases x with
        | visit r x => intro e'; cases e'; exact he _ _ rfl
        | noCallback r => exact absurd hb ((C05_no_internal_error t').2.2 tree hl _ r)
    have of : ∀ (u : String) (tree : Tree), createTree' (some u) .none = .ok tree →
        liftV (bicepToJson P.addLineNumbers tree) ≠ .error e := by
      intro u tree h
      rcases createTree'_cases (some u) .none with ⟨e, _, h2⟩ | ⟨t, m, _, _, h3, _⟩ | ⟨t, _, _, _, h3⟩ |
        ⟨t, tr, p, _, _, h3, _, _, h6⟩
      · rw [h2] at h; cases h
      · rw [h3] at h; cases h
      · rw [h3] at h; cases h
      · rw [h6] at h; cases h; exact no t _ h3
    have h1 := of t tree hc
    have h2 := of (unixText t) tree.unix (by rw [createTree'_unix h, hc]; rfl)
    simp only [Except.map, Except.bind]
    exact ⟨fun h => absurd h h1, fun h => absurd h h2⟩

/-- **C71, files.**  `read_text` turns Windows line ends into Unix ones.  For a text whose carriage
returns all belong to Windows line ends, none of them in the printed tree, the file with these characters is
parsed to the result of the text, or fails the same way (the message of the gate names the file). -/
theorem C71_file (P : Parser) {t : String} (name : String) (hne : t ≠ "") (hcr : NoLoneCr t.toList)
    (hw : ∀ s, P.createTree (some t) .none = .ok s → ¬ HasCrLf s.toList) :
    P.parse .none (some (.ofFile name t)) = renameGate (.ofFile name t) (P.parse (some t) .none) ∧
    P.createTree .none (some (.ofFile name t)) =
      renameGate (.ofFile name t) (P.createTree (some t) .none) := by
  have hc : (PathArg.ofFile name t).content = .ok (unixText t) := by
    simp [PathArg.ofFile, unixText, universal_eq hcr]
  obtain ⟨h1, h2⟩ := C71_same_result P hcr.fine hw
  obtain ⟨h3, h4⟩ := C03_file_is_text P (.ofFile name t) (unixText t) hc (unixText_ne hne) .none (.inl rfl)
  rw [h1] at h3
  rw [h2] at h4
  exact ⟨h3, h4⟩

/-! ### Examples -/

theorem treeIs {P : Parser} {text path} {s : String}
    (h : (match P.createTree text path with | .ok x => x == s | .error _ => false) = true) :
    P.createTree text path = .ok s := by
  cases hc : P.createTree text path with
  | error e => rw [hc] at h; cases h
  | ok x => rw [hc] at h; rw [eq_of_beq h]

theorem hasCrLf_iff {s : List Char} : HasCrLf s ↔ ['\r', '\n'] <:+: s := by
  constructor
  · rintro ⟨a, b, rfl⟩; exact ⟨a, b, by simp⟩
  · rintro ⟨a, b, rfl⟩; exact ⟨a, b, by simp⟩

/-- a check for `NoLoneCr` -/
def crOk : List Char → Bool
  | [] => true
  | c :: s => (c != '\r' || s.head? == some '\n') && crOk s

theorem noLoneCr_of : ∀ {s : List Char}, crOk s = true → NoLoneCr s
  | [], _, a, b, h => by simp at h
  | c :: s, hc, a, b, h => by
    simp only [crOk, Bool.and_eq_true, Bool.or_eq_true, bne_iff_ne, beq_iff_eq] at hc
    cases a with
    | nil =>
      simp only [List.nil_append, List.cons.injEq] at h
      obtain ⟨rfl, rfl⟩ := h
      rcases hc.1 with h | h
      · exact absurd rfl h
      · exact h
    | cons x a =>
      simp only [List.cons_append, List.cons.injEq] at h
      exact noLoneCr_of hc.2 a b h.2

/-- a document with Windows line ends -/
def winText : String := "// sizes\r\nparam p int = 1\r\n\r\nvar v = [\r\n  'a'\r\n  p\r\n]\r\n"

/-- the tree it is printed as -/
def winTree : String := "start\n  param\n    None\n    p\n    data_type\n      base_type\tint\n    int_type\t1\n" ++
  "  var\n    None\n    v\n    None\n    array\n      string\t'a'\n      string\tp\n"

/-- The document meets the hypotheses of the theorems (`NoLoneCr` is the stronger one of the two about
carriage returns), and its Unix form is another text. -/
example : NoCrCrLf winText.toList ∧ NoLoneCr winText.toList ∧
    unixText winText = "// sizes\nparam p int = 1\n\nvar v = [\n  'a'\n  p\n]\n" ∧
    (∀ (P : Parser) s, P.createTree (some winText) .none = .ok s → s = winTree ∧ ¬ HasCrLf s.toList) := by
  refine ⟨?_, noLoneCr_of (by decide +kernel), by decide +kernel, ?_⟩
  · unfold NoCrCrLf; decide +kernel
  · intro P s h
    have h' : P.createTree (some winText) .none = .ok winTree := by
      rw [show P.createTree (some winText) .none = Parser.createTree ⟨true⟩ (some winText) .none from rfl]
      exact treeIs (by decide +kernel)
    rw [h'] at h
    cases h
    refine ⟨rfl, ?_⟩
    rw [hasCrLf_iff]
    decide +kernel

/-- so its result with line numbers is that of the Unix form -/
example : (∀ t ∈ [winText, unixText winText],
    Parser.parse ⟨true⟩ (some t) .none = .ok (.dict [
      ("globals", .dict [("scope", .dict [("value", .str "resourceGroup"), ("__start_line__", .int 0),
        ("__end_line__", .int 0)])]),
      ("parameters", .dict [("p", .dict [("decorators", .list []), ("type", .str "int"), ("default", .int 1),
        ("__start_line__", .int 2), ("__end_line__", .int 2)])]),
      ("variables", .dict [("v", .dict [("decorators", .list []), ("value", .list [.str "a", .elem "p"]),
        ("__start_line__", .int 4), ("__end_line__", .int 7)])])])) := by
  intro t ht
  simp only [List.mem_cons, List.not_mem_nil, or_false] at ht
  rcases ht with rfl | rfl
  · exact eq_of_outIs (by decide +kernel)
  · exact eq_of_outIs (by decide +kernel)

/-- Windows line ends inside a string literal do matter: the first line end of a multi-line string is
dropped if it is a Unix one.  So the same file content given as text and read from a file has
different results. -/
example :
    Parser.parse ⟨false⟩ (some "var v = '''\r\na'''\r\n") .none = .ok (.dict [
      ("globals", .dict [("scope", .dict [("value", .str "resourceGroup")])]),
      ("variables", .dict [("v", .dict [("decorators", .list []), ("value", .str "\r\na")])])]) ∧
    Parser.parse ⟨false⟩ .none (some (.ofFile "f" "var v = '''\r\na'''\r\n")) = .ok (.dict [
      ("globals", .dict [("scope", .dict [("value", .str "resourceGroup")])]),
      ("variables", .dict [("v", .dict [("decorators", .list []), ("value", .str "a")])])]) :=
  ⟨eq_of_outIs (by decide +kernel), eq_of_outIs (by decide +kernel)⟩

/-- A carriage return before a Windows line end is rejected, although the text is accepted if the
Windows line end is replaced; a carriage return on its own is rejected in a text, but is a line end in
a file. -/
example :
    Parser.parse ⟨false⟩ (some "var v = 1\r\r\n") .none = .error .unexpectedInput ∧
    unixText "var v = 1\r\r\n" = "var v = 1\r\n" ∧
    Parser.parse ⟨false⟩ (some "var v = 1\r\n") .none = .ok (.dict [
      ("globals", .dict [("scope", .dict [("value", .str "resourceGroup")])]),
      ("variables", .dict [("v", .dict [("decorators", .list []), ("value", .int 1)])])]) ∧
    Parser.parse ⟨false⟩ (some "var v = 1\r") .none = .error .unexpectedInput ∧
    Parser.parse ⟨false⟩ .none (some (.ofFile "f" "var v = 1\r")) = .ok (.dict [
      ("globals", .dict [("scope", .dict [("value", .str "resourceGroup")])]),
      ("variables", .dict [("v", .dict [("decorators", .list []), ("value", .int 1)])])]) :=
  ⟨eq_of_errIs (by decide +kernel), by decide +kernel, eq_of_outIs (by decide +kernel),
    eq_of_errIs (by decide +kernel), eq_of_outIs (by decide +kernel)⟩

end Pycep
