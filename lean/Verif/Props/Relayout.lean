import Verif.Props.ApiProps
import Verif.Proofs.Shape
import Verif.Proofs.Examples
/-
C56: how a text is laid out does not matter.
-/
namespace Pycep

/-- **C56.**  An accepted text consists of tokens such that every text that is a clear way to write
the same tokens, with other blanks, comments and line breaks, is accepted too, has the same tree
and, without line numbers, the same outcome. -/
theorem C56_relayout {text : Option String} {path : Option PathArg} {tree : String} {P : Parser}
    (h : P.createTree text path = .ok tree) :
    ∃ t w, chosenText text path = .ok t ∧ Tiling 1 t.toList w ∧
      ∀ (t' : String) (w' : List Tok) (n : Nat), Layout tEND t'.toList 1 w' → List.Forall₂ SameTok w w' →
        t' ≠ "" → Occ t'.toList n → n % 2 = 0 →
        P.createTree (some t') .none = .ok tree ∧
        (Parser.mk false).parse (some t') .none = (Parser.mk false).parse text path := by
  have hct : ∃ tr, createTree' text path = .ok tr ∧ tr.prettyAux 0 = tree := by
    unfold Parser.createTree at h
    cases hc : createTree' text path with
    | error e => rw [hc] at h; cases h
    | ok tr => rw [hc] at h; cases h; exact ⟨tr, rfl, rfl⟩
  obtain ⟨tr, hc, rfl⟩ := hct
  rcases createTree'_cases text path with ⟨e, _, h2⟩ | ⟨t, m, _, _, h3, _⟩ | ⟨t, _, _, _, h3⟩ |
    ⟨t, tr', p, h1, _, h3, _, _, h6⟩
  · rw [h2] at hc; cases hc
  · rw [h3] at hc; cases hc
  · rw [h3] at hc; cases hc
  · rw [h6] at hc
    cases hc
    obtain ⟨w, hw, hr⟩ := larkParse_relayout h3
    refine ⟨t, w, h1, hw, fun t' w' n hl hs hne ho hn => ?_⟩
    obtain ⟨tr', g1, g2⟩ := hr t' w' hl hs
    have hb := larkParse_noBreaks h3
    have hb' := larkParse_noBreaks g1
    have hc' : createTree' (some t') .none = .ok tr' := by
      rw [createTree'_eq]
      have : chosenText (some t') .none = .ok t' := by
        unfold chosenText
        split <;> simp_all
      simp only [this, Except.bind, isValid_iff ho, hn, g1]
      rfl
    constructor
    · unfold Parser.createTree
      rw [hc']
      simp only [Except.map]
      rw [← pretty_shape tr' 0 hb', ← g2, pretty_shape tr 0 hb]
    · rw [parse_eq, parse_eq, hc', h6]
      simp only [Except.bind]
      rw [← bicepToJson_shape hb', ← g2, bicepToJson_shape hb]

/-! An example: the tokens of `var x=1`, laid out with a comment and over two lines. -/

/-- the tokens of `var x=1` -/
def exTokens : List Tok :=
  [⟨T.VAR, ['v', 'a', 'r'], 1, 1⟩, ⟨T.STRING, ['x'], 1, 1⟩, ⟨T.EQUAL, ['='], 1, 1⟩, ⟨T.INT, ['1'], 1, 1⟩]

example : Layout tEND "var /* a\nb */ x\t=1 # c".toList 1
    [⟨T.VAR, ['v', 'a', 'r'], 1, 1⟩, ⟨T.STRING, ['x'], 2, 2⟩, ⟨T.EQUAL, ['='], 2, 2⟩, ⟨T.INT, ['1'], 2, 2⟩] ∧
    List.Forall₂ SameTok exTokens
      [⟨T.VAR, ['v', 'a', 'r'], 1, 1⟩, ⟨T.STRING, ['x'], 2, 2⟩, ⟨T.EQUAL, ['='], 2, 2⟩, ⟨T.INT, ['1'], 2, 2⟩] ∧
    Tiling 1 "var x=1".toList exTokens := by
  refine ⟨?_, ?_, ?_⟩
  · refine .tok (t := T.VAR) (x := ['v', 'a', 'r']) ?_ (.gap (x := [' ']) .blank (.gap (x := "/* a\nb */".toList) ?_
      (.gap (x := [' ']) .blank (.tok (t := T.STRING) (x := ['x']) ?_ (.gap (x := ['\t']) .tab
      (.tok (t := T.EQUAL) (x := ['=']) ?_ (.tok (t := T.INT) (x := ['1']) ?_ (.gap (x := [' ']) .blank
      (.gap (x := "# c".toList) (s := []) ?_ .nil)))))))))
    · exact Fits.keyword (k := T.VAR) (by decide) (by intro c cs h; cases h; decide) (by decide)
    · exact .comment (x := " a\nb ".toList) (by decide)
    · refine .ident ⟨'x', [], rfl, by decide, by decide⟩ (by intro c cs h; cases h; decide) (by decide) (by decide)
        ?_ (fun h => absurd h (by decide))
      have : ∀ k ∈ keywordIds, ['x'] ≠ fixedChars k := by decide +kernel
      exact fun k hk he => absurd he (this k hk)
    · exact Fits.op1 (t := T.EQUAL) (by decide) (by decide +kernel)
    · exact .int (by decide) (by decide) (by intro c cs h; cases h; decide) (by decide)
    · exact .hash (x := " c".toList) (by decide) (.inl rfl)
  · exact .cons ⟨rfl, fun _ => rfl⟩ (.cons ⟨rfl, fun _ => rfl⟩ (.cons ⟨rfl, fun _ => rfl⟩ (.cons ⟨rfl, fun _ => rfl⟩ .nil)))
  · refine .tok (t := T.VAR) (x := ['v', 'a', 'r']) ⟨_, _, rfl, rfl, by decide⟩ (by decide) (.skip (x := [' ']) (.ws (by decide) (by decide))
      (.tok (t := T.STRING) (x := ['x']) ⟨'x', [], rfl, by decide, by decide⟩ (by decide)
      (.tok (t := T.EQUAL) (x := ['=']) ⟨_, _, rfl, rfl, by decide⟩ (by decide)
      (.tok (t := T.INT) (x := ['1']) ⟨by decide, by decide⟩ (by decide) .nil))))

example : (Parser.mk false).parse (some "var x=1") .none =
    .ok (.dict [("globals", .dict [("scope", .dict [("value", .str "resourceGroup")])]),
      ("variables", .dict [("x", .dict [("decorators", .list []), ("value", .int 1)])])]) ∧
  (Parser.mk false).parse (some "var /* a\nb */ x\t=1 # c") .none =
    .ok (.dict [("globals", .dict [("scope", .dict [("value", .str "resourceGroup")])]),
      ("variables", .dict [("x", .dict [("decorators", .list []), ("value", .int 1)])])]) :=
  ⟨eq_of_outIs (by decide +kernel), eq_of_outIs (by decide +kernel)⟩

end Pycep
