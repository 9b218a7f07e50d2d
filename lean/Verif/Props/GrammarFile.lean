import Verif.Props.Text
import Verif.Proofs.LarkWords
/-
C66, C67: trees and words are those of the grammar file pycep/bicep.lark.
-/
namespace Pycep
open Lark

/-- What the text of the grammar file defines. -/
theorem grammar_file : ∃ ss cs, readFile (grammarLines.map String.toList) = some ss ∧
    readFile commonChars = some cs ∧ loadTerms ss cs = some larkTerms ∧
    loadRules larkTerms ss = some larkRules := by
  have h1 := loadTerms_ok
  have h2 := loadRules_ok
  rw [grammarChars_eq]
  cases hs : readFile grammarChars with
  | none => simp [hs] at h2
  | some ss =>
    cases hc : readFile commonChars with
    | none => simp [hs, hc] at h1
    | some cs =>
      simp only [hs, hc, Option.bind_eq_bind, Option.bind_some] at h1 h2
      exact ⟨ss, cs, rfl, rfl, h1, h2⟩

/-- The symbol `start` of the parser is the rule `start` of the grammar file. -/
theorem start_rule : ∀ d ∈ larkRules, d.name = ['s', 't', 'a', 'r', 't'] ↔ d.id = N.start := by
  decide +kernel

theorem start_ex : ∃ d ∈ larkRules, d.name = ['s', 't', 'a', 'r', 't'] := by decide +kernel

theorem yields_assigns {w tree} (h : Lark.Yields larkRules (.rule N.start) [tree] w) :
    Assigns (grammarLines.map String.toList) commonChars w tree := by
  obtain ⟨ss, cs, h1, h2, h3, h4⟩ := grammar_file
  obtain ⟨d, h5, h6⟩ := start_ex
  refine ⟨ss, cs, _, _, d, h1, h2, h3, h4, h5, h6, ?_⟩
  rw [(start_rule d h5).mp h6]; exact h

/-- **C66, the grammar.** The parser's grammar derives from a sequence of tokens exactly the trees
that the grammar file assigns to it: pycep/bicep.lark read as written, with its alternatives,
options, repetitions and groups, `?rules`, `_rules`, `!rules` and `->` names. -/
theorem C66_same_grammar {w : List Tok} (hw : ∀ u ∈ w, u.type < 128) (b : Tree) :
    Assigns (grammarLines.map String.toList) commonChars w b ↔
      ∃ tree, Der [N.start] [tree] w ∧ tree.bare = b := by
  constructor
  · rintro ⟨ss, cs, terms, G, d, h1, h2, h3, h4, h5, h6, h7⟩
    obtain ⟨ss', cs', g1, g2, g3, g4⟩ := grammar_file
    rw [g1] at h1; cases h1
    rw [g2] at h2; cases h2
    rw [g3] at h3; cases h3
    rw [g4] at h4; cases h4
    rw [(start_rule d h5).mp h6] at h7
    exact yields_start h7
  · rintro ⟨tree, hd, rfl⟩
    exact yields_assigns (der_yields hd hw)

theorem Tiling.type_lt {l s w} (h : Tiling l s w) : ∀ u ∈ w, u.type < 128 := by
  induction h with
  | nil => simp
  | skip _ _ ih => exact ih
  | tok _ ht _ ih =>
    intro u hu
    rcases List.mem_cons.mp hu with rfl | hu
    · simp only [tEND] at ht ⊢; omega
    · exact ih u hu

/-- **C66.** The tree that `create_tree` returns is one that the grammar file assigns to the tokens
of the text. -/
theorem C66_grammar_file {text path tree} (h : createTree' text path = .ok tree) :
    ∃ t w, chosenText text path = .ok t ∧ Tiling 1 t.toList w ∧
      Assigns (grammarLines.map String.toList) commonChars w tree.bare := by
  obtain ⟨t, w, h1, h2, h3, _⟩ := C46_derivation h
  exact ⟨t, w, h1, h2, (C66_same_grammar h2.type_lt _).mpr ⟨tree, h3, rfl⟩⟩

/-- **C67.** An accepted text is cut into words as the terminals of the grammar file say.  At every
place the terminals that are acceptable there are tried in the order of priority, greatest length of
a match, length of the pattern and name, strings that a regular expression covers left out; the
first one that matches takes its word; a keyword takes precedence over a more general terminal that
matched it; `%ignore`d words are dropped; the others, with their lines, are the tokens of which the
grammar file makes the tree.  What is acceptable at a place depends on nothing but the tokens before
it and includes the ignored terminals. -/
theorem C67_words : ∃ (ss cs : List Stmt) (terms : List TermDef) (acc : List Tok → List Nat),
    readFile (grammarLines.map String.toList) = some ss ∧ readFile commonChars = some cs ∧
    loadTerms ss cs = some terms ∧
    (∀ pre t, Ignored ss terms t → t ∈ acc pre) ∧
    ∀ text path tree, createTree' text path = .ok tree → ∃ t w, chosenText text path = .ok t ∧
      Lark.Cut terms (Ignored ss terms) acc [] 1 t.toList w ∧
      Assigns (grammarLines.map String.toList) commonChars w tree.bare := by
  obtain ⟨ss, cs, h1, h2, h3, h4⟩ := grammar_file
  have hig : ignored ss = [['C','_','C','O','M','M','E','N','T'], ['S','H','_','C','O','M','M','E','N','T'],
      ['W','S','_','I','N','L','I','N','E']] := by
    have : (readFile grammarChars).map ignored = some [['C','_','C','O','M','M','E','N','T'],
      ['S','H','_','C','O','M','M','E','N','T'], ['W','S','_','I','N','L','I','N','E']] := by
      decide +kernel
    rw [grammarChars_eq] at h1
    simpa [h1] using this
  have hign : ∀ t < tEND, Ignored ss larkTerms t ↔ t ∈ ignoreIds := by
    intro t ht
    unfold Ignored
    rw [hig]
    exact ignored_iff t ht
  refine ⟨ss, cs, larkTerms, acceptable, h1, h2, h3, ?_, ?_⟩
  · intro pre t ht
    have hlt : t < tEND := by
      obtain ⟨d, hd, _⟩ := ht
      have := (List.getElem?_eq_some_iff.mp hd).1
      rwa [show larkTerms.length = tEND by decide +kernel] at this
    have := (hign t hlt).mp ht
    simp only [acceptable, accepts, List.mem_filter, List.mem_range, hlt, true_and, Bool.or_eq_true]
    exact .inr (by simpa using this)
  · intro text path tree h
    rcases createTree'_cases text path with ⟨e, g1, g2⟩ | ⟨t, m, g1, g2, g3, g4⟩ | ⟨t, g1, g2, _, g3⟩ |
      ⟨t, tree', p, g1, g2, g3, g4, g5, g6⟩
    · rw [h] at g2; cases g2
    · rw [h] at g3; cases g3
    · rw [h] at g3; cases g3
    · rw [h] at g6; cases g6
      obtain ⟨w, hw, hd⟩ := parseLoop_cut hign _ [] [] _ _ .nil g3
      refine ⟨t, w, g1, hw, (C66_same_grammar ?_ _).mpr ⟨tree, by simpa using hd.der, rfl⟩⟩
      exact hw.type_lt

/-- a text with a keyword, an identifier that begins like a keyword, and a comment -/
example : ∃ tree, createTree' (some "var variable = /* c */ 1\n") .none = .ok tree ∧
    tree.leaves = [⟨T.STRING, ['v','a','r','i','a','b','l','e'], 1, 1⟩, ⟨T.INT, ['1'], 1, 1⟩] := by
  have : (match createTree' (some "var variable = /* c */ 1\n") .none with
    | .ok tree => decide (tree.leaves = [⟨T.STRING, ['v','a','r','i','a','b','l','e'], 1, 1⟩, ⟨T.INT, ['1'], 1, 1⟩])
    | .error _ => false) = true := by decide +kernel
  split at this
  · rename_i tree h; exact ⟨tree, h, of_decide_eq_true this⟩
  · cases this

end Pycep
