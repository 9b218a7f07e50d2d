import Verif.Parser
import Verif.Proofs.LexerSound
import Verif.Proofs.Syn
import Verif.Proofs.SemDecl
import Verif.Proofs.LexComplete
import Verif.Proofs.TreeInj
import Verif.Proofs.Extents
import Verif.Spec.Spells
/-
What the parser returns, from the text to the value: an accepted text is tiled by tokens that spell
a program, and the result is the meaning of that program.
-/
namespace Pycep

theorem Tiling.tokText {l x w} (h : Tiling l x w) : ∀ u ∈ w, u.type < tEND ∧ TokText u.type u.text := by
  induction h with
  | nil => simp
  | skip _ _ ih => exact ih
  | tok ht hlt _ ih =>
    intro u hu
    rcases List.mem_cons.mp hu with rfl | hu
    · exact ⟨hlt, ht⟩
    · exact ih u hu

theorem Writes.tree {t : String} {p : Program} (h : Writes t p) (hc : p.clear = true) :
    ∃ tr, larkParse t = .ok tr ∧ tr.core = p.tree := by
  obtain ⟨w, h1, h2⟩ := h
  exact larkParse_layout h1 h2 hc

/-- The tree of a text is the tree of the program that is clearly written in it. -/
theorem spells_of {text : String} {t : Tree} {p : Program} {w} (h : larkParse text = .ok t) (hp : t.core = p.tree)
    (hw : ExactTiling 1 text.toList w) (hs : ProgSyn p w tEND) : Spells text p := by
  refine ⟨⟨w, hw, hs⟩, fun q hq hc => ?_⟩
  obtain ⟨t', h1, h2⟩ := hq.tree hc
  rw [h] at h1
  cases h1
  exact Program.tree_inj (h2.symm.trans hp)

/-- Every tree the parser builds is the tree of a program, spelled by an exact cutting of the text. -/
theorem larkParse_exact {text : String} {t : Tree} (h : larkParse text = .ok t) :
    ∃ p w, ExactTiling 1 text.toList w ∧ ProgSyn p w tEND ∧ t.core = p.tree ∧ Spells text p := by
  obtain ⟨w, hw, hd⟩ := parseLoop_exact (text.toList.length + 1) [] [] text.toList 1 Inv.init (by omega) t
    (by simpa [larkParse] using h)
  rw [List.nil_append] at hd
  obtain ⟨p, hp, hs⟩ := derL_program hd hw.tiling.tokText
  exact ⟨p, w, hw, hs, hp, spells_of h hp hw hs⟩

/-- Every tree the parser builds is the tree of a program spelled by the text. -/
theorem larkParse_program {text : String} {t : Tree} (h : larkParse text = .ok t) :
    ∃ p, Spells text p ∧ t.core = p.tree := by
  obtain ⟨p, _, _, _, hp, hs⟩ := larkParse_exact h
  exact ⟨p, hs, hp⟩

/-- Every tree the parser builds is the tree of a program, spelled by whole words of the text. -/
theorem larkParse_words {text : String} {t : Tree} (h : larkParse text = .ok t) :
    ∃ p w, WordTiling 1 text.toList w ∧ ProgSyn p w tEND ∧ t.core = p.tree ∧ Spells text p := by
  obtain ⟨p, w, hw, hs, hp, h'⟩ := larkParse_exact h
  exact ⟨p, w, hw.words, hs, hp, h'⟩

/-- The text the parser works on (main.py:36-44). -/
def chosenText (text : Option String) (path : Option PathArg) : Except ApiErr String :=
  match text, path with
  | .none, .none | some "", .none => .error (.typeError "Either 'text' or 'file_path' has to be set")
  | .none, some p | some "", some p => match p.content with
    | .ok t => .ok t
    | .error _ => .error .io
  | some t, .none => .ok t
  | some _, some _ => .error (.typeError "Either 'text' or 'file_path' can be set")

end Pycep
