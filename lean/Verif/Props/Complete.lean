import Verif.Props.Api
import Verif.Proofs.LexComplete
/-
Every clearly written text of a program is parsed, and the outcome is the meaning of the program
(C48); so a text has at most one meaning.
-/
namespace Pycep

/-- **C48.** The outcome of `parse` on a clearly written text of a program is the meaning of the
program, wherever the text comes from. -/
theorem parse_writes (P : Parser) {text path t} {p : Program} (ht : chosenText text path = .ok t)
    (hv : isValid t = true) (hw : Writes t p) (hc : p.clear = true) :
    P.parse text path = liftV (p.val P.addLineNumbers) := by
  obtain ⟨tr, h1, h2⟩ := hw.tree hc
  rw [parse_eq, createTree'_eq]
  simp only [ht, Except.bind, hv, if_true, h1, bicepToJson_program h2]

/-- **A text has one meaning.** A text is a clear way to write at most one program. -/
theorem writes_unique {t : String} {p q : Program} (hp : Writes t p) (hq : Writes t q)
    (hcp : p.clear = true) (hcq : q.clear = true) : p = q := by
  obtain ⟨tr, h1, h2⟩ := hp.tree hcp
  obtain ⟨tr', h3, h4⟩ := hq.tree hcq
  have : tr = tr' := by rw [h1] at h3; injection h3
  subst this
  exact Program.tree_inj (h2.symm.trans h4)

end Pycep
