import Verif.Proofs.SynRules0
import Verif.Proofs.SynRules1
import Verif.Proofs.SynRules2
import Verif.Proofs.SynRules3
/-
The tree and the tokens of a derivation of `start` are those of a program in the concrete syntax.
-/
namespace Pycep
open SynRules

/-- the same rule, with Booleans -/
def Rule.same (a b : Rule) : Bool :=
  a.lhs == b.lhs && (a.rhs == b.rhs && (a.name == b.name && (a.expand1 == b.expand1 &&
    (a.keep == b.keep && a.tailNones == b.tailNones))))

theorem Rule.same_eq {a b : Rule} (h : a.same b = true) : a = b := by
  simp only [Rule.same, Bool.and_eq_true, beq_iff_eq] at h
  obtain ⟨h1, h2, h3, h4, h5, h6⟩ := h
  cases a; cases b; simp_all

/-- The rules treated one by one are those of the grammar. -/
theorem rules_cover : rules.all (fun r => list0.any r.same || (list1.any r.same ||
    (list2.any r.same || list3.any r.same))) = true := by
  decide +kernel

theorem rules_okW : ∀ r ∈ rules, RuleOK r := by
  intro r hr
  have h := List.all_eq_true.mp rules_cover r hr
  simp only [Bool.or_eq_true, List.any_eq_true] at h
  rcases h with ⟨b, hb, e⟩ | ⟨b, hb, e⟩ | ⟨b, hb, e⟩ | ⟨b, hb, e⟩ <;> rw [Rule.same_eq e]
  · exact ok0 b hb
  · exact ok1 b hb
  · exact ok2 b hb
  · exact ok3 b hb

/-- A derivation of `start` is the tree of a program written as its tokens. -/
theorem derL_program {t : Tree} {w : List Tok} {n : Nat} (h : DerL [N.start] [t] w n)
    (hw : ∀ u ∈ w, u.type < tEND ∧ TokText u.type u.text) :
    ∃ p : Program, t.core = p.tree ∧ ProgSyn p w n := by
  have := derL_shape rules_okW h hw
  simp only [coreList] at this
  obtain ⟨c, e, hs⟩ := fitsW_one.mp this
  simp only [List.cons.injEq, and_true] at e
  subst e
  exact hs

end Pycep
