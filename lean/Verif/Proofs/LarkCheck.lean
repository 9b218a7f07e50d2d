import Verif.LarkRules
import Verif.Proofs.Ebnf
/-
The terminals and rules of Verif/LarkRules.lean and of Verif/Grammar.lean are what the text of
pycep/bicep.lark defines.  The kernel reads the text.
-/
namespace Pycep.Lark

set_option maxRecDepth 100000

/-- The terminals of the grammar file. -/
theorem loadTerms_ok :
    (do loadTerms (← readFile grammarChars) (← readFile commonChars)) = some larkTerms := by
  decide +kernel

/-- The rules of the grammar file. -/
theorem loadRules_ok :
    (do loadRules larkTerms (← readFile grammarChars)) = some larkRules := by
  decide +kernel

/-- Its helper rules. -/
theorem helpers_ok : allHelpers larkRules = larkHelpers := by decide +kernel

/-- Its plain rules. -/
theorem compile_ok : compile larkRules = some larkPlain := by decide +kernel

theorem rules_cons {r : CRule} {r' : Rule} {rs rs'} (h : r.rule = r') (t : List.map CRule.rule rs = rs') :
    List.map CRule.rule (r :: rs) = r' :: rs' := by rw [List.map_cons, h, t]

/-- The plain rules are the rules of the parser. -/
theorem plain_rules : larkPlain.map CRule.rule = rules := by
  unfold larkPlain rules
  repeat refine rules_cons rfl ?_
  exact rfl

/-- The grammar file meets what the correctness of the expansion needs. -/
theorem lark_wf : Wf larkRules larkHelpers 190 where
  base := by decide
  lo := by decide +kernel
  hi := by decide +kernel
  ids := by decide +kernel
  uniq := by decide +kernel
  expand := by decide +kernel
  alts := by decide +kernel
  bodies := by decide +kernel

/-- The rules of the parser are the plain rules of the grammar file. -/
theorem rules_plain (r : Rule) : r ∈ rules ↔ Plain larkRules larkHelpers r := by
  have := mem_compile compile_ok r
  rwa [plain_rules, helpers_ok] at this

/-- Derivations of `start` are what the grammar file yields. -/
theorem der_yields {tree w} (h : Der [N.start] [tree] w) (hw : ∀ u ∈ w, u.type < 128) :
    Yields larkRules (.rule N.start) [tree.bare] w := by
  have hm := der_means lark_wf (fun r hr => (rules_plain r).mp hr) h hw
  have hs : symbols [.rule N.start] = [N.start] := rfl
  rw [← hs] at hm
  have := flat_sound lark_wf (.rule N.start) (by decide) rfl (List.mem_singleton.mpr rfl) hm
  have hi : inlined larkRules larkHelpers N.start = false := by decide +kernel
  simpa [itemKids, hi, Tree.bareL] using this

/-- And conversely. -/
theorem yields_start {t w} (h : Yields larkRules (.rule N.start) [t] w) :
    ∃ tree, Der [N.start] [tree] w ∧ tree.bare = t := by
  obtain ⟨xs, x, ts, hf, hx, hd, hk⟩ :=
    yields_der lark_wf (fun r hr => (rules_plain r).mpr hr) h (by decide)
  simp only [Ebnf.flat, Option.some.injEq] at hf
  subst hf
  rw [List.mem_singleton] at hx
  subst hx
  have hl := hd.length
  match ts, hl with
  | [tree], _ =>
    have hi : inlined larkRules larkHelpers N.start = false := by decide +kernel
    refine ⟨tree, hd, ?_⟩
    simpa [itemKids, hi, Tree.bareL] using hk

/-- The terminals that the lexer drops are those named by `%ignore`. -/
theorem ignored_iff : ∀ t < tEND, (∃ d, larkTerms[t]? = some d ∧
    d.name ∈ [['C','_','C','O','M','M','E','N','T'], ['S','H','_','C','O','M','M','E','N','T'],
      ['W','S','_','I','N','L','I','N','E']]) ↔ t ∈ ignoreIds := by
  have : ∀ t < tEND, (match larkTerms[t]? with
    | some d => [['C','_','C','O','M','M','E','N','T'], ['S','H','_','C','O','M','M','E','N','T'],
      ['W','S','_','I','N','L','I','N','E']].contains d.name
    | none => false) = ignoreIds.contains t := by decide +kernel
  intro t ht
  have h := this t ht
  rw [← List.contains_iff_mem, ← h]
  cases larkTerms[t]? with
  | none => simp
  | some d => simp

end Pycep.Lark
