import Verif.Proofs.CoreTree
import Verif.Transformer
/-
The transformer does not look at the positions that `Tree.core` erases.
-/
namespace Pycep

/-- A method that gives the same result for a span and what `coreSpan` leaves of it. -/
def CoreOK (p : String × Callback) : Prop :=
  ∀ ln sp args st, p.2 ln (coreSpan p.1 sp) args st = p.2 ln sp args st

theorem coreOK_plain (d : String) (f) : CoreOK (d, plain f) := fun _ _ _ _ => rfl

theorem addLines_core (ln : Bool) (sp : Option Span) (a) :
    addLines ln (sp.map (fun s => ⟨s.line, s.endLine, 0, 0⟩)) a = addLines ln sp a := by
  cases sp <;> rfl

theorem coreOK_withMeta (d : String) (f) (hd : metaNodes.contains d = true)
    (hf : ∀ ln sp args, f ln (sp.map (fun s => ⟨s.line, s.endLine, 0, 0⟩)) args = f ln sp args) :
    CoreOK (d, withMeta f) := by
  intro ln sp args st
  show (f ln (coreSpan d sp) args).map _ = (f ln sp args).map _
  unfold coreSpan
  rw [if_pos hd, hf]

theorem coreOK_all : ∀ p ∈ callbacks, CoreOK p := by
  simp only [callbacks, List.forall_mem_cons, coreOK_plain, true_and]
  refine ⟨fun _ _ _ _ => rfl, ?_, ?_, ?_, ?_, ?_, ?_, ?_, ?_, ?_, ?_, ?_, ?_, fun _ h => nomatch h⟩
  · refine coreOK_withMeta _ _ (by decide) fun ln sp args => ?_
    simp only [cb_scope, addLines_core]
  · intro ln sp args st
    show cb_custom_import _ _ _ _ = cb_custom_import _ _ _ _
    have : coreSpan "custom_import" sp = sp.map (fun s => ⟨s.line, s.endLine, 0, 0⟩) := by
      unfold coreSpan; rw [if_pos (by decide)]
    rw [this]
    have h : ∀ fp na, importEntry ln (sp.map (fun s => ⟨s.line, s.endLine, 0, 0⟩)) fp na =
        importEntry ln sp fp na := by
      intro fp na; simp only [importEntry, addLines_core]
    have h' : ∀ fp, importEntry ln (sp.map (fun s => ⟨s.line, s.endLine, 0, 0⟩)) fp =
        importEntry ln sp fp := fun fp => funext (h fp)
    unfold cb_custom_import
    simp only [h']
  · refine coreOK_withMeta _ _ (by decide) fun ln sp args => ?_
    unfold cb_extension; simp only [addLines_core]
  · refine coreOK_withMeta _ _ (by decide) fun ln sp args => ?_
    unfold cb_metadata; simp only [addLines_core]
  · refine coreOK_withMeta _ _ (by decide) fun ln sp args => ?_
    unfold cb_param; simp only [addLines_core]
  · refine coreOK_withMeta _ _ (by decide) fun ln sp args => ?_
    unfold cb_var; simp only [addLines_core]
  · refine coreOK_withMeta _ _ (by decide) fun ln sp args => ?_
    unfold cb_output; simp only [addLines_core]
  · intro ln sp args st
    show cb_resource _ _ _ _ = cb_resource _ _ _ _
    have : coreSpan "resource" sp = sp.map (fun s => ⟨s.line, s.endLine, 0, 0⟩) := by
      unfold coreSpan; rw [if_pos (by decide)]
    rw [this]
    unfold cb_resource; simp only [addLines_core]
  · refine coreOK_withMeta _ _ (by decide) fun ln sp args => ?_
    unfold cb_child_resource
    cases sp <;> rfl
  · refine coreOK_withMeta _ _ (by decide) fun ln sp args => ?_
    unfold cb_module; simp only [addLines_core]
  · refine coreOK_withMeta _ _ (by decide) fun ln sp args => ?_
    unfold cb_custom_type; simp only [addLines_core]
  · refine coreOK_withMeta _ _ (by decide) fun ln sp args => ?_
    unfold cb_custom_func; simp only [addLines_core]

theorem lookup_mem {α β} [BEq α] [LawfulBEq α] {l : List (α × β)} {a : α} {b : β}
    (h : l.lookup a = some b) : (a, b) ∈ l := by
  induction l with
  | nil => simp at h
  | cons p l ih =>
    obtain ⟨x, y⟩ := p
    rw [List.lookup_cons] at h
    split at h
    · rename_i hx
      cases h
      rw [eq_of_beq hx]
      exact List.mem_cons_self
    · exact List.mem_cons_of_mem _ (ih h)

mutual
theorem transform_core (ln : Bool) : ∀ (t : Tree) (st : TState),
    transform ln t.core st = transform ln t st
  | .tok t, st => by simp [Tree.core, transform]
  | .none, st => by simp [Tree.core]
  | .node d ks sp, st => by
    simp only [Tree.core, transform, transformList_core ln ks st]
    cases transformList ln ks st with
    | error e => rfl
    | ok r =>
      obtain ⟨args, st'⟩ := r
      simp only [bind, Except.bind]
      cases h : callbacks.lookup d with
      | none => rfl
      | some f =>
        have := coreOK_all _ (lookup_mem h) ln sp args st'
        simp only at this
        simp only [this]
theorem transformList_core (ln : Bool) : ∀ (ts : List Tree) (st : TState),
    transformList ln (coreList ts) st = transformList ln ts st
  | [], st => by simp [coreList]
  | t :: ts, st => by
    simp only [coreList, transformList, transform_core ln t st]
    cases transform ln t st with
    | error e => rfl
    | ok r =>
      simp only [bind, Except.bind, transformList_core ln ts]
end

theorem bicepToJson_core (ln : Bool) (t : Tree) : bicepToJson ln t.core = bicepToJson ln t := by
  simp [bicepToJson, transform_core]

end Pycep
