import Verif.Spec.Ast
import Verif.Derivation
import Mathlib.Data.List.Forall2
/-
The tree of a derivation is the tree of a piece of abstract syntax: definitions and the part of the
argument that does not look at individual rules.
-/
namespace Pycep

/-- nodes whose method receives `meta` -/
def metaNodes : List String :=
  ["scope", "custom_import", "extension", "metadata", "param", "var", "output", "resource",
   "child_resource", "module", "custom_type", "custom_func"]

/-- span of a node as far as methods see it -/
def coreSpan (d : String) (sp : Option Span) : Option Span :=
  if metaNodes.contains d then sp.map (fun s => ⟨s.line, s.endLine, 0, 0⟩) else .none

mutual
/-- a tree without the positions nobody reads -/
def Tree.core : Tree → Tree
  | .tok t => .tok ⟨t.type, t.text, 0, 0⟩
  | .none => .none
  | .node d ks sp => .node d (coreList ks) (coreSpan d sp)
/-- `Tree.core` of a list -/
def coreList : List Tree → List Tree
  | [] => []
  | t :: ts => t.core :: coreList ts
end

theorem coreList_eq (ts : List Tree) : coreList ts = ts.map Tree.core := by
  induction ts with
  | nil => simp [coreList]
  | cons t ts ih => simp [coreList, ih]

/-- the children of a node -/
def kidsOf : Tree → List Tree
  | .node _ ks _ => ks
  | _ => []

/-- is the root a node with line numbers? -/
def isMeta : Tree → Bool
  | .node d _ _ => metaNodes.contains d
  | _ => false

@[simp] theorem isMeta_core (t : Tree) : isMeta t.core = isMeta t := by
  cases t <;> simp [Tree.core, isMeta]

theorem kidsOf_core (t : Tree) : kidsOf t.core = coreList (kidsOf t) := by
  cases t <;> simp [Tree.core, kidsOf, coreList]

/-- a new node without positions -/
def mkCore (d : String) (cs : List Tree) (ln : Lines) : Tree :=
  if metaNodes.contains d then ndl d cs ln else nd d cs

theorem core_keep (r : Rule) (kids : List Tree) :
    coreList (keepKids r kids) = keepKids r (coreList kids) := by
  unfold keepKids
  rw [coreList_eq, List.map_append, List.map_replicate, Tree.core]
  congr 1
  rw [List.map_flatMap]
  congr 1
  funext k
  obtain ⟨i, inl, n⟩ := k
  simp only [List.map_append, List.map_replicate, Tree.core, coreList_eq, List.getElem?_map]
  congr 1
  cases kids[i]? with
  | none => simp
  | some t =>
    simp only [Option.map_some]
    split
    · cases t <;> simp [Tree.core, coreList_eq]
    · simp

theorem setSpan_core_nometa {t : Tree} (kids : List Tree) (h : isMeta t = false) :
    (setSpan t kids).core = t.core := by
  unfold setSpan
  cases t with
  | tok t => rfl
  | none => rfl
  | node d ks sp =>
    simp only [isMeta] at h
    have hcs : ∀ s, coreSpan d s = .none := by
      intro s; unfold coreSpan; rw [h]; rfl
    simp only
    split
    · split <;> simp [Tree.core, hcs]
    · rfl

theorem lines_tok_mem {kids : List Tree} {u : Tok} (h : Tree.tok u ∈ kids) :
    ∃ l, firstLines kids = some l := by
  induction kids with
  | nil => simp at h
  | cons k ks ih =>
    unfold firstLines
    cases hk : k.lines? with
    | some l => exact ⟨l, rfl⟩
    | none =>
      rcases List.mem_cons.mp h with rfl | h
      · simp [Tree.lines?] at hk
      · exact ih h

theorem setSpan_node (d : String) (ks kids : List Tree)
    (hm : metaNodes.contains d = true → ∃ u, Tree.tok u ∈ kids) :
    ∃ ln, (setSpan (.node d ks .none) kids).core = mkCore d (coreList ks) ln := by
  cases hd : metaNodes.contains d with
  | true =>
    obtain ⟨u, hu⟩ := hm hd
    obtain ⟨f, hf⟩ := lines_tok_mem hu
    obtain ⟨l, hl⟩ := lines_tok_mem (List.mem_reverse.mpr hu)
    refine ⟨(f.1, l.2), ?_⟩
    unfold setSpan
    simp only [hf, hl, Tree.core, mkCore, coreSpan, hd, if_true, ndl, Option.map_some]
  | false =>
    refine ⟨(0, 0), ?_⟩
    rw [setSpan_core_nometa _ (by simpa [isMeta] using hd)]
    simp only [mkCore, hd, Tree.core, coreSpan, nd, Bool.false_eq_true, if_false]

/-- Rules that build nodes with line numbers have a terminal on their right-hand side. -/
theorem meta_rules : (rules.all (fun r => !metaNodes.contains r.name ||
    r.rhs.any (fun s => s < tEND))) = true := by
  decide +kernel

theorem rules_lhs : (rules.all (fun r => tEND ≤ r.lhs)) = true := by decide +kernel

theorem der_tok_mem {ss ts w} (h : Der ss ts w) {s : Nat} (hs : s ∈ ss) (hlt : s < tEND) :
    ∃ u, Tree.tok u ∈ ts := by
  induction h with
  | nil => simp at hs
  | tok t _ _ => exact ⟨t, by simp⟩
  | node r hr _ _ _ ih =>
    rcases List.mem_cons.mp hs with rfl | h
    · have := List.all_eq_true.mp rules_lhs r hr
      simp only [decide_eq_true_eq] at this
      omega
    · obtain ⟨u, hu⟩ := ih h; exact ⟨u, List.mem_cons_of_mem _ hu⟩

theorem meta_kids {r : Rule} (hr : r ∈ rules) {kids w} (h : Der r.rhs kids w)
    (hm : metaNodes.contains r.name = true) : ∃ u, Tree.tok u ∈ kids := by
  have := List.all_eq_true.mp meta_rules r hr
  rw [hm] at this
  simp only [Bool.not_true, Bool.false_or, List.any_eq_true, decide_eq_true_eq] at this
  obtain ⟨s, hs, hlt⟩ := this
  exact der_tok_mem h hs hlt

end Pycep
