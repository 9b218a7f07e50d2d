import Verif.Proofs.PrettyAst
import Verif.Spec.PrintedTree
/-
Declarations and programs that are printed alike, and the texts of tokens in trees.
-/
namespace Pycep

/-! ### Declarations -/

mutual
theorem nm_type : (d d' : DataType) → Alike d.tree d'.tree → d.tree.norm = d'.tree.norm
  | .mk b n, .mk b' n', h => by
    simp [DataType.tree, alike_nd] at h ⊢
    have hl := h.2.length_eq
    simp only [List.length_replicate] at hl
    rw [norm_nd (by decide), norm_nd (by decide)]
    simp only [Tree.norms, nm_base b _ h.1, hl]
theorem nm_base : (b b' : BaseType) → Alike b.tree b'.tree → b.tree.norm = b'.tree.norm
  | .name x, b', h => by
    cases b' <;> simp [BaseType.tree, alike_nd, alike_tk, alike_tk_nd] at h ⊢
    rw [h]
  | .union d1 d2 ds, b', h => by
    cases b' <;> simp [BaseType.tree, alike_nd, alike_nd_tk] at h ⊢
    rw [norm_nd (by decide), norm_nd (by decide)]
    simp only [Tree.norms, norm_nd (show "union_type" ≠ "key" by decide), nm_type d1 _ h.1, nm_type d2 _ h.2.1,
      nm_types ds _ h.2.2]
theorem nm_types : (ds ds' : List DataType) → List.Forall₂ Alike (DataType.trees ds) (DataType.trees ds') →
    Tree.norms (DataType.trees ds) = Tree.norms (DataType.trees ds')
  | [], ds', h => by cases ds' <;> simp [DataType.trees] at h ⊢
  | d :: ds, ds', h => by
    cases ds' with
    | nil => simp [DataType.trees] at h
    | cons d' ds' =>
      simp only [DataType.trees, List.forall₂_cons] at h
      simp only [DataType.trees, Tree.norms, nm_type d _ h.1, nm_types ds _ h.2]
end

theorem nm_deco {d d' : Deco} (h : Alike d.tree d'.tree) : d.tree.norm = d'.tree.norm := by
  unfold Deco.tree at h ⊢
  rw [alike_nd] at h
  simp only [true_and, List.forall₂_cons, alike_tk] at h
  obtain ⟨h1, h2⟩ := h
  rw [norm_nd (by decide), norm_nd (by decide), h1]
  cases ha : d.arg <;> cases ha' : d'.arg <;> simp [ha, ha'] at h2 ⊢
  simp only [Tree.norms, nm_expr _ _ h2]

theorem nm_map {α : Type} (f : α → Tree) (hf : ∀ a b, Alike (f a) (f b) → (f a).norm = (f b).norm) :
    ∀ (as bs : List α), List.Forall₂ Alike (as.map f) (bs.map f) → Tree.norms (as.map f) = Tree.norms (bs.map f)
  | [], bs, h => by cases bs <;> simp at h ⊢
  | a :: as, bs, h => by
    cases bs with
    | nil => simp at h
    | cons b bs =>
      simp only [List.map_cons, List.forall₂_cons] at h
      simp only [List.map_cons, Tree.norms, hf _ _ h.1, nm_map f hf as bs h.2]

theorem nm_decos {ds ds' : List Deco} (h : Alike (decosTree ds) (decosTree ds')) :
    (decosTree ds).norm = (decosTree ds').norm := by
  unfold decosTree at h ⊢
  cases ds with
  | nil => cases ds' with
    | nil => rfl
    | cons d' ds' => simp [alike_none_nd] at h
  | cons d ds => cases ds' with
    | nil => simp [alike_nd_none] at h
    | cons d' ds' =>
      simp only [List.isEmpty_cons, Bool.false_eq_true, if_false] at h ⊢
      rw [alike_nd] at h
      rw [norm_nd (by decide), norm_nd (by decide), nm_map _ (fun a b => nm_deco) _ _ h.2]

theorem nm_value {v v' : LoopOrExpr} (h : Alike v.tree v'.tree) : v.tree.norm = v'.tree.norm := by
  cases v with
  | expr e => cases v' with
    | expr e' => exact nm_expr _ _ h
    | loop l' => exact absurd h (expr_loop _ _).1
  | loop l => cases v' with
    | expr e' => exact absurd h (expr_loop _ _).2
    | loop l' => exact nm_loop _ _ h

/-- not called `None` -/
def NotNone (o : Option Ident) : Prop := ∀ x ∈ o, x.1 ≠ "None".toList

theorem nm_alias {o o' : Option Ident} (h : NotNone o) (h' : NotNone o') (ha : Alike (optIdentTree o) (optIdentTree o')) :
    (optIdentTree o).norm = (optIdentTree o').norm := by
  cases o with
  | none => cases o' with
    | none => rfl
    | some x' => exact absurd (alike_none_tk.mp ha) (h' x' rfl)
  | some x => cases o' with
    | none => exact absurd (alike_tk_none.mp ha) (h x rfl)
    | some x' =>
      simp only [optIdentTree, alike_tk] at ha ⊢
      rw [ha]

theorem nm_import {i i' : ImportItem} (h : NotNone i.alias) (h' : NotNone i'.alias) (ha : Alike i.tree i'.tree) :
    i.tree.norm = i'.tree.norm := by
  obtain ⟨n, al⟩ := i
  obtain ⟨n', al'⟩ := i'
  simp only [ImportItem.tree, alike_nd, true_and, List.forall₂_cons] at ha ⊢
  rw [norm_nd (by decide), norm_nd (by decide)]
  simp only [Tree.norms, nm_alias h h' ha.2.1]
  have star : ∀ x : Ident, x.1 ≠ ['*'] := by
    rintro ⟨x, c, cs, rfl, hc, _⟩ e
    simp only [List.cons.injEq] at e
    rw [e.1] at hc
    revert hc
    decide
  cases n with
  | name x => cases n' with
    | name x' =>
      have := alike_tk.mp ha.1
      simp only [this]
    | star => exact absurd (alike_tk.mp ha.1) (star x)
  | star => cases n' with
    | name x' => exact absurd (alike_tk.mp ha.1).symm (star x')
    | star => rfl

theorem nm_imports : ∀ (is is' : List ImportItem) (b b' : List Char), (∀ i ∈ is, NotNone i.alias) →
    (∀ i ∈ is', NotNone i.alias) →
    List.Forall₂ Alike (is.map ImportItem.tree ++ [tk T.QUOTED_INTERPOLATION (quote b)])
      (is'.map ImportItem.tree ++ [tk T.QUOTED_INTERPOLATION (quote b')]) →
    Tree.norms (is.map ImportItem.tree ++ [tk T.QUOTED_INTERPOLATION (quote b)]) =
      Tree.norms (is'.map ImportItem.tree ++ [tk T.QUOTED_INTERPOLATION (quote b')])
  | [], [], b, b', _, _, h => by
    simp [alike_tk] at h ⊢
    rw [h]
  | [], i' :: is', b, b', _, _, h => by simp at h
  | i :: is, [], b, b', _, _, h => by simp at h
  | i :: is, i' :: is', b, b', hn, hn', h => by
    simp only [List.map_cons, List.cons_append, List.forall₂_cons] at h
    simp only [List.map_cons, List.cons_append, Tree.norms, nm_import (hn i (by simp)) (hn' i' (by simp)) h.1,
      nm_imports is is' b b' (fun j hj => hn j (by simp [hj])) (fun j hj => hn' j (by simp [hj])) h.2]

theorem type_nd (d : DataType) : ∃ ks, d.tree = nd "data_type" ks ∧ ks ≠ [] := by
  obtain ⟨b, n⟩ := d
  exact ⟨_, by rw [DataType.tree], by simp⟩

theorem nm_params : ∀ (ps ps' : List (Ident × DataType)) (t t' : DataType) (e e' : Expr),
    List.Forall₂ Alike (paramTrees ps ++ [t.tree, e.tree]) (paramTrees ps' ++ [t'.tree, e'.tree]) →
    Tree.norms (paramTrees ps ++ [t.tree, e.tree]) = Tree.norms (paramTrees ps' ++ [t'.tree, e'.tree])
  | [], [], t, t', e, e', h => by
    simp only [paramTrees, List.nil_append, List.forall₂_cons] at h
    simp only [paramTrees, List.nil_append, Tree.norms, nm_type _ _ h.1, nm_expr _ _ h.2.1]
  | [], (x, d) :: ps', t, t', e, e', h => by
    simp [paramTrees] at h
  | (x, d) :: ps, [], t, t', e, e', h => by
    simp [paramTrees] at h
  | (x, d) :: ps, (x', d') :: ps', t, t', e, e', h => by
    simp only [paramTrees, List.cons_append, List.forall₂_cons, alike_tk] at h
    simp only [paramTrees, List.cons_append, Tree.norms, h.1, nm_type _ _ h.2.1, nm_params ps ps' t t' e e' h.2.2]

theorem typeValue_alike {e e' : Expr} {es es' : List Expr} (h : Alike (typeValueTree e es) (typeValueTree e' es')) :
    (typeValueTree e es).norm = (typeValueTree e' es').norm := by
  have tv : ∀ (e : Expr) (ks : List Tree), ¬ Alike e.tree (nd "type_value" ks) ∧ ¬ Alike (nd "type_value" ks) e.tree := by
    intro e ks
    cases e <;> simp [Expr.tree, alike_nd]
  unfold typeValueTree at h ⊢
  cases es with
  | nil => cases es' with
    | nil => exact nm_expr _ _ h
    | cons a es' => exact absurd h (tv _ _).1
  | cons a es => cases es' with
    | nil => exact absurd h (tv _ _).2
    | cons a' es' =>
      simp only [List.isEmpty_cons, Bool.false_eq_true, if_false] at h ⊢
      rw [alike_nd] at h
      simp only [true_and, List.forall₂_cons] at h
      rw [norm_nd (by decide), norm_nd (by decide)]
      simp only [Tree.norms, nm_expr _ _ h.1, nm_exprs _ _ h.2]

/-- no alias is called `None` -/
def Decl.Named : Decl → Prop
  | .importFrom i is _ => ∀ j ∈ i :: is, NotNone j.alias
  | .extension _ _ al => NotNone al
  | _ => True

theorem nm_decl {l l' : Lines} {d d' : Decl} (hn : d.Named) (hn' : d'.Named) (h : Alike (d.tree l) (d'.tree l')) :
    (d.tree l).norm = (d'.tree l').norm := by
  cases d with
  | scope b =>
    cases d' <;> simp [Decl.tree, alike_ndl, alike_tk] at h ⊢
    rw [norm_ndl (by decide), norm_ndl (by decide), h]
  | importNs b =>
    cases d' <;> simp [Decl.tree, alike_ndl, alike_tk] at h ⊢
    rw [norm_ndl (by decide), norm_ndl (by decide), h]
  | importFrom i is b =>
    cases d' <;> simp [Decl.tree, alike_ndl] at h ⊢
    rename_i i' is' b'
    rw [norm_ndl (by decide), norm_ndl (by decide)]
    simp only [Tree.norms, nm_import (hn _ (by simp)) (hn' _ (by simp)) h.1,
      nm_imports is is' b b' (fun j hj => hn j (by simp [hj])) (fun j hj => hn' j (by simp [hj])) h.2]
  | extension x c al =>
    cases d' <;> simp [Decl.tree, alike_ndl, alike_tk] at h ⊢
    rename_i x' c' al'
    obtain ⟨h1, h2, h3⟩ := h
    rw [norm_ndl (by decide), norm_ndl (by decide)]
    simp only [Tree.norms, h1, nm_alias hn hn' h3]
    cases c with
    | none => cases c' with
      | none => rfl
      | some is' => exact absurd h2 alike_none_nd
    | some is => cases c' with
      | none => exact absurd h2 alike_nd_none
      | some is' =>
        simp only [alike_nd, true_and] at h2
        simp only [norm_nd (show "object" ≠ "key" by decide), nm_items _ _ h2]
  | metadata x b =>
    cases d' <;> simp [Decl.tree, alike_ndl, alike_nd, alike_tk] at h ⊢
    rw [norm_ndl (by decide), norm_ndl (by decide), h.1, h.2]
  | param ds x t o =>
    cases d' <;> simp [Decl.tree, alike_ndl, alike_tk] at h ⊢
    rw [norm_ndl (by decide), norm_ndl (by decide)]
    simp only [Tree.norms, nm_decos h.1, h.2.1, nm_type _ _ h.2.2.1, nm_optExpr _ _ h.2.2.2]
  | var ds x t v =>
    cases d' <;> simp [Decl.tree, alike_ndl, alike_tk] at h ⊢
    rename_i ds' x' t' v'
    obtain ⟨h1, h2, h3, h4⟩ := h
    rw [norm_ndl (by decide), norm_ndl (by decide)]
    simp only [Tree.norms, nm_decos h1, h2, nm_value h4]
    cases t with
    | none => cases t' with
      | none => rfl
      | some t' =>
        obtain ⟨ks, e, _⟩ := type_nd t'
        simp only [e] at h3
        exact absurd h3 alike_none_nd
    | some t => cases t' with
      | none =>
        obtain ⟨ks, e, _⟩ := type_nd t
        simp only [e] at h3
        exact absurd h3 alike_nd_none
      | some t' => simp only [nm_type _ _ h3]
  | output ds x t v =>
    cases d' <;> simp [Decl.tree, alike_ndl, alike_tk] at h ⊢
    rw [norm_ndl (by decide), norm_ndl (by decide)]
    simp only [Tree.norms, nm_decos h.1, h.2.1, nm_type _ _ h.2.2.1, nm_value h.2.2.2]
  | resource ds x b ex c =>
    cases d' <;> simp [Decl.tree, alike_ndl, alike_nd, alike_tk] at h ⊢
    rw [norm_ndl (by decide), norm_ndl (by decide)]
    simp only [Tree.norms, nm_decos h.1, h.2.1, h.2.2.1, existing_alike h.2.2.2.1, nm_config _ _ h.2.2.2.2]
  | module ds x b c =>
    cases d' <;> simp [Decl.tree, alike_ndl, alike_nd, alike_tk] at h ⊢
    rw [norm_ndl (by decide), norm_ndl (by decide)]
    simp only [Tree.norms, nm_decos h.1, h.2.1, h.2.2.1, nm_config _ _ h.2.2.2]
  | typ ds x e es =>
    cases d' <;> simp [Decl.tree, alike_ndl, alike_tk] at h ⊢
    rw [norm_ndl (by decide), norm_ndl (by decide)]
    simp only [Tree.norms, nm_decos h.1, h.2.1, typeValue_alike h.2.2]
  | func ds x ps t e =>
    cases d' <;> simp [Decl.tree, alike_ndl, alike_tk] at h ⊢
    rw [norm_ndl (by decide), norm_ndl (by decide)]
    simp only [Tree.norms, nm_decos h.1, h.2.1, nm_params _ _ _ _ _ _ h.2.2]

theorem nm_decls : ∀ (p p' : Program), (∀ d ∈ p, d.2.Named) → (∀ d ∈ p', d.2.Named) →
    List.Forall₂ Alike (p.map (fun d => d.2.tree d.1)) (p'.map (fun d => d.2.tree d.1)) →
    Tree.norms (p.map (fun d => d.2.tree d.1)) = Tree.norms (p'.map (fun d => d.2.tree d.1))
  | [], p', _, _, h => by cases p' <;> simp at h ⊢
  | d :: p, p', hn, hn', h => by
    cases p' with
    | nil => simp at h
    | cons d' p' =>
      simp only [List.map_cons, List.forall₂_cons] at h
      simp only [List.map_cons, Tree.norms, nm_decl (hn d (by simp)) (hn' d' (by simp)) h.1,
        nm_decls p p' (fun a ha => hn a (by simp [ha])) (fun a ha => hn' a (by simp [ha])) h.2]

theorem nm_program {p p' : Program} (hn : ∀ d ∈ p, d.2.Named) (hn' : ∀ d ∈ p', d.2.Named) (h : Alike p.tree p'.tree) :
    p.tree.norm = p'.tree.norm := by
  unfold Program.tree at h ⊢
  rw [alike_nd] at h
  rw [norm_nd (by decide), norm_nd (by decide), nm_decls p p' hn hn' h.2]

/-! ### Printing does not depend on places -/

mutual
theorem pretty_core : ∀ (t : Tree) (n : Nat), t.core.prettyAux n = t.prettyAux n
  | .tok u, n => by simp [Tree.core, Tree.prettyAux]
  | .none, n => by simp [Tree.core]
  | .node d ks sp, n => by
    have hk := pretty_cores ks (n + 1)
    rw [Tree.core]
    match ks, hk with
    | [], _ => simp only [coreList, Tree.prettyAux]
    | [.tok u], _ => simp only [coreList, Tree.core, Tree.prettyAux]
    | [.none], _ => simp only [coreList, Tree.core, Tree.prettyAux]
    | [.node _ _ _], hk =>
      simp only [coreList, Tree.core, Tree.prettyAux] at hk ⊢
      rw [hk]
    | x :: _ :: _, hk =>
      cases x <;> (simp only [coreList, Tree.core, Tree.prettyAux] at hk ⊢; rw [hk])
theorem pretty_cores : ∀ (ts : List Tree) (n : Nat), Tree.prettyKids n (coreList ts) = Tree.prettyKids n ts
  | [], n => by simp [coreList]
  | t :: ts, n => by simp only [coreList, Tree.prettyKids, pretty_core t n, pretty_cores ts n]
end

/-! ### Names and texts in trees -/

mutual
/-- names are nice, and so are the texts of the tokens that are no line breaks -/
def Tree.Nicer : Tree → Prop
  | .tok u => isBreak u.type = false → NiceText u.text
  | .none => True
  | .node d ks _ => NiceName d.toList ∧ Tree.NicerL ks
/-- `Tree.Nicer` of a list -/
def Tree.NicerL : List Tree → Prop
  | [] => True
  | t :: ts => t.Nicer ∧ Tree.NicerL ts
end

theorem nicerL_iff : ∀ {ts : List Tree}, Tree.NicerL ts ↔ ∀ t ∈ ts, t.Nicer
  | [] => by simp [Tree.NicerL]
  | t :: ts => by simp [Tree.NicerL, nicerL_iff (ts := ts)]

mutual
theorem Tree.Nicer.nice : ∀ {t : Tree}, t.Nicer → t.noBreaks = true → t.Nice
  | .tok u, h, hb => by
    simp only [Tree.noBreaks, Bool.not_eq_true'] at hb
    simp only [Tree.Nicer] at h
    simp only [Tree.Nice]
    exact h hb
  | .none, _, _ => by simp [Tree.Nice]
  | .node d ks sp, h, hb => by
    rw [Tree.Nicer] at h
    rw [Tree.noBreaks] at hb
    rw [Tree.Nice]
    exact ⟨h.1, nicerL_nice h.2 hb⟩
theorem nicerL_nice : ∀ {ts : List Tree}, Tree.NicerL ts → Tree.noBreaksL ts = true → Tree.NiceL ts
  | [], _, _ => by simp [Tree.NiceL]
  | t :: ts, h, hb => by
    rw [Tree.NicerL] at h
    rw [Tree.noBreaksL, Bool.and_eq_true] at hb
    rw [Tree.NiceL]
    exact ⟨h.1.nice hb.1, nicerL_nice h.2 hb.2⟩
end

mutual
theorem nice_core : ∀ {t : Tree}, t.Nice → t.core.Nice
  | .tok u, h => by simpa [Tree.Nice, Tree.core] using h
  | .none, _ => by simp [Tree.Nice, Tree.core]
  | .node d ks sp, h => by
    rw [Tree.Nice] at h
    rw [Tree.core, Tree.Nice]
    exact ⟨h.1, nice_cores h.2⟩
theorem nice_cores : ∀ {ts : List Tree}, Tree.NiceL ts → Tree.NiceL (coreList ts)
  | [], _ => by simp [Tree.NiceL, coreList]
  | t :: ts, h => by
    rw [Tree.NiceL] at h
    rw [coreList, Tree.NiceL]
    exact ⟨nice_core h.1, nice_cores h.2⟩
end

theorem rule_nice : ∀ r ∈ rules, NiceName r.name.toList := by
  have h : rules.all (fun r => !r.name.toList.contains '\n' && !r.name.toList.contains '\t' &&
      (r.name.toList.head? != some ' ') && (r.name.toList.head? != some '\'') && (r.name.toList != []) &&
      (r.name.toList != "None".toList)) = true := by decide +kernel
  intro r hr
  have := List.all_eq_true.mp h r hr
  simp only [Bool.and_eq_true, Bool.not_eq_true', bne_iff_ne] at this
  obtain ⟨⟨⟨⟨⟨h1, h2⟩, h3⟩, h4⟩, h5⟩, h6⟩ := this
  refine ⟨fun hc => ?_, fun hc => ?_, h3, h4, h5, h6⟩
  · rw [List.contains_iff_mem.mpr hc] at h1; cases h1
  · rw [List.contains_iff_mem.mpr hc] at h2; cases h2

theorem keepKids_nicer {r : Rule} {ts : List Tree} (h : Tree.NicerL ts) : Tree.NicerL (keepKids r ts) := by
  rw [nicerL_iff] at h ⊢
  intro t ht
  simp only [keepKids, List.mem_append, List.mem_flatMap, List.mem_replicate] at ht
  rcases ht with ⟨⟨i, inline, nones⟩, _, ⟨_, rfl⟩ | ht⟩ | ⟨_, rfl⟩
  · trivial
  · cases hi : ts[i]? with
    | none => rw [hi] at ht; simp at ht
    | some k =>
      rw [hi] at ht
      have hk := h k (List.mem_of_getElem? hi)
      cases inline with
      | false => simp at ht; subst ht; exact hk
      | true =>
        cases k with
        | tok _ => simp at ht
        | none => simp at ht
        | node d ks sp =>
          simp at ht
          exact nicerL_iff.mp hk.2 t ht
  · trivial

theorem setSpan_nicer {t : Tree} {ts : List Tree} (h : t.Nicer) : (setSpan t ts).Nicer := by
  unfold setSpan
  split
  · split
    · split <;> exact h
    · exact h
  · exact h

theorem buildNode_nicer {r : Rule} (hr : r ∈ rules) {ts : List Tree} (h : Tree.NicerL ts) : (buildNode r ts).Nicer := by
  unfold buildNode
  have hk := keepKids_nicer (r := r) h
  refine setSpan_nicer ?_
  split
  · rename_i k _ e
    rw [e] at hk
    exact hk.1
  · exact ⟨rule_nice r hr, hk⟩

/-- trees are made of the tokens that they are derived from -/
theorem Der.nicer {ss ts w} (h : Der ss ts w) (hw : ∀ u ∈ w, isBreak u.type = false → NiceText u.text) :
    Tree.NicerL ts := by
  induction h with
  | nil => trivial
  | tok t _ ih => exact ⟨hw t (by simp), ih (fun u hu => hw u (by simp [hu]))⟩
  | node r hr _ _ ih1 ih2 =>
    exact ⟨buildNode_nicer hr (ih1 (fun u hu => hw u (by simp [hu]))), ih2 (fun u hu => hw u (by simp [hu]))⟩

theorem fixed_nice : ∀ t < numTerms, ∀ d s, term? t = some d → d.strVal = some s →
    '\t' ∉ s.toList ∧ s.toList.head? ≠ some ' ' := by
  have h : (List.range numTerms).all (fun t => match term? t with
      | some d => match d.strVal with
        | some s => !s.toList.contains '\t' && (s.toList.head? != some ' ')
        | .none => true
      | .none => true) = true := by decide +kernel
  intro t ht d s hd hs
  have := List.all_eq_true.mp h t (List.mem_range.mpr ht)
  rw [hd] at this
  simp only [hs, Bool.and_eq_true, Bool.not_eq_true', bne_iff_ne] at this
  refine ⟨fun hc => ?_, this.2⟩
  rw [List.contains_iff_mem.mpr hc] at this
  cases this.1

theorem nice_of {x : List Char} (hn : '\n' ∉ x) (h : ∀ c ∈ x, c ≠ ' ' ∧ c ≠ '\t') : NiceText x := by
  refine ⟨hn, fun e => ?_, fun ht => absurd rfl (h _ ht).2⟩
  exact (h ' ' (List.mem_of_mem_head? (by rw [e]; rfl))).1 rfl

theorem alnum_no {c : Char} (h : isAsciiAlnum c = true) : c ≠ ' ' ∧ c ≠ '\t' := by
  constructor <;> (rintro rfl; revert h; decide)
theorem word_no {c : Char} (h : isWord c = true) : c ≠ ' ' ∧ c ≠ '\t' := by
  constructor <;> (rintro rfl; revert h; decide)
theorem alpha_no {c : Char} (h : isAsciiAlpha c = true) : c ≠ ' ' ∧ c ≠ '\t' :=
  alnum_no (by simp [isAsciiAlnum, h])
theorem digit_no {c : Char} (h : isAsciiDigit c = true) : c ≠ ' ' ∧ c ≠ '\t' :=
  alnum_no (by simp [isAsciiAlnum, h])

theorem quoted_nice {x : List Char} (hn : '\n' ∉ '\'' :: x) : NiceText ('\'' :: x) :=
  ⟨hn, by simp, fun _ => rfl⟩

theorem TokText.nice {t : Nat} {x : List Char} (h : TokText t x) (ht : t < tEND) (hb : isBreak t = false)
    (hn : '\n' ∉ x) : NiceText x := by
  unfold TokText at h
  split at h
  · exact nice_of hn fun c hc => alpha_no (h.2 c hc)
  · obtain ⟨p, n, rfl, hp, _, hn'⟩ := h
    refine nice_of hn fun c hc => ?_
    simp only [List.mem_append, List.mem_singleton] at hc
    rcases hc with (hc | hc) | rfl
    · rcases hp with rfl | rfl | rfl
      · cases hc
      · revert c; decide
      · revert c; decide
    · exact alnum_no (hn' c hc)
    · decide
  · obtain ⟨b, rfl⟩ := h
    exact quoted_nice hn
  · obtain ⟨b, rfl⟩ := h
    exact quoted_nice hn
  · obtain ⟨c, cs, rfl, hc, hcs⟩ := h
    refine nice_of hn fun d hd => ?_
    rcases List.mem_cons.mp hd with rfl | hd
    · rcases hc with hc | rfl
      · exact alpha_no hc
      · decide
    · exact word_no (hcs d hd)
  · exact absurd hb (by decide)
  · obtain ⟨b, rfl, _⟩ := h
    exact quoted_nice hn
  · obtain ⟨p, n, rfl, hp, _, hn'⟩ := h
    refine nice_of hn fun c hc => ?_
    simp only [List.mem_append] at hc
    rcases hc with hc | hc
    · rcases hp with rfl | rfl
      · cases hc
      · revert c; decide
    · exact alnum_no (hn' c hc)
  · exact absurd hb (by decide)
  · exact nice_of hn fun c hc => digit_no (h.2 c hc)
  · subst h
    exact ⟨hn, by decide, by decide⟩
  · obtain ⟨d, s, h1, h2, rfl⟩ := h
    have := fixed_nice t (by exact Nat.lt_of_lt_of_le ht (by decide)) d s h1 h2
    exact ⟨hn, this.2, fun h => absurd h this.1⟩

/-! ### Aliases -/

theorem AsNone.append_left {w : List Tok} (h : AsNone w) (a : List Tok) : AsNone (a ++ w) := by
  obtain ⟨x, b, u, v, rfl, h⟩ := h
  exact ⟨a ++ x, b, u, v, by simp, h⟩
theorem AsNone.append_right {w : List Tok} (h : AsNone w) (a : List Tok) : AsNone (w ++ a) := by
  obtain ⟨x, b, u, v, rfl, h⟩ := h
  exact ⟨x, b ++ a, u, v, by simp, h⟩

theorem ImportSyn.named {i w} (h : ImportSyn i w) (hn : ¬ AsNone w) : NotNone i.alias := by
  cases h with
  | name _ => intro x hx; cases hx
  | star _ => intro x hx; cases hx
  | nameAs _ ha hv =>
    rintro x ⟨⟩ e
    exact hn ⟨[_], [], _, _, rfl, ha, by rw [hv.2, e]⟩
  | starAs _ ha hv =>
    rintro x ⟨⟩ e
    exact hn ⟨[_], [], _, _, rfl, ha, by rw [hv.2, e]⟩

theorem ImportTail.named {is w} (h : ImportTail is w) (hn : ¬ AsNone w) : ∀ i ∈ is, NotNone i.alias := by
  induction h with
  | nil => simp
  | snoc _ _ hi ih =>
    intro i hi'
    rcases List.mem_append.mp hi' with hi' | hi'
    · exact ih (fun h => hn (h.append_right _)) i hi'
    · simp only [List.mem_singleton] at hi'
      subst hi'
      exact hi.named fun h => hn ((h.append_left [_]).append_left _)

theorem DeclSyn.named {d w n} (h : DeclSyn d w n) (hn : ¬ AsNone w) : d.Named := by
  cases h with
  | importOne _ hi _ _ =>
    intro j hj
    simp only [List.mem_singleton] at hj
    subst hj
    exact hi.named fun h => hn ((h.append_right _).append_left [_])
  | importList _ _ hi ht _ _ _ =>
    intro j hj
    rcases List.mem_cons.mp hj with rfl | hj
    · exact hi.named fun h => hn ((h.append_right _).append_left [_, _])
    · exact ht.named (fun h => hn (((h.append_right _).append_left _).append_left [_, _])) j hj
  | extension _ _ _ ha =>
    cases ha with
    | no => intro x hx; cases hx
    | yes hu hv =>
      rintro x ⟨⟩ e
      exact hn ⟨_ :: _ :: _, [], _, _, rfl, hu, by rw [hv.2, e]⟩
  | _ => trivial

theorem ProgSyn.named {p w n} (h : ProgSyn p w n) (hn : ¬ AsNone w) : ∀ d ∈ p, d.2.Named := by
  induction h with
  | nil => simp
  | decl _ hd _ ih =>
    intro d hd'
    rcases List.mem_append.mp hd' with h | h
    · exact ih (fun h => hn (h.append_right _)) d h
    · simp only [List.mem_singleton] at h
      subst h
      exact hd.named fun h => hn (h.append_left _)
  | nl _ _ ih => exact ih fun h => hn (h.append_right _)

end Pycep
