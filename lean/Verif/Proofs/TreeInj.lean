import Verif.Spec.Ast
/-
Different programs have different trees.
-/
namespace Pycep

theorem nd_inj {a b : String} {ks ks' : List Tree} (h : nd a ks = nd b ks') : a = b ∧ ks = ks' := by
  simpa [nd] using h

theorem ndl_inj {a b : String} {ks ks' : List Tree} {l l' : Lines} (h : ndl a ks l = ndl b ks' l') :
    a = b ∧ ks = ks' ∧ l = l' := by
  obtain ⟨x, y⟩ := l
  obtain ⟨x', y'⟩ := l'
  simpa [ndl] using h

theorem tk_inj {t t' : Nat} {x x' : List Char} (h : tk t x = tk t' x') : t = t' ∧ x = x' := by
  simpa [tk] using h

theorem quote_inj {x y : List Char} (h : quote x = quote y) : x = y := by simpa [quote] using h
theorem quote3_inj {x y : List Char} (h : quote3 x = quote3 y) : x = y := by simpa [quote3] using h

theorem BinOp.node_inj {a b : BinOp} (h : a.node = b.node) : a = b := by
  cases a <;> cases b <;> first | rfl | exact absurd h (by decide)

theorem BinOp.node_ne (a : BinOp) : a.node ≠ "not_op" ∧ a.node ≠ "minus" ∧ a.node ≠ "conditional" ∧
    a.node ≠ "function_accessor" := by
  cases a <;> decide

theorem Key.tree_inj {k k' : Key} (h : k.tree = k'.tree) : k = k' := by
  have h1 : ∀ x : Ident, T.STRING = T.RESOURCE → False := fun _ h => absurd h (by decide)
  cases k with
  | resource =>
    cases k' with
    | resource => rfl
    | ident x => simp [Key.tree, nd, tk] at h; exact absurd h.1 (by decide)
    | quoted s b => cases s <;> (simp [Key.tree, nd, tk] at h; exact absurd h.1 (by decide))
  | ident x =>
    cases k' with
    | resource => simp [Key.tree, nd, tk] at h; exact absurd h.1 (by decide)
    | ident x' => simp [Key.tree, nd, tk] at h; rw [Subtype.ext h]
    | quoted s b => cases s <;> (simp [Key.tree, nd, tk] at h; exact absurd h.1 (by decide))
  | quoted s b =>
    cases k' with
    | resource => cases s <;> (simp [Key.tree, nd, tk] at h; exact absurd h.1 (by decide))
    | ident x' => cases s <;> (simp [Key.tree, nd, tk] at h; exact absurd h.1 (by decide))
    | quoted s' b' =>
      cases s <;> cases s' <;> simp [Key.tree, nd, tk] at h
      · rw [quote_inj h]
      · exact absurd h.1 (by decide)
      · exact absurd h.1 (by decide)
      · rw [quote_inj h]

theorem existingTree_inj {a b : Bool} (h : existingTree a = existingTree b) : a = b := by
  cases a <;> cases b <;> simp [existingTree, tk] at h ⊢

/-- the name of the root of the tree of an expression -/
def Expr.root : Expr → String
  | .null => "null" | .tru => "true" | .fls => "false" | .int _ => "int_type" | .ident _ => "string"
  | .str _ => "string" | .multi _ => "multi_line_string" | .array _ => "array" | .object _ => "object"
  | .call _ _ => "function" | .lambda _ _ => "lambda_expression" | .lambdaN _ _ _ _ _ => "lambda_expression"
  | _ => "operator"

theorem Expr.tree_root (e : Expr) : ∃ ks, e.tree = nd e.root ks := by
  cases e <;> exact ⟨_, by rw [Expr.tree]; rfl⟩

theorem Expr.tree_ne_none (e : Expr) : e.tree ≠ Tree.none := by
  obtain ⟨ks, h⟩ := e.tree_root
  rw [h]; simp [nd]

theorem Expr.root_ne_loop (e : Expr) : e.root ≠ "loop" := by cases e <;> simp [Expr.root]

theorem Loop.tree_root (l : Loop) : ∃ ks, l.tree = nd "loop" ks := by cases l; exact ⟨_, by rw [Loop.tree]⟩

theorem exprTree_ne_loop (e : Expr) (l : Loop) : e.tree ≠ l.tree := by
  obtain ⟨ks, h⟩ := e.tree_root
  obtain ⟨ks', h'⟩ := l.tree_root
  rw [h, h']
  exact fun h => e.root_ne_loop (nd_inj h).1

theorem root_eq {e e' : Expr} (h : e.tree = e'.tree) : e.root = e'.root := by
  obtain ⟨ks, h1⟩ := e.tree_root
  obtain ⟨ks', h2⟩ := e'.tree_root
  rw [h1, h2] at h
  exact (nd_inj h).1

mutual
theorem Expr.tree_inj : (e e' : Expr) → e.tree = e'.tree → e = e'
  | .null, e', h => by
    have := root_eq h
    cases e' <;> simp [Expr.root] at this ⊢
  | .tru, e', h => by
    have := root_eq h
    cases e' <;> simp [Expr.root] at this ⊢
  | .fls, e', h => by
    have := root_eq h
    cases e' <;> simp [Expr.root] at this ⊢
  | .int d, e', h => by
    have := root_eq h
    cases e' <;> simp [Expr.root] at this
    simp [Expr.tree, nd, tk] at h
    rw [Subtype.ext h]
  | .ident x, e', h => by
    have := root_eq h
    cases e' <;> simp [Expr.root] at this
    · simp [Expr.tree, nd, tk] at h
      rw [Subtype.ext h]
    · simp [Expr.tree, nd, tk] at h
      exact absurd h.1 (by decide)
  | .str b, e', h => by
    have := root_eq h
    cases e' <;> simp [Expr.root] at this
    · simp [Expr.tree, nd, tk] at h
      exact absurd h.1 (by decide)
    · simp [Expr.tree, nd, tk] at h
      rw [quote_inj h]
  | .multi b, e', h => by
    have := root_eq h
    cases e' <;> simp [Expr.root] at this
    simp [Expr.tree, nd, tk] at h
    rw [quote3_inj h]
  | .array es, e', h => by
    have := root_eq h
    cases e' <;> simp [Expr.root] at this
    simp [Expr.tree, nd] at h
    rw [Expr.trees_inj es _ h]
  | .object is, e', h => by
    have := root_eq h
    cases e' <;> simp [Expr.root] at this
    simp [Expr.tree, nd] at h
    rw [Item.trees_inj is _ h]
  | .call f es, e', h => by
    have := root_eq h
    cases e' <;> simp [Expr.root] at this
    simp [Expr.tree, nd, tk] at h
    rw [Subtype.ext h.1, Expr.trees_inj es _ h.2]
  | .bin op a b, e', h => by
    have := root_eq h
    cases e' <;> simp [Expr.root] at this <;> simp [Expr.tree, nd] at h
    · rw [BinOp.node_inj h.1, Expr.tree_inj a _ h.2.1, Expr.tree_inj b _ h.2.2]
    · exact absurd h.1 op.node_ne.2.2.2
  | .not a, e', h => by
    have := root_eq h
    cases e' <;> simp [Expr.root] at this <;> simp [Expr.tree, nd] at h
    rw [Expr.tree_inj a _ h]
  | .minus a, e', h => by
    have := root_eq h
    cases e' <;> simp [Expr.root] at this <;> simp [Expr.tree, nd] at h
    rw [Expr.tree_inj a _ h]
  | .cond c t f, e', h => by
    have := root_eq h
    cases e' <;> simp [Expr.root] at this <;> simp [Expr.tree, nd] at h
    rw [Expr.tree_inj c _ h.1, Expr.tree_inj t _ h.2.1, Expr.tree_inj f _ h.2.2]
  | .method a f args, e', h => by
    have := root_eq h
    cases e' with
    | method a' f' args' =>
      simp [Expr.tree, nd, tk] at h
      rw [Expr.tree_inj a _ h.1, Subtype.ext h.2.1, Expr.optTrees_inj args _ h.2.2]
    | bin op => simp [Expr.tree, nd] at h; exact absurd h.1.symm op.node_ne.2.2.2
    | not | minus | cond => simp [Expr.tree, nd] at h
    | _ => simp [Expr.root] at this
  | .lambda v e, e', h => by
    have := root_eq h
    cases e' <;> simp [Expr.root] at this <;> simp [Expr.tree, nd] at h
    rw [Expr.tree_inj v _ h.1, Expr.tree_inj e _ h.2]
  | .lambdaN v1 v2 v3 vs e, e', h => by
    have := root_eq h
    cases e' <;> simp [Expr.root] at this <;> simp only [Expr.tree] at h
    · exact absurd (nd_inj h).2 (by simp)
    · obtain ⟨h1, h2⟩ := List.cons.inj (nd_inj h).2
      obtain ⟨h2, h3⟩ := List.cons.inj h2
      obtain ⟨h3, h4⟩ := List.cons.inj h3
      obtain ⟨h4, h5⟩ := List.append_inj' h4 rfl
      rw [Expr.tree_inj v1 _ h1, Expr.tree_inj v2 _ h2, Expr.tree_inj v3 _ h3, Expr.trees_inj vs _ h4,
        Expr.tree_inj e _ (List.cons.inj h5).1]
theorem Expr.trees_inj : (es es' : List Expr) → Expr.trees es = Expr.trees es' → es = es'
  | [], es', h => by cases es' <;> simp [Expr.trees] at h ⊢
  | e :: es, es', h => by
    cases es' with
    | nil => simp [Expr.trees] at h
    | cons e' es' =>
      simp only [Expr.trees, List.cons.injEq] at h
      rw [Expr.tree_inj e _ h.1, Expr.trees_inj es _ h.2]
theorem Expr.optTree_inj : (o o' : Option Expr) → Expr.optTree o = Expr.optTree o' → o = o'
  | .none, o', h => by
    cases o' with
    | none => rfl
    | some e' => simp only [Expr.optTree] at h; exact absurd h.symm e'.tree_ne_none
  | some e, o', h => by
    cases o' with
    | none => simp only [Expr.optTree] at h; exact absurd h e.tree_ne_none
    | some e' => simp only [Expr.optTree] at h; rw [Expr.tree_inj e _ h]
theorem Expr.optTrees_inj : (es es' : List (Option Expr)) → Expr.optTrees es = Expr.optTrees es' → es = es'
  | [], es', h => by cases es' <;> simp [Expr.optTrees] at h ⊢
  | e :: es, es', h => by
    cases es' with
    | nil => simp [Expr.optTrees] at h
    | cons e' es' =>
      simp only [Expr.optTrees, List.cons.injEq] at h
      rw [Expr.optTree_inj e _ h.1, Expr.optTrees_inj es _ h.2]
theorem Item.tree_inj : (i i' : Item) → i.tree = i'.tree → i = i'
  | .pair k v, i', h => by
    cases i' with
    | pair k' v' =>
      simp only [Item.tree] at h
      have h := (nd_inj h).2
      simp only [List.cons.injEq, and_true] at h
      rw [Key.tree_inj h.1, Expr.tree_inj v _ h.2]
    | pairLoop k' l' =>
      simp only [Item.tree] at h
      have h := (nd_inj h).2
      simp only [List.cons.injEq, and_true] at h
      exact absurd h.2 (exprTree_ne_loop _ _)
    | child => simp [Item.tree, nd, ndl] at h
  | .pairLoop k l, i', h => by
    cases i' with
    | pair k' v' =>
      simp only [Item.tree] at h
      have h := (nd_inj h).2
      simp only [List.cons.injEq, and_true] at h
      exact absurd h.2.symm (exprTree_ne_loop _ _)
    | pairLoop k' l' =>
      simp only [Item.tree] at h
      have h := (nd_inj h).2
      simp only [List.cons.injEq, and_true] at h
      rw [Key.tree_inj h.1, Loop.tree_inj l _ h.2]
    | child => simp [Item.tree, nd, ndl] at h
  | .child ln name type existing c, i', h => by
    cases i' with
    | pair | pairLoop => simp [Item.tree, nd, ndl] at h
    | child ln' name' type' existing' c' =>
      simp only [Item.tree] at h
      obtain ⟨_, h, hl⟩ := ndl_inj h
      simp only [List.cons.injEq, and_true] at h
      rw [hl, Subtype.ext (tk_inj h.1).2, quote_inj (tk_inj h.2.1).2, existingTree_inj h.2.2.1,
        Config.tree_inj c _ h.2.2.2]
theorem Item.trees_inj : (is is' : List Item) → Item.trees is = Item.trees is' → is = is'
  | [], es', h => by cases es' <;> simp [Item.trees] at h ⊢
  | e :: es, es', h => by
    cases es' with
    | nil => simp [Item.trees] at h
    | cons e' es' =>
      simp only [Item.trees, List.cons.injEq] at h
      rw [Item.tree_inj e _ h.1, Item.trees_inj es _ h.2]
theorem Loop.tree_inj : (l l' : Loop) → l.tree = l'.tree → l = l'
  | .mk h c b, .mk h' c' b', e => by
    simp only [Loop.tree] at e
    have e := (nd_inj e).2
    simp only [List.cons.injEq, and_true] at e
    rw [LoopHead.tree_inj h _ e.1, Expr.optTree_inj c _ e.2.1, Expr.tree_inj b _ e.2.2]
theorem LoopHead.tree_inj : (l l' : LoopHead) → l.tree = l'.tree → l = l'
  | .arr x e, l', h => by
    cases l' with
    | arr x' e' =>
      simp only [LoopHead.tree] at h
      have h := (nd_inj h).2
      simp only [List.cons.injEq, and_true] at h
      rw [Subtype.ext (tk_inj h.1).2, Expr.tree_inj e _ h.2]
    | arrIdx | obj => simp [LoopHead.tree, nd] at h
  | .arrIdx x i e, l', h => by
    cases l' with
    | arrIdx x' i' e' =>
      simp only [LoopHead.tree] at h
      have h := (nd_inj h).2
      simp only [List.cons.injEq, and_true] at h
      rw [Subtype.ext (tk_inj h.1).2, Subtype.ext (tk_inj h.2.1).2, Expr.tree_inj e _ h.2.2]
    | arr | obj => simp [LoopHead.tree, nd] at h
  | .obj x e, l', h => by
    cases l' with
    | obj x' e' =>
      simp only [LoopHead.tree] at h
      have h := (nd_inj h).2
      simp only [List.cons.injEq, and_true] at h
      rw [Subtype.ext (tk_inj h.1).2, Expr.tree_inj e _ h.2]
    | arr | arrIdx => simp [LoopHead.tree, nd] at h
theorem Config.tree_inj : (c c' : Config) → c.tree = c'.tree → c = c'
  | .obj is, c', h => by
    cases c' with
    | obj is' =>
      simp only [Config.tree] at h
      rw [Item.trees_inj is _ (nd_inj h).2]
    | loop l' =>
      obtain ⟨ks, hl⟩ := l'.tree_root
      simp only [Config.tree, hl] at h
      exact absurd (nd_inj h).1 (by decide)
    | cond => simp [Config.tree, nd] at h
  | .loop l, c', h => by
    obtain ⟨ks, hl⟩ := l.tree_root
    cases c' with
    | obj is' =>
      simp only [Config.tree, hl] at h
      exact absurd (nd_inj h).1 (by decide)
    | loop l' =>
      simp only [Config.tree] at h
      rw [Loop.tree_inj l _ h]
    | cond =>
      simp only [Config.tree, hl] at h
      exact absurd (nd_inj h).1 (by decide)
  | .cond c e, c', h => by
    cases c' with
    | obj is' => simp [Config.tree, nd] at h
    | loop l' =>
      obtain ⟨ks, hl⟩ := l'.tree_root
      simp only [Config.tree, hl] at h
      exact absurd (nd_inj h).1 (by decide)
    | cond c' e' =>
      simp only [Config.tree] at h
      have h := (nd_inj h).2
      simp only [List.cons.injEq, and_true] at h
      rw [Expr.tree_inj c _ h.1, Expr.tree_inj e _ h.2]
end

mutual
theorem DataType.tree_inj : (d d' : DataType) → d.tree = d'.tree → d = d'
  | .mk b n, .mk b' n', h => by
    simp only [DataType.tree] at h
    have h := (nd_inj h).2
    simp only [List.cons.injEq] at h
    have hn := congrArg List.length h.2
    simp only [List.length_replicate] at hn
    rw [BaseType.tree_inj b _ h.1, hn]
theorem BaseType.tree_inj : (d d' : BaseType) → d.tree = d'.tree → d = d'
  | .name x, d', h => by
    cases d' with
    | name x' =>
      simp only [BaseType.tree] at h
      have h := (nd_inj h).2
      simp only [List.cons.injEq, and_true] at h
      rw [Subtype.ext (tk_inj h).2]
    | union => simp [BaseType.tree, nd, tk] at h
  | .union d1 d2 ds, d', h => by
    cases d' with
    | name x' => simp [BaseType.tree, nd, tk] at h
    | union d1' d2' ds' =>
      simp only [BaseType.tree] at h
      have h := (nd_inj h).2
      simp only [List.cons.injEq, and_true] at h
      have h := (nd_inj h).2
      simp only [List.cons.injEq] at h
      rw [DataType.tree_inj d1 _ h.1, DataType.tree_inj d2 _ h.2.1, DataType.trees_inj ds _ h.2.2]
theorem DataType.trees_inj : (ds ds' : List DataType) → DataType.trees ds = DataType.trees ds' → ds = ds'
  | [], es', h => by cases es' <;> simp [DataType.trees] at h ⊢
  | e :: es, es', h => by
    cases es' with
    | nil => simp [DataType.trees] at h
    | cons e' es' =>
      simp only [DataType.trees, List.cons.injEq] at h
      rw [DataType.tree_inj e _ h.1, DataType.trees_inj es _ h.2]
end

theorem Deco.tree_inj {d d' : Deco} (h : d.tree = d'.tree) : d = d' := by
  obtain ⟨n, a⟩ := d
  obtain ⟨n', a'⟩ := d'
  have h := (nd_inj h).2
  simp only [List.cons.injEq] at h
  have h1 : n = n' := Subtype.ext (tk_inj h.1).2
  have h2 : a = a' := by
    cases a <;> cases a' <;> simp at h
    · rfl
    · rw [Expr.tree_inj _ _ h.2]
  rw [h1, h2]

theorem map_inj_of {α β : Type} {f : α → β} (hf : ∀ a b, f a = f b → a = b) {x y : List α} (h : x.map f = y.map f) : x = y :=
  (List.map_inj_right hf).mp h

theorem decosTree_inj {ds ds' : List Deco} (h : decosTree ds = decosTree ds') : ds = ds' := by
  cases ds <;> cases ds' <;> simp [decosTree, nd] at h ⊢
  exact ⟨Deco.tree_inj h.1, map_inj_of (fun _ _ => Deco.tree_inj) h.2⟩

theorem LoopOrExpr.tree_inj {v v' : LoopOrExpr} (h : v.tree = v'.tree) : v = v' := by
  cases v with
  | expr e =>
    cases v' with
    | expr e' => rw [Expr.tree_inj e e' h]
    | loop l' => exact absurd h (exprTree_ne_loop _ _)
  | loop l =>
    cases v' with
    | expr e' => exact absurd h.symm (exprTree_ne_loop _ _)
    | loop l' => rw [Loop.tree_inj l l' h]

theorem optIdentTree_inj {x x' : Option Ident} (h : optIdentTree x = optIdentTree x') : x = x' := by
  cases x <;> cases x' <;> simp [optIdentTree, tk] at h ⊢
  exact Subtype.ext h

theorem ImportItem.tree_inj {i i' : ImportItem} (h : i.tree = i'.tree) : i = i' := by
  obtain ⟨n, a⟩ := i
  obtain ⟨n', a'⟩ := i'
  have h := (nd_inj h).2
  simp only [List.cons.injEq, and_true] at h
  have h2 := optIdentTree_inj h.2
  have h1 : n = n' := by
    have h := h.1
    cases n <;> cases n' <;> simp [tk] at h
    · rw [Subtype.ext h]
    · exact absurd h.1 (by decide)
    · exact absurd h.1 (by decide)
    · rfl
  rw [h1, h2]

theorem paramTrees_inj : {ps ps' : List (Ident × DataType)} → paramTrees ps = paramTrees ps' → ps = ps'
  | [], [], _ => rfl
  | [], (_, _) :: _, h => by simp [paramTrees] at h
  | (_, _) :: _, [], h => by simp [paramTrees] at h
  | (x, d) :: ps, (x', d') :: ps', h => by
    simp only [paramTrees, List.cons.injEq] at h
    rw [Subtype.ext (tk_inj h.1).2, DataType.tree_inj d _ h.2.1, paramTrees_inj h.2.2]

theorem Expr.root_ne_type (e : Expr) : e.root ≠ "type_value" := by cases e <;> simp [Expr.root]

theorem typeValueTree_inj {e e' : Expr} {es es' : List Expr} (h : typeValueTree e es = typeValueTree e' es') :
    e = e' ∧ es = es' := by
  cases es <;> cases es' <;> simp only [typeValueTree, List.isEmpty_nil, List.isEmpty_cons, if_true] at h
  · exact ⟨Expr.tree_inj _ _ h, rfl⟩
  · obtain ⟨ks, hk⟩ := e.tree_root
    rw [hk] at h
    exact absurd (nd_inj h).1 e.root_ne_type
  · obtain ⟨ks, hk⟩ := e'.tree_root
    rw [hk] at h
    exact absurd (nd_inj h).1.symm e'.root_ne_type
  · have h := (nd_inj h).2
    simp only [List.cons.injEq] at h
    exact ⟨Expr.tree_inj _ _ h.1, Expr.trees_inj _ _ h.2⟩

theorem DataType.tree_ne_none (d : DataType) : d.tree ≠ Tree.none := by
  cases d; simp [DataType.tree, nd]

theorem Decl.tree_inj {d d' : Decl} {l l' : Lines} (h : d.tree l = d'.tree l') : l = l' ∧ d = d' := by
  cases d with
  | scope b =>
    cases d' with
    | scope b' =>
      obtain ⟨_, h, hl⟩ := ndl_inj h
      simp only [List.cons.injEq, and_true] at h
      exact ⟨hl, by rw [quote_inj (tk_inj h).2]⟩
    | _ => exact absurd (ndl_inj h).1 (by decide)
  | importNs b =>
    cases d' with
    | importNs b' =>
      obtain ⟨_, h, hl⟩ := ndl_inj h
      simp only [List.cons.injEq, and_true] at h
      exact ⟨hl, by rw [quote_inj (tk_inj h).2]⟩
    | importFrom i is b' =>
      obtain ⟨_, h, hl⟩ := ndl_inj h
      simp [ImportItem.tree, tk, nd] at h
    | _ => exact absurd (ndl_inj h).1 (by decide)
  | importFrom i is b =>
    cases d' with
    | importNs b' =>
      obtain ⟨_, h, hl⟩ := ndl_inj h
      simp [ImportItem.tree, tk, nd] at h
    | importFrom i' is' b' =>
      obtain ⟨_, h, hl⟩ := ndl_inj h
      simp only [List.cons.injEq] at h
      obtain ⟨h2, h3⟩ := List.append_inj' h.2 rfl
      simp only [List.cons.injEq, and_true] at h3
      exact ⟨hl, by rw [ImportItem.tree_inj h.1, map_inj_of (fun _ _ => ImportItem.tree_inj) h2, quote_inj (tk_inj h3).2]⟩
    | _ => exact absurd (ndl_inj h).1 (by decide)
  | extension n c a =>
    cases d' with
    | extension n' c' a' =>
      obtain ⟨_, h, hl⟩ := ndl_inj h
      simp only [List.cons.injEq, and_true] at h
      have hc : c = c' := by
        have h := h.2.1
        cases c <;> cases c' <;> simp [nd] at h
        · rfl
        · rw [Item.trees_inj _ _ h]
      exact ⟨hl, by rw [Subtype.ext (tk_inj h.1).2, hc, optIdentTree_inj h.2.2]⟩
    | _ => exact absurd (ndl_inj h).1 (by decide)
  | metadata n b =>
    cases d' with
    | metadata n' b' =>
      obtain ⟨_, h, hl⟩ := ndl_inj h
      simp only [List.cons.injEq, and_true] at h
      have h2 := (nd_inj h.2).2
      simp only [List.cons.injEq, and_true] at h2
      exact ⟨hl, by rw [Subtype.ext (tk_inj h.1).2, quote_inj (tk_inj h2).2]⟩
    | _ => exact absurd (ndl_inj h).1 (by decide)
  | param ds n t o =>
    cases d' with
    | param ds' n' t' o' =>
      obtain ⟨_, h, hl⟩ := ndl_inj h
      simp only [List.cons.injEq, and_true] at h
      exact ⟨hl, by rw [decosTree_inj h.1, Subtype.ext (tk_inj h.2.1).2, DataType.tree_inj _ _ h.2.2.1,
        Expr.optTree_inj _ _ h.2.2.2]⟩
    | _ => exact absurd (ndl_inj h).1 (by decide)
  | var ds n t v =>
    cases d' with
    | var ds' n' t' v' =>
      obtain ⟨_, h, hl⟩ := ndl_inj h
      simp only [List.cons.injEq, and_true] at h
      have ht : t = t' := by
        have h := h.2.2.1
        cases t with
        | none =>
          cases t' with
          | none => rfl
          | some d' => exact absurd h.symm d'.tree_ne_none
        | some d =>
          cases t' with
          | none => exact absurd h d.tree_ne_none
          | some d' => rw [DataType.tree_inj _ _ h]
      exact ⟨hl, by rw [decosTree_inj h.1, Subtype.ext (tk_inj h.2.1).2, ht, LoopOrExpr.tree_inj h.2.2.2]⟩
    | _ => exact absurd (ndl_inj h).1 (by decide)
  | output ds n t v =>
    cases d' with
    | output ds' n' t' v' =>
      obtain ⟨_, h, hl⟩ := ndl_inj h
      simp only [List.cons.injEq, and_true] at h
      exact ⟨hl, by rw [decosTree_inj h.1, Subtype.ext (tk_inj h.2.1).2, DataType.tree_inj _ _ h.2.2.1,
        LoopOrExpr.tree_inj h.2.2.2]⟩
    | _ => exact absurd (ndl_inj h).1 (by decide)
  | resource ds n b ex c =>
    cases d' with
    | resource ds' n' b' ex' c' =>
      obtain ⟨_, h, hl⟩ := ndl_inj h
      simp only [List.cons.injEq, and_true] at h
      have h3 := (nd_inj h.2.2.1).2
      simp only [List.cons.injEq, and_true] at h3
      exact ⟨hl, by rw [decosTree_inj h.1, Subtype.ext (tk_inj h.2.1).2, quote_inj (tk_inj h3).2,
        existingTree_inj h.2.2.2.1, Config.tree_inj _ _ h.2.2.2.2]⟩
    | _ => exact absurd (ndl_inj h).1 (by decide)
  | module ds n b c =>
    cases d' with
    | module ds' n' b' c' =>
      obtain ⟨_, h, hl⟩ := ndl_inj h
      simp only [List.cons.injEq, and_true] at h
      have h3 := (nd_inj h.2.2.1).2
      simp only [List.cons.injEq, and_true] at h3
      exact ⟨hl, by rw [decosTree_inj h.1, Subtype.ext (tk_inj h.2.1).2, quote_inj (tk_inj h3).2,
        Config.tree_inj _ _ h.2.2.2]⟩
    | _ => exact absurd (ndl_inj h).1 (by decide)
  | typ ds n e es =>
    cases d' with
    | typ ds' n' e' es' =>
      obtain ⟨_, h, hl⟩ := ndl_inj h
      simp only [List.cons.injEq, and_true] at h
      obtain ⟨h3, h4⟩ := typeValueTree_inj h.2.2
      exact ⟨hl, by rw [decosTree_inj h.1, Subtype.ext (tk_inj h.2.1).2, h3, h4]⟩
    | _ => exact absurd (ndl_inj h).1 (by decide)
  | func ds n ps t e =>
    cases d' with
    | func ds' n' ps' t' e' =>
      obtain ⟨_, h, hl⟩ := ndl_inj h
      simp only [List.cons.injEq] at h
      obtain ⟨h2, h3⟩ := List.append_inj' h.2.2 rfl
      simp only [List.cons.injEq, and_true] at h3
      exact ⟨hl, by rw [decosTree_inj h.1, Subtype.ext (tk_inj h.2.1).2, paramTrees_inj h2,
        DataType.tree_inj _ _ h3.1, Expr.tree_inj _ _ h3.2]⟩
    | _ => exact absurd (ndl_inj h).1 (by decide)

/-- Different programs have different trees. -/
theorem Program.tree_inj {p q : Program} (h : p.tree = q.tree) : p = q := by
  refine map_inj_of ?_ (nd_inj h).2
  rintro ⟨l, d⟩ ⟨l', d'⟩ h
  obtain ⟨h1, h2⟩ := Decl.tree_inj h
  simp only at h1 h2
  rw [h1, h2]

end Pycep
