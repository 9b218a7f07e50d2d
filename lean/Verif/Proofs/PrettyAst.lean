import Verif.Proofs.Pretty
import Verif.Proofs.Shape
/-
Trees of programs that are printed alike have the same outcome of the transformation.
-/
namespace Pycep

/-! ### What the transformer does not see without line numbers -/

mutual
/-- a tree without places and without the types of the tokens of keys -/
def Tree.norm : Tree → Tree
  | .tok u => .tok ⟨u.type, u.text, 0, 0⟩
  | .none => .none
  | .node d [.tok u] _ => .node d [.tok ⟨if d = "key" then 0 else u.type, u.text, 0, 0⟩] .none
  | .node d ks _ => .node d (Tree.norms ks) .none
/-- `Tree.norm` of a list -/
def Tree.norms : List Tree → List Tree
  | [] => []
  | t :: ts => t.norm :: Tree.norms ts
end

theorem norm_ne {d : String} (h : d ≠ "key") (ks : List Tree) (sp) :
    (Tree.node d ks sp).norm = .node d (Tree.norms ks) .none := by
  match ks with
  | [] => simp [Tree.norm]
  | [.tok u] => simp [Tree.norm, Tree.norms, h]
  | [.none] => simp [Tree.norm]
  | [.node d' ks' sp'] => rw [Tree.norm]; intro u h; cases h
  | x :: y :: ks => rw [Tree.norm]; intro u h; cases h

theorem norms_append (a b : List Tree) : Tree.norms (a ++ b) = Tree.norms a ++ Tree.norms b := by
  induction a with
  | nil => simp [Tree.norms]
  | cons t a ih => simp [Tree.norms, ih]

theorem lookup_key : callbacks.lookup "key" = some (plain cb_key) := by
  have h : ("key", plain cb_key) ∈ callbacks := by simp [callbacks]
  simp [callbacks, List.lookup]

theorem call_norm (d : String) (sp : Option Span) (args : List Val) (st : TState) :
    (match callbacks.lookup d with
      | some f => match f false .none args st with
        | .ok r => (.ok r : Except VErr (Val × TState))
        | .error e => .error (.visit d e)
      | .none => .error (.noCallback d)) =
    (match callbacks.lookup d with
      | some f => match f false sp args st with
        | .ok r => .ok r
        | .error e => .error (.visit d e)
      | .none => .error (.noCallback d)) := by
  cases h : callbacks.lookup d with
  | none => rfl
  | some f =>
    have := placeFree_all _ (lookup_mem h) sp args st
    simp only at this
    simp only [this]

mutual
theorem transform_norm : ∀ (t : Tree) (st : TState), transform false t.norm st = transform false t st
  | .tok u, st => by simp [Tree.norm, transform]
  | .none, st => by simp [Tree.norm]
  | .node d [.tok u] sp, st => by
    simp only [Tree.norm, transform, transformList, bind, Except.bind]
    by_cases hd : d = "key"
    · subst hd
      rw [lookup_key]
      rfl
    · rw [if_neg hd]
      exact call_norm d sp _ _
  | .node d [] sp, st => by
    simp only [Tree.norm, Tree.norms, transform, transformList, bind, Except.bind]
    exact call_norm d sp _ _
  | .node d [.none] sp, st => by
    simp only [Tree.norm, Tree.norms, transform, transformList, bind, Except.bind]
    exact call_norm d sp _ _
  | .node d [.node d' ks' sp'] sp, st => by
    have := transformList_norm [.node d' ks' sp'] st
    rw [Tree.norm]
    · simp only [transform, this]
      cases transformList false [.node d' ks' sp'] st with
      | error e => rfl
      | ok r => exact call_norm d sp _ _
    · intro u h; cases h
  | .node d (x :: y :: ks) sp, st => by
    have := transformList_norm (x :: y :: ks) st
    rw [Tree.norm]
    · simp only [transform, this]
      cases transformList false (x :: y :: ks) st with
      | error e => rfl
      | ok r => exact call_norm d sp _ _
    · intro u h; cases h
theorem transformList_norm : ∀ (ts : List Tree) (st : TState),
    transformList false (Tree.norms ts) st = transformList false ts st
  | [], st => by simp [Tree.norms]
  | t :: ts, st => by
    simp only [Tree.norms, transformList, transform_norm t st]
    cases transform false t st with
    | error e => rfl
    | ok r => simp only [bind, Except.bind, transformList_norm ts]
end

theorem bicepToJson_norm (t : Tree) : bicepToJson false t.norm = bicepToJson false t := by
  simp [bicepToJson, transform_norm]

/-! ### Looking at trees that are printed alike -/

theorem alike_node {d d' : String} {ks ks' : List Tree} {sp sp'} :
    Alike (.node d ks sp) (.node d' ks' sp') ↔ d = d' ∧ List.Forall₂ Alike ks ks' := by
  constructor
  · intro h; cases h with | node h => exact ⟨rfl, h⟩
  · rintro ⟨rfl, h⟩; exact .node h

theorem alike_nd {d d' : String} {ks ks' : List Tree} :
    Alike (nd d ks) (nd d' ks') ↔ d = d' ∧ List.Forall₂ Alike ks ks' := alike_node
theorem alike_ndl {d d' : String} {ks ks' : List Tree} {l l' : Lines} :
    Alike (ndl d ks l) (ndl d' ks' l') ↔ d = d' ∧ List.Forall₂ Alike ks ks' := alike_node
theorem alike_nd_ndl {d d' : String} {ks ks' : List Tree} {l' : Lines} :
    Alike (nd d ks) (ndl d' ks' l') ↔ d = d' ∧ List.Forall₂ Alike ks ks' := alike_node
theorem alike_ndl_nd {d d' : String} {ks ks' : List Tree} {l : Lines} :
    Alike (ndl d ks l) (nd d' ks') ↔ d = d' ∧ List.Forall₂ Alike ks ks' := alike_node

theorem alike_tk {t t' : Nat} {x x' : List Char} : Alike (tk t x) (tk t' x') ↔ x = x' := by
  constructor
  · intro h; cases h with | tok h => exact h
  · exact fun h => .tok h

theorem alike_tk_none {t : Nat} {x : List Char} : Alike (tk t x) .none ↔ x = "None".toList := by
  constructor
  · intro h; cases h with | tokNone h => exact h
  · exact fun h => .tokNone h

theorem alike_none_tk {t : Nat} {x : List Char} : Alike .none (tk t x) ↔ x = "None".toList := by
  constructor
  · intro h; cases h with | noneTok h => exact h
  · exact fun h => .noneTok h

theorem alike_none_nd {d : String} {ks : List Tree} : ¬ Alike .none (nd d ks) := by
  intro h; cases h
theorem alike_nd_none {d : String} {ks : List Tree} : ¬ Alike (nd d ks) .none := by
  intro h; cases h

theorem alike_tk_nd {t : Nat} {x : List Char} {d : String} {ks : List Tree} :
    Alike (tk t x) (nd d ks) ↔ ks = [] ∧ x = d.toList := by
  constructor
  · intro h; cases h with | tokNode h => exact ⟨rfl, h⟩
  · rintro ⟨rfl, h⟩; exact .tokNode h

theorem alike_nd_tk {t : Nat} {x : List Char} {d : String} {ks : List Tree} :
    Alike (nd d ks) (tk t x) ↔ ks = [] ∧ x = d.toList := by
  constructor
  · intro h; cases h with | nodeTok h => exact ⟨rfl, h⟩
  · rintro ⟨rfl, h⟩; exact .nodeTok h

theorem norm_tk (t : Nat) (x : List Char) : (tk t x).norm = tk t x := by simp [tk, Tree.norm]
theorem norm_nd {d : String} (h : d ≠ "key") (ks : List Tree) : (nd d ks).norm = nd d (Tree.norms ks) := norm_ne h ks _
theorem norm_ndl {d : String} (h : d ≠ "key") (ks : List Tree) (l : Lines) : (ndl d ks l).norm = nd d (Tree.norms ks) :=
  norm_ne h ks _

theorem node_inj {op op' : BinOp} (h : op.node = op'.node) : op = op' := by
  revert h; cases op <;> cases op' <;> decide

theorem node_other (op : BinOp) : op.node ≠ "not_op" ∧ op.node ≠ "minus" ∧ op.node ≠ "conditional" ∧
    op.node ≠ "function_accessor" ∧ op.node ≠ "key" := by
  cases op <;> decide

theorem ident_quote (x : Ident) (b : List Char) : x.1 ≠ quote b := by
  obtain ⟨x, c, cs, rfl, hc, _⟩ := x
  intro h
  simp only [quote, List.cons_append, List.cons.injEq] at h
  rw [h.1] at hc
  revert hc
  decide

theorem key_alike {k k' : Key} (h : Alike k.tree k'.tree) : k.tree.norm = k'.tree.norm := by
  have form : ∀ k : Key, ∃ t x, k.tree = nd "key" [tk t x] := by
    intro k
    match k with
    | .resource => exact ⟨_, _, rfl⟩
    | .ident x => exact ⟨_, _, rfl⟩
    | .quoted true b => exact ⟨_, _, rfl⟩
    | .quoted false b => exact ⟨_, _, rfl⟩
  obtain ⟨t, x, e⟩ := form k
  obtain ⟨t', x', e'⟩ := form k'
  rw [e, e', alike_nd] at h
  simp only [true_and, List.forall₂_cons, alike_tk] at h
  rw [e, e', h.1]
  simp [nd, tk, Tree.norm]

theorem existing_alike {b b' : Bool} (h : Alike (existingTree b) (existingTree b')) : b = b' := by
  cases b <;> cases b' <;> simp [existingTree, alike_tk_none, alike_none_tk] at h ⊢

theorem forall₂_snoc {α β : Type} {R : α → β → Prop} : ∀ {l : List α} {l' : List β} {a : α} {b : β},
    List.Forall₂ R (l ++ [a]) (l' ++ [b]) → List.Forall₂ R l l' ∧ R a b
  | [], [], _, _, h => by simp at h; exact ⟨.nil, h⟩
  | [], [_], _, _, h => by simp at h
  | [], _ :: _ :: _, _, _, h => by simp at h
  | [_], [], _, _, h => by simp at h
  | _ :: _ :: _, [], _, _, h => by simp at h
  | x :: l, y :: l', _, _, h => by
    simp only [List.cons_append, List.forall₂_cons] at h
    have := forall₂_snoc h.2
    exact ⟨.cons h.1 this.1, this.2⟩

/-- an expression's tree is a node -/
theorem expr_nd (e : Expr) : ∃ d ks, e.tree = nd d ks ∧ d ≠ "loop" := by
  cases e <;> exact ⟨_, _, by rw [Expr.tree], by decide⟩

theorem loop_nd (l : Loop) : ∃ ks, l.tree = nd "loop" ks := by
  obtain ⟨h, c, b⟩ := l
  exact ⟨_, by rw [Loop.tree]⟩

theorem expr_loop (e : Expr) (l : Loop) : ¬ Alike e.tree l.tree ∧ ¬ Alike l.tree e.tree := by
  obtain ⟨d, ks, h1, h2⟩ := expr_nd e
  obtain ⟨ks', h3⟩ := loop_nd l
  rw [h1, h3, alike_nd, alike_nd]
  exact ⟨fun h => h2 h.1, fun h => h2 h.1.symm⟩

mutual
theorem nm_expr : (e e' : Expr) → Alike e.tree e'.tree → e.tree.norm = e'.tree.norm
  | .null, e', h => by cases e' <;> simp [Expr.tree, alike_nd] at h ⊢
  | .tru, e', h => by cases e' <;> simp [Expr.tree, alike_nd] at h ⊢
  | .fls, e', h => by cases e' <;> simp [Expr.tree, alike_nd] at h ⊢
  | .int n, e', h => by
    cases e' <;> simp [Expr.tree, alike_nd, alike_tk] at h ⊢
    rw [h]
  | .ident x, e', h => by
    cases e' <;> simp [Expr.tree, alike_nd, alike_tk] at h ⊢
    · rw [h]
    · exact absurd h (ident_quote _ _)
  | .str b, e', h => by
    cases e' <;> simp [Expr.tree, alike_nd, alike_tk] at h ⊢
    · exact absurd h.symm (ident_quote _ _)
    · rw [h]
  | .multi b, e', h => by
    cases e' <;> simp [Expr.tree, alike_nd, alike_tk] at h ⊢
    rw [h]
  | .array es, e', h => by
    cases e' <;> simp [Expr.tree, alike_nd] at h ⊢
    rw [norm_nd (by decide), norm_nd (by decide), nm_exprs es _ h]
  | .object is, e', h => by
    cases e' <;> simp [Expr.tree, alike_nd] at h ⊢
    rw [norm_nd (by decide), norm_nd (by decide), nm_items is _ h]
  | .call f es, e', h => by
    cases e' <;> simp [Expr.tree, alike_nd, alike_tk] at h ⊢
    rw [norm_nd (by decide), norm_nd (by decide), Tree.norms, Tree.norms, nm_exprs es _ h.2, h.1]
  | .bin op a b, e', h => by
    have hn := node_other op
    cases e' <;> simp [Expr.tree, alike_nd, hn] at h ⊢
    obtain ⟨h1, h2, h3⟩ := h
    rw [← h1, norm_nd (by decide), norm_nd (by decide)]
    simp only [Tree.norms, norm_nd hn.2.2.2.2, nm_expr a _ h2, nm_expr b _ h3]
  | .not a, e', h => by
    cases e' <;> simp [Expr.tree, alike_nd] at h ⊢
    rw [norm_nd (by decide), norm_nd (by decide)]
    simp only [Tree.norms, norm_nd (show "not_op" ≠ "key" by decide), nm_expr a _ h]
  | .minus a, e', h => by
    cases e' <;> simp [Expr.tree, alike_nd] at h ⊢
    rw [norm_nd (by decide), norm_nd (by decide)]
    simp only [Tree.norms, norm_nd (show "minus" ≠ "key" by decide), nm_expr a _ h]
  | .cond c t f, e', h => by
    cases e' <;> simp [Expr.tree, alike_nd] at h ⊢
    rw [norm_nd (by decide), norm_nd (by decide)]
    simp only [Tree.norms, norm_nd (show "conditional" ≠ "key" by decide), nm_expr c _ h.1, nm_expr t _ h.2.1,
      nm_expr f _ h.2.2]
  | .method a f args, e', h => by
    cases e' <;> simp [Expr.tree, alike_nd, alike_tk] at h ⊢
    · exact absurd h.1.symm (node_other _).2.2.2.1
    rw [norm_nd (by decide), norm_nd (by decide)]
    simp only [Tree.norms, norm_nd (show "function_accessor" ≠ "key" by decide), nm_expr a _ h.1, h.2.1,
      nm_optExprs args _ h.2.2]
  | .lambda v e, e', h => by
    cases e' <;> simp [Expr.tree, alike_nd] at h ⊢
    rw [norm_nd (by decide), norm_nd (by decide)]
    simp only [Tree.norms, nm_expr v _ h.1, nm_expr e _ h.2]
  | .lambdaN v1 v2 v3 vs e, e', h => by
    cases e' <;> simp [Expr.tree, alike_nd] at h ⊢
    rename_i w1 w2 w3 ws e'
    obtain ⟨h1, h2, h3, h⟩ := h
    obtain ⟨h4, h5⟩ := forall₂_snoc h
    rw [norm_nd (by decide), norm_nd (by decide)]
    simp only [Tree.norms, norms_append, nm_expr v1 _ h1, nm_expr v2 _ h2, nm_expr v3 _ h3, nm_exprs vs _ h4,
      nm_expr e _ h5]
theorem nm_exprs : (es es' : List Expr) → List.Forall₂ Alike (Expr.trees es) (Expr.trees es') →
    Tree.norms (Expr.trees es) = Tree.norms (Expr.trees es')
  | [], es', h => by cases es' <;> simp [Expr.trees] at h ⊢
  | e :: es, es', h => by
    cases es' with
    | nil => simp [Expr.trees] at h
    | cons e' es' =>
      simp only [Expr.trees, List.forall₂_cons] at h
      simp only [Expr.trees, Tree.norms, nm_expr e _ h.1, nm_exprs es _ h.2]
theorem nm_optExpr : (o o' : Option Expr) → Alike (Expr.optTree o) (Expr.optTree o') →
    (Expr.optTree o).norm = (Expr.optTree o').norm
  | .none, .none, _ => rfl
  | .none, some e', h => by
    obtain ⟨d, ks, h1, _⟩ := expr_nd e'
    simp only [Expr.optTree, h1] at h
    exact absurd h alike_none_nd
  | some e, .none, h => by
    obtain ⟨d, ks, h1, _⟩ := expr_nd e
    simp only [Expr.optTree, h1] at h
    exact absurd h alike_nd_none
  | some e, some e', h => by
    simp only [Expr.optTree] at h ⊢
    exact nm_expr e e' h
theorem nm_optExprs : (es es' : List (Option Expr)) → List.Forall₂ Alike (Expr.optTrees es) (Expr.optTrees es') →
    Tree.norms (Expr.optTrees es) = Tree.norms (Expr.optTrees es')
  | [], es', h => by cases es' <;> simp [Expr.optTrees] at h ⊢
  | e :: es, es', h => by
    cases es' with
    | nil => simp [Expr.optTrees] at h
    | cons e' es' =>
      simp only [Expr.optTrees, List.forall₂_cons] at h
      simp only [Expr.optTrees, Tree.norms, nm_optExpr e _ h.1, nm_optExprs es _ h.2]
theorem nm_item : (i i' : Item) → Alike i.tree i'.tree → i.tree.norm = i'.tree.norm
  | .pair k v, i', h => by
    cases i' with
    | pair k' v' =>
      simp [Item.tree, alike_nd] at h ⊢
      rw [norm_nd (by decide), norm_nd (by decide)]
      simp only [Tree.norms, key_alike h.1, nm_expr v _ h.2]
    | pairLoop k' l' =>
      simp [Item.tree, alike_nd] at h
      exact absurd h.2 (expr_loop v l').1
    | child l n t ex c => simp [Item.tree, alike_nd_ndl] at h
  | .pairLoop k l, i', h => by
    cases i' with
    | pair k' v' =>
      simp [Item.tree, alike_nd] at h
      exact absurd h.2 (expr_loop v' l).2
    | pairLoop k' l' =>
      simp [Item.tree, alike_nd] at h ⊢
      rw [norm_nd (by decide), norm_nd (by decide)]
      simp only [Tree.norms, key_alike h.1, nm_loop l _ h.2]
    | child l n t ex c => simp [Item.tree, alike_nd_ndl] at h
  | .child ln x t ex c, i', h => by
    cases i' with
    | pair k' v' => simp [Item.tree, alike_ndl_nd] at h
    | pairLoop k' l' => simp [Item.tree, alike_ndl_nd] at h
    | child ln' x' t' ex' c' =>
      simp [Item.tree, alike_ndl, alike_tk] at h ⊢
      rw [norm_ndl (by decide), norm_ndl (by decide)]
      simp only [Tree.norms, h.1, h.2.1, existing_alike h.2.2.1, nm_config c _ h.2.2.2]
theorem nm_items : (is is' : List Item) → List.Forall₂ Alike (Item.trees is) (Item.trees is') →
    Tree.norms (Item.trees is) = Tree.norms (Item.trees is')
  | [], is', h => by cases is' <;> simp [Item.trees] at h ⊢
  | e :: is, is', h => by
    cases is' with
    | nil => simp [Item.trees] at h
    | cons e' is' =>
      simp only [Item.trees, List.forall₂_cons] at h
      simp only [Item.trees, Tree.norms, nm_item e _ h.1, nm_items is _ h.2]
theorem nm_loop : (l l' : Loop) → Alike l.tree l'.tree → l.tree.norm = l'.tree.norm
  | .mk h c b, .mk h' c' b', ha => by
    simp [Loop.tree, alike_nd] at ha ⊢
    rw [norm_nd (by decide), norm_nd (by decide)]
    simp only [Tree.norms, nm_head h _ ha.1, nm_optExpr c _ ha.2.1, nm_expr b _ ha.2.2]
theorem nm_head : (l l' : LoopHead) → Alike l.tree l'.tree → l.tree.norm = l'.tree.norm
  | .arr x e, l', h => by
    cases l' <;> simp [LoopHead.tree, alike_nd, alike_tk] at h ⊢
    rw [norm_nd (by decide), norm_nd (by decide)]
    simp only [Tree.norms, h.1, nm_expr e _ h.2]
  | .arrIdx x i e, l', h => by
    cases l' <;> simp [LoopHead.tree, alike_nd, alike_tk] at h ⊢
    rw [norm_nd (by decide), norm_nd (by decide)]
    simp only [Tree.norms, h.1, h.2.1, nm_expr e _ h.2.2]
  | .obj x e, l', h => by
    cases l' <;> simp [LoopHead.tree, alike_nd, alike_tk] at h ⊢
    rw [norm_nd (by decide), norm_nd (by decide)]
    simp only [Tree.norms, h.1, nm_expr e _ h.2]
theorem nm_config : (c c' : Config) → Alike c.tree c'.tree → c.tree.norm = c'.tree.norm
  | .obj is, c', h => by
    cases c' with
    | obj is' =>
      simp [Config.tree, alike_nd] at h ⊢
      rw [norm_nd (by decide), norm_nd (by decide), nm_items is _ h]
    | loop l =>
      obtain ⟨ks, hl⟩ := loop_nd l
      simp [Config.tree, hl, alike_nd] at h
    | cond c e => simp [Config.tree, alike_nd] at h
  | .loop l, c', h => by
    obtain ⟨ks, hl⟩ := loop_nd l
    cases c' with
    | obj is' => simp [Config.tree, hl, alike_nd] at h
    | loop l' =>
      simp only [Config.tree] at h ⊢
      exact nm_loop l l' h
    | cond c e => simp [Config.tree, hl, alike_nd] at h
  | .cond c e, c', h => by
    cases c' with
    | obj is' => simp [Config.tree, alike_nd] at h
    | loop l =>
      obtain ⟨ks, hl⟩ := loop_nd l
      simp [Config.tree, hl, alike_nd] at h
    | cond c' e' =>
      simp [Config.tree, alike_nd] at h ⊢
      rw [norm_nd (by decide), norm_nd (by decide)]
      simp only [Tree.norms, nm_expr c _ h.1, nm_expr e _ h.2]
end

end Pycep
