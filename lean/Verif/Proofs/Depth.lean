import Verif.Spec.Depth
import Verif.Proofs.CoreTree
import Verif.Proofs.Size
/-
Trees and results are nested as deep as programs, up to a constant factor.
-/
namespace Pycep

@[simp] theorem height_nd (d : String) (ks : List Tree) : (nd d ks).height = 1 + Tree.heights ks := by
  simp [nd, Tree.height]
@[simp] theorem height_ndl (d : String) (ks : List Tree) (l : Lines) :
    (ndl d ks l).height = 1 + Tree.heights ks := by
  simp [ndl, Tree.height]
@[simp] theorem height_tk (t : Nat) (x : List Char) : (tk t x).height = 0 := by simp [tk, Tree.height]
@[simp] theorem height_none : Tree.none.height = 0 := by simp [Tree.height]
@[simp] theorem heights_nil : Tree.heights [] = 0 := by simp [Tree.heights]
@[simp] theorem heights_cons (t : Tree) (ts : List Tree) :
    Tree.heights (t :: ts) = max t.height (Tree.heights ts) := by simp [Tree.heights]

theorem heights_append (xs ys : List Tree) :
    Tree.heights (xs ++ ys) = max (Tree.heights xs) (Tree.heights ys) := by
  induction xs with
  | nil => simp
  | cons x xs ih => simp [ih, Nat.max_assoc]

theorem Key.height (k : Key) : k.tree.height = 1 := by
  cases k with
  | quoted s b => cases s <;> simp [Key.tree]
  | _ => simp [Key.tree]

theorem existing_height (e : Bool) : (existingTree e).height = 0 := by cases e <;> simp [existingTree]

mutual
theorem Expr.height_le : ∀ e : Expr, e.nest ≤ e.tree.height ∧ e.tree.height ≤ 2 * e.nest
  | .null => by simp [Expr.nest, Expr.tree]
  | .tru => by simp [Expr.nest, Expr.tree]
  | .fls => by simp [Expr.nest, Expr.tree]
  | .int _ => by simp [Expr.nest, Expr.tree]
  | .ident _ => by simp [Expr.nest, Expr.tree]
  | .str _ => by simp [Expr.nest, Expr.tree]
  | .multi _ => by simp [Expr.nest, Expr.tree]
  | .array es => by have := Expr.heights_le es; simp only [Expr.nest, Expr.tree, height_nd]; omega
  | .object is => by have := Item.heights_le is; simp only [Expr.nest, Expr.tree, height_nd]; omega
  | .call f es => by
    have := Expr.heights_le es
    simp only [Expr.nest, Expr.tree, height_nd, heights_cons, height_tk]; omega
  | .bin op a b => by
    have := Expr.height_le a; have := Expr.height_le b
    simp only [Expr.nest, Expr.tree, height_nd, heights_cons, heights_nil]; omega
  | .not a => by
    have := Expr.height_le a
    simp only [Expr.nest, Expr.tree, height_nd, heights_cons, heights_nil]; omega
  | .minus a => by
    have := Expr.height_le a
    simp only [Expr.nest, Expr.tree, height_nd, heights_cons, heights_nil]; omega
  | .cond a b c => by
    have := Expr.height_le a; have := Expr.height_le b; have := Expr.height_le c
    simp only [Expr.nest, Expr.tree, height_nd, heights_cons, heights_nil]; omega
  | .method a f args => by
    have := Expr.height_le a; have := Expr.optHeights_le args
    simp only [Expr.nest, Expr.tree, height_nd, heights_cons, heights_nil, height_tk]; omega
  | .lambda a b => by
    have := Expr.height_le a; have := Expr.height_le b
    simp only [Expr.nest, Expr.tree, height_nd, heights_cons, heights_nil]; omega
  | .lambdaN a b c vs e => by
    have := Expr.height_le a; have := Expr.height_le b; have := Expr.height_le c
    have := Expr.heights_le vs; have := Expr.height_le e
    simp only [Expr.nest, Expr.tree, height_nd, heights_cons, heights_nil, heights_append]; omega
theorem Expr.heights_le : ∀ es : List Expr, Expr.nests es ≤ Tree.heights (Expr.trees es) ∧
    Tree.heights (Expr.trees es) ≤ 2 * Expr.nests es
  | [] => by simp [Expr.nests, Expr.trees]
  | e :: es => by
    have := Expr.height_le e; have := Expr.heights_le es
    simp only [Expr.nests, Expr.trees, heights_cons]; omega
theorem Expr.optHeight_le : ∀ e : Option Expr, Expr.optNest e ≤ (Expr.optTree e).height ∧
    (Expr.optTree e).height ≤ 2 * Expr.optNest e
  | .none => by simp [Expr.optNest, Expr.optTree]
  | some e => by have := Expr.height_le e; simpa only [Expr.optNest, Expr.optTree]
theorem Expr.optHeights_le : ∀ es : List (Option Expr), Expr.optNests es ≤ Tree.heights (Expr.optTrees es) ∧
    Tree.heights (Expr.optTrees es) ≤ 2 * Expr.optNests es
  | [] => by simp [Expr.optNests, Expr.optTrees]
  | e :: es => by
    have := Expr.optHeight_le e; have := Expr.optHeights_le es
    simp only [Expr.optNests, Expr.optTrees, heights_cons]; omega
theorem Item.height_le : ∀ i : Item, i.nest ≤ i.tree.height ∧ i.tree.height ≤ 2 * i.nest
  | .pair k e => by
    have := Expr.height_le e; have := Key.height k
    simp only [Item.nest, Item.tree, height_nd, heights_cons, heights_nil]; omega
  | .pairLoop k l => by
    have := Loop.height_le l; have := Key.height k
    simp only [Item.nest, Item.tree, height_nd, heights_cons, heights_nil]; omega
  | .child _ _ _ ex c => by
    have := Config.height_le c; have := existing_height ex
    simp only [Item.nest, Item.tree, height_ndl, heights_cons, heights_nil, height_tk]; omega
theorem Item.heights_le : ∀ is : List Item, Item.nests is ≤ Tree.heights (Item.trees is) ∧
    Tree.heights (Item.trees is) ≤ 2 * Item.nests is
  | [] => by simp [Item.nests, Item.trees]
  | i :: is => by
    have := Item.height_le i; have := Item.heights_le is
    simp only [Item.nests, Item.trees, heights_cons]; omega
theorem Loop.height_le : ∀ l : Loop, l.nest ≤ l.tree.height ∧ l.tree.height ≤ 2 * l.nest
  | .mk h c b => by
    have := LoopHead.height_le h; have := Expr.optHeight_le c; have := Expr.height_le b
    simp only [Loop.nest, Loop.tree, height_nd, heights_cons, heights_nil]; omega
theorem LoopHead.height_le : ∀ h : LoopHead, h.nest ≤ h.tree.height ∧ h.tree.height ≤ 2 * h.nest
  | .arr _ e => by
    have := Expr.height_le e
    simp only [LoopHead.nest, LoopHead.tree, height_nd, heights_cons, heights_nil, height_tk]; omega
  | .arrIdx _ _ e => by
    have := Expr.height_le e
    simp only [LoopHead.nest, LoopHead.tree, height_nd, heights_cons, heights_nil, height_tk]; omega
  | .obj _ e => by
    have := Expr.height_le e
    simp only [LoopHead.nest, LoopHead.tree, height_nd, heights_cons, heights_nil, height_tk]; omega
theorem Config.height_le : ∀ c : Config, c.nest ≤ c.tree.height ∧ c.tree.height ≤ 2 * c.nest
  | .obj is => by have := Item.heights_le is; simp only [Config.nest, Config.tree, height_nd]; omega
  | .loop l => by have := Loop.height_le l; simpa only [Config.nest, Config.tree]
  | .cond a b => by
    have := Expr.height_le a; have := Expr.height_le b
    simp only [Config.nest, Config.tree, height_nd, heights_cons, heights_nil]; omega
end

theorem suffixes_height (n : Nat) : Tree.heights (List.replicate n (nd "array_suffix" [])) ≤ 1 := by
  induction n with
  | zero => simp
  | succ n ih => simp [List.replicate_succ]; omega

mutual
theorem DataType.height_le : ∀ d : DataType, d.nest ≤ d.tree.height ∧ d.tree.height ≤ 2 * d.nest
  | .mk b n => by
    have := BaseType.height_le b; have := suffixes_height n
    simp only [DataType.nest, DataType.tree, height_nd, heights_cons]; omega
theorem BaseType.height_le : ∀ b : BaseType, b.nest ≤ b.tree.height ∧ b.tree.height ≤ 2 * b.nest
  | .name x => by simp [BaseType.nest, BaseType.tree]
  | .union d1 d2 ds => by
    have := DataType.height_le d1; have := DataType.height_le d2; have := DataType.heights_le ds
    simp only [BaseType.nest, BaseType.tree, height_nd, heights_cons, heights_nil]; omega
theorem DataType.heights_le : ∀ ds : List DataType, DataType.nests ds ≤ Tree.heights (DataType.trees ds) ∧
    Tree.heights (DataType.trees ds) ≤ 2 * DataType.nests ds
  | [] => by simp [DataType.nests, DataType.trees]
  | d :: ds => by
    have := DataType.height_le d; have := DataType.heights_le ds
    simp only [DataType.nests, DataType.trees, heights_cons]; omega
end

theorem deco_height (d : Deco) : 1 + Expr.optNest d.arg ≤ d.tree.height ∧
    d.tree.height ≤ 2 * (1 + Expr.optNest d.arg) := by
  obtain ⟨n, a⟩ := d
  cases a with
  | none => simp [Deco.tree, Expr.optNest]
  | some e =>
    have := Expr.height_le e
    simp only [Deco.tree, Expr.optNest, height_nd, heights_cons, heights_nil, height_tk]; omega

theorem decos_heights (ds : List Deco) : decoNest ds ≤ Tree.heights (ds.map Deco.tree) ∧
    Tree.heights (ds.map Deco.tree) ≤ 2 * decoNest ds := by
  induction ds with
  | nil => simp [decoNest]
  | cons d ds ih =>
    have := deco_height d
    simp only [List.map_cons, heights_cons, decoNest]; omega

theorem decos_height (ds : List Deco) : decoNest ds ≤ (decosTree ds).height ∧
    (decosTree ds).height ≤ 2 * decoNest ds + 1 := by
  have := decos_heights ds
  cases ds with
  | nil => simp [decosTree, decoNest]
  | cons d ds => simp only [decosTree, List.isEmpty_cons, Bool.false_eq_true, if_false, height_nd]; omega

theorem params_height (ps : List (Ident × DataType)) : paramNest ps ≤ Tree.heights (paramTrees ps) ∧
    Tree.heights (paramTrees ps) ≤ 2 * paramNest ps := by
  induction ps with
  | nil => simp [paramNest, paramTrees]
  | cons p ps ih =>
    obtain ⟨x, d⟩ := p
    have := DataType.height_le d
    simp only [paramNest, paramTrees, heights_cons, height_tk]; omega

theorem optIdent_height (a : Option Ident) : (optIdentTree a).height = 0 := by
  cases a <;> simp [optIdentTree]

theorem import_height (i : ImportItem) : i.tree.height = 1 := by
  obtain ⟨n, a⟩ := i
  have := optIdent_height a
  cases n <;> simp [ImportItem.tree, this]

theorem imports_height (is : List ImportItem) : Tree.heights (is.map ImportItem.tree) ≤ 1 := by
  induction is with
  | nil => simp
  | cons i is ih => have := import_height i; simp only [List.map_cons, heights_cons]; omega

theorem LoopOrExpr.height_le (v : LoopOrExpr) : v.nest ≤ v.tree.height ∧ v.tree.height ≤ 2 * v.nest := by
  cases v with
  | expr e => simpa only [LoopOrExpr.nest, LoopOrExpr.tree] using Expr.height_le e
  | loop l => simpa only [LoopOrExpr.nest, LoopOrExpr.tree] using Loop.height_le l

theorem typeValue_height (e : Expr) (es : List Expr) : max e.nest (Expr.nests es) ≤ (typeValueTree e es).height ∧
    (typeValueTree e es).height ≤ 2 * max e.nest (Expr.nests es) + 1 := by
  have := Expr.height_le e; have h2 := Expr.heights_le es
  unfold typeValueTree
  cases es with
  | nil => simp only [List.isEmpty_nil, if_true, Expr.nests]; omega
  | cons x xs => simp only [List.isEmpty_cons, Bool.false_eq_true, if_false, height_nd, heights_cons]; omega

theorem Decl.height_le (l : Lines) (d : Decl) : d.nest ≤ (d.tree l).height ∧ (d.tree l).height ≤ 2 * d.nest := by
  cases d with
  | scope b => simp [Decl.nest, Decl.tree]
  | importNs b => simp [Decl.nest, Decl.tree]
  | importFrom i is b =>
    have := import_height i; have := imports_height is
    simp only [Decl.nest, Decl.tree, height_ndl, heights_cons, heights_append, heights_nil, height_tk]; omega
  | extension n c a =>
    have := optIdent_height a
    cases c with
    | none => simp only [Decl.nest, Decl.tree, height_ndl, heights_cons, heights_nil, height_tk, height_none]; omega
    | some is =>
      have := Item.heights_le is
      simp only [Decl.nest, Decl.tree, height_ndl, heights_cons, heights_nil, height_tk, height_nd]; omega
  | metadata n b => simp [Decl.nest, Decl.tree]
  | param ds n t e =>
    have := decos_height ds; have := DataType.height_le t; have := Expr.optHeight_le e
    simp only [Decl.nest, Decl.tree, height_ndl, heights_cons, heights_nil, height_tk]; omega
  | var ds n t v =>
    have := decos_height ds; have := LoopOrExpr.height_le v
    cases t with
    | none => simp only [Decl.nest, Decl.tree, height_ndl, heights_cons, heights_nil, height_tk, height_none]; omega
    | some t =>
      have := DataType.height_le t
      simp only [Decl.nest, Decl.tree, height_ndl, heights_cons, heights_nil, height_tk]; omega
  | output ds n t v =>
    have := decos_height ds; have := LoopOrExpr.height_le v; have := DataType.height_le t
    simp only [Decl.nest, Decl.tree, height_ndl, heights_cons, heights_nil, height_tk]; omega
  | resource ds n t ex c =>
    have := decos_height ds; have := Config.height_le c; have := existing_height ex
    have : 1 ≤ c.nest := by
      cases c with
      | loop l => cases l; simp [Config.nest, Loop.nest]
      | _ => simp [Config.nest]
    simp only [Decl.nest, Decl.tree, height_ndl, height_nd, heights_cons, heights_nil, height_tk]; omega
  | module ds n t c =>
    have := decos_height ds; have := Config.height_le c
    have : 1 ≤ c.nest := by
      cases c with
      | loop l => cases l; simp [Config.nest, Loop.nest]
      | _ => simp [Config.nest]
    simp only [Decl.nest, Decl.tree, height_ndl, height_nd, heights_cons, heights_nil, height_tk]; omega
  | typ ds n e es =>
    have := decos_height ds; have := typeValue_height e es
    simp only [Decl.nest, Decl.tree, height_ndl, heights_cons, heights_nil, height_tk]; omega
  | func ds n ps t e =>
    have := decos_height ds; have := params_height ps; have := DataType.height_le t; have := Expr.height_le e
    simp only [Decl.nest, Decl.tree, height_ndl, heights_cons, heights_nil, height_tk, heights_append]; omega

theorem Program.height_le (p : Program) : p.nest + 1 ≤ p.tree.height ∧ p.tree.height ≤ 2 * p.nest + 1 := by
  unfold Program.tree
  rw [height_nd]
  have : p.nest ≤ Tree.heights (p.map (fun d => d.2.tree d.1)) ∧
      Tree.heights (p.map (fun d => d.2.tree d.1)) ≤ 2 * p.nest := by
    induction p with
    | nil => simp [Program.nest]
    | cons d p ih =>
      have := Decl.height_le d.1 d.2
      simp only [List.map_cons, heights_cons, Program.nest]; omega
  omega

mutual
theorem core_height : ∀ t : Tree, t.core.height = t.height
  | .tok t => by simp [Tree.core, Tree.height]
  | .none => by simp [Tree.core, Tree.height]
  | .node d ks sp => by simp [Tree.core, Tree.height, core_heights ks]
theorem core_heights : ∀ ts : List Tree, Tree.heights (coreList ts) = Tree.heights ts
  | [] => by simp [coreList]
  | t :: ts => by simp [coreList, core_height t, core_heights ts]
end

end Pycep
