import Verif.Spec.Ast
import Verif.Proofs.CoreTree
/-
Two facts about the shape of the trees of documents: only the root is a `start` node, and the third
child of a `resource` node is a `type_api_pair` node.
-/
namespace Pycep.Mem

mutual
/-- no `start` node, and the third child of a `resource` node is a `type_api_pair` node -/
def TWf : Tree → Prop
  | .tok _ => True
  | .none => True
  | .node d ks _ => d ≠ "start" ∧
      (d = "resource" → ∃ a b c sp rest, ks = a :: b :: .node "type_api_pair" c sp :: rest) ∧ TWfL ks
def TWfL : List Tree → Prop
  | [] => True
  | t :: ts => TWf t ∧ TWfL ts
end

mutual
theorem twf_core : (t : Tree) → TWf t.core → TWf t
  | .tok _, _ => trivial
  | .none, _ => trivial
  | .node d ks sp, h => by
    obtain ⟨h1, h2, h3⟩ := h
    refine ⟨h1, fun e => ?_, twfL_core ks h3⟩
    obtain ⟨a, b, c, sp', rest, e'⟩ := h2 e
    match ks with
    | a' :: b' :: .node d' c' sp'' :: rest' =>
      simp only [coreList, Tree.core, List.cons.injEq, Tree.node.injEq] at e'
      obtain ⟨-, -, ⟨rfl, -, -⟩, -⟩ := e'
      exact ⟨_, _, _, _, _, rfl⟩
    | a' :: b' :: .tok _ :: rest' => simp [coreList, Tree.core] at e'
    | a' :: b' :: .none :: rest' => simp [coreList, Tree.core] at e'
    | [] => simp [coreList] at e'
    | [_] => simp [coreList] at e'
    | [_, _] => simp [coreList] at e'
theorem twfL_core : (ts : List Tree) → TWfL (coreList ts) → TWfL ts
  | [], _ => trivial
  | t :: ts, h => ⟨twf_core t h.1, twfL_core ts h.2⟩
end

/-! ### the trees of programs -/

theorem twf_nd {d : String} {ks : List Tree} (h1 : d ≠ "start") (h2 : d ≠ "resource") (h3 : TWfL ks) : TWf (nd d ks) :=
  ⟨h1, fun e => absurd e h2, h3⟩
theorem twf_ndl {d : String} {ks : List Tree} {ln : Lines} (h1 : d ≠ "start") (h2 : d ≠ "resource") (h3 : TWfL ks) :
    TWf (ndl d ks ln) :=
  ⟨h1, fun e => absurd e h2, h3⟩
theorem twf_tk {t : Nat} {s : List Char} : TWf (tk t s) := trivial

theorem twfL_iff (ts : List Tree) : TWfL ts ↔ ∀ t ∈ ts, TWf t := by
  induction ts with
  | nil => simp [TWfL]
  | cons t ts ih => simp [TWfL, ih]

theorem twf_key : (k : Key) → TWf k.tree
  | .resource => twf_nd (by decide) (by decide) (ks := [_]) ⟨twf_tk, trivial⟩
  | .ident x => twf_nd (by decide) (by decide) (ks := [_]) ⟨twf_tk, trivial⟩
  | .quoted true b => twf_nd (by decide) (by decide) (ks := [_]) ⟨twf_tk, trivial⟩
  | .quoted false b => twf_nd (by decide) (by decide) (ks := [_]) ⟨twf_tk, trivial⟩

theorem twf_existing (b : Bool) : TWf (existingTree b) := by
  cases b <;> exact trivial

theorem twf_op (op : BinOp) : op.node ≠ "start" ∧ op.node ≠ "resource" := by
  cases op <;> decide

mutual
theorem twf_expr : (e : Expr) → TWf e.tree
  | .null => by
    rw [Expr.tree]; exact twf_nd (by decide) (by decide) trivial
  | .tru => by
    rw [Expr.tree]; exact twf_nd (by decide) (by decide) trivial
  | .fls => by
    rw [Expr.tree]; exact twf_nd (by decide) (by decide) trivial
  | .int d => by
    rw [Expr.tree]; exact twf_nd (by decide) (by decide) ⟨twf_tk, trivial⟩
  | .ident x => by
    rw [Expr.tree]; exact twf_nd (by decide) (by decide) ⟨twf_tk, trivial⟩
  | .str b => by
    rw [Expr.tree]; exact twf_nd (by decide) (by decide) ⟨twf_tk, trivial⟩
  | .multi b => by
    rw [Expr.tree]; exact twf_nd (by decide) (by decide) ⟨twf_tk, trivial⟩
  | .array es => by
    rw [Expr.tree]; exact twf_nd (by decide) (by decide) (twf_exprs es)
  | .object is => by
    rw [Expr.tree]; exact twf_nd (by decide) (by decide) (twf_items is)
  | .call f es => by
    rw [Expr.tree]; exact twf_nd (by decide) (by decide) ⟨twf_tk, twf_exprs es⟩
  | .bin op a b => by
    rw [Expr.tree]; exact twf_nd (by decide) (by decide)
      ⟨twf_nd (twf_op op).1 (twf_op op).2 ⟨twf_expr a, twf_expr b, trivial⟩, trivial⟩
  | .not a => by
    rw [Expr.tree]; exact twf_nd (by decide) (by decide) ⟨twf_nd (by decide) (by decide) ⟨twf_expr a, trivial⟩, trivial⟩
  | .minus a => by
    rw [Expr.tree]; exact twf_nd (by decide) (by decide) ⟨twf_nd (by decide) (by decide) ⟨twf_expr a, trivial⟩, trivial⟩
  | .cond c t f => by
    rw [Expr.tree]; exact twf_nd (by decide) (by decide)
      ⟨twf_nd (by decide) (by decide) ⟨twf_expr c, twf_expr t, twf_expr f, trivial⟩, trivial⟩
  | .method a f args => by
    rw [Expr.tree]; exact twf_nd (by decide) (by decide)
      ⟨twf_nd (by decide) (by decide) ⟨twf_expr a, twf_tk, twf_optExprs args⟩, trivial⟩
  | .lambda v e => by
    rw [Expr.tree]; exact twf_nd (by decide) (by decide) ⟨twf_expr v, twf_expr e, trivial⟩
  | .lambdaN v1 v2 v3 vs e => by
    rw [Expr.tree]; exact twf_nd (by decide) (by decide)
      ⟨twf_expr v1, twf_expr v2, twf_expr v3, by
        have h1 := twf_exprs vs
        have h2 := twf_expr e
        rw [twfL_iff] at h1 ⊢
        intro t ht
        rcases List.mem_append.mp ht with ht | ht
        · exact h1 t ht
        · rw [List.mem_singleton.mp ht]; exact h2⟩
theorem twf_exprs : (es : List Expr) → TWfL (Expr.trees es)
  | [] => trivial
  | e :: es => ⟨twf_expr e, twf_exprs es⟩
theorem twf_optExpr : (e : Option Expr) → TWf (Expr.optTree e)
  | .none => trivial
  | some e => twf_expr e
theorem twf_optExprs : (es : List (Option Expr)) → TWfL (Expr.optTrees es)
  | [] => trivial
  | e :: es => ⟨twf_optExpr e, twf_optExprs es⟩
theorem twf_item : (i : Item) → TWf i.tree
  | .pair k v => by
    rw [Item.tree]; exact twf_nd (by decide) (by decide) ⟨twf_key k, twf_expr v, trivial⟩
  | .pairLoop k l => by
    rw [Item.tree]; exact twf_nd (by decide) (by decide) ⟨twf_key k, twf_loop l, trivial⟩
  | .child ln name type existing c => by
    rw [Item.tree]; exact twf_ndl (by decide) (by decide)
      ⟨twf_tk, twf_tk, twf_existing existing, twf_config c, trivial⟩
theorem twf_items : (is : List Item) → TWfL (Item.trees is)
  | [] => trivial
  | i :: is => ⟨twf_item i, twf_items is⟩
theorem twf_loop : (l : Loop) → TWf l.tree
  | .mk h cond body => by
    rw [Loop.tree]; exact twf_nd (by decide) (by decide) ⟨twf_head h, twf_optExpr cond, twf_expr body, trivial⟩
theorem twf_head : (h : LoopHead) → TWf h.tree
  | .arr x e => by
    rw [LoopHead.tree]; exact twf_nd (by decide) (by decide) ⟨twf_tk, twf_expr e, trivial⟩
  | .arrIdx x i e => by
    rw [LoopHead.tree]; exact twf_nd (by decide) (by decide) ⟨twf_tk, twf_tk, twf_expr e, trivial⟩
  | .obj x e => by
    rw [LoopHead.tree]; exact twf_nd (by decide) (by decide) ⟨twf_tk, twf_expr e, trivial⟩
theorem twf_config : (c : Config) → TWf c.tree
  | .obj is => by
    rw [Config.tree]; exact twf_nd (by decide) (by decide) (twf_items is)
  | .loop l => twf_loop l
  | .cond c e => by
    rw [Config.tree]; exact twf_nd (by decide) (by decide) ⟨twf_expr c, twf_expr e, trivial⟩
end

mutual
theorem twf_dataType : (d : DataType) → TWf d.tree
  | .mk b n => by
    rw [DataType.tree]; exact twf_nd (by decide) (by decide) ⟨twf_baseType b, by
      rw [twfL_iff]; intro t ht; rw [List.eq_of_mem_replicate ht]; exact twf_nd (by decide) (by decide) trivial⟩
theorem twf_baseType : (b : BaseType) → TWf b.tree
  | .name x => by
    rw [BaseType.tree]; exact twf_nd (by decide) (by decide) ⟨twf_tk, trivial⟩
  | .union d1 d2 ds => by
    rw [BaseType.tree]; exact twf_nd (by decide) (by decide)
      ⟨twf_nd (by decide) (by decide) ⟨twf_dataType d1, twf_dataType d2, twf_dataTypes ds⟩, trivial⟩
theorem twf_dataTypes : (ds : List DataType) → TWfL (DataType.trees ds)
  | [] => trivial
  | d :: ds => ⟨twf_dataType d, twf_dataTypes ds⟩
end

theorem twf_deco (d : Deco) : TWf d.tree := by
  unfold Deco.tree
  refine twf_nd (by decide) (by decide) ⟨twf_tk, ?_⟩
  split
  · exact ⟨twf_expr _, trivial⟩
  · trivial

theorem twf_decos (ds : List Deco) : TWf (decosTree ds) := by
  unfold decosTree
  split
  · trivial
  · refine twf_nd (by decide) (by decide) ?_
    rw [twfL_iff]
    intro t ht
    obtain ⟨d, -, rfl⟩ := List.mem_map.mp ht
    exact twf_deco d

theorem twf_optIdent (x : Option Ident) : TWf (optIdentTree x) := by
  cases x <;> exact trivial

theorem twf_loopOrExpr (x : LoopOrExpr) : TWf x.tree := by
  cases x
  · exact twf_expr _
  · exact twf_loop _

theorem twf_importItem (i : ImportItem) : TWf i.tree := by
  refine twf_nd (by decide) (by decide) ⟨?_, twf_optIdent _, trivial⟩
  split <;> exact twf_tk

theorem twf_params : (ps : List (Ident × DataType)) → TWfL (paramTrees ps)
  | [] => trivial
  | (_, d) :: ps => ⟨twf_tk, twf_dataType d, twf_params ps⟩

theorem twf_decl (ln : Lines) (d : Decl) : TWf (d.tree ln) := by
  cases d with
  | scope b => exact twf_ndl (by decide) (by decide) ⟨twf_tk, trivial⟩
  | importNs b => exact twf_ndl (by decide) (by decide) ⟨twf_tk, trivial⟩
  | importFrom i is b =>
    refine twf_ndl (by decide) (by decide) ⟨twf_importItem i, ?_⟩
    rw [twfL_iff]
    intro t ht
    rcases List.mem_append.mp ht with ht | ht
    · obtain ⟨d, -, rfl⟩ := List.mem_map.mp ht
      exact twf_importItem d
    · rw [List.mem_singleton.mp ht]; exact twf_tk
  | extension name config al =>
    refine twf_ndl (by decide) (by decide) ⟨twf_tk, ?_, twf_optIdent _, trivial⟩
    split
    · exact twf_nd (by decide) (by decide) (twf_items _)
    · trivial
  | metadata name b =>
    exact twf_ndl (by decide) (by decide) ⟨twf_tk, twf_nd (by decide) (by decide) ⟨twf_tk, trivial⟩, trivial⟩
  | param ds name type default =>
    exact twf_ndl (by decide) (by decide) ⟨twf_decos ds, twf_tk, twf_dataType _, twf_optExpr _, trivial⟩
  | var ds name type v =>
    refine twf_ndl (by decide) (by decide) ⟨twf_decos ds, twf_tk, ?_, twf_loopOrExpr _, trivial⟩
    split
    · exact twf_dataType _
    · trivial
  | output ds name type v =>
    exact twf_ndl (by decide) (by decide) ⟨twf_decos ds, twf_tk, twf_dataType _, twf_loopOrExpr _, trivial⟩
  | resource ds name typeApi existing c =>
    exact ⟨by decide, fun _ => ⟨_, _, _, _, _, rfl⟩, twf_decos ds, twf_tk,
      twf_nd (by decide) (by decide) ⟨twf_tk, trivial⟩, twf_existing _, twf_config _, trivial⟩
  | module ds name path c =>
    exact twf_ndl (by decide) (by decide) ⟨twf_decos ds, twf_tk,
      twf_nd (by decide) (by decide) ⟨twf_tk, trivial⟩, twf_config _, trivial⟩
  | typ ds name e es =>
    refine twf_ndl (by decide) (by decide) ⟨twf_decos ds, twf_tk, ?_, trivial⟩
    unfold typeValueTree
    split
    · exact twf_expr _
    · exact twf_nd (by decide) (by decide) ⟨twf_expr _, twf_exprs _⟩
  | func ds name params ret body =>
    refine twf_ndl (by decide) (by decide) ⟨twf_decos ds, twf_tk, ?_⟩
    rw [twfL_iff]
    intro t ht
    rcases List.mem_append.mp ht with ht | ht
    · exact (twfL_iff _).mp (twf_params params) t ht
    · rcases List.mem_cons.mp ht with rfl | ht
      · exact twf_dataType _
      · rw [List.mem_singleton.mp ht]; exact twf_expr _

theorem twf_program (p : Program) : ∃ ks, p.tree = nd "start" ks ∧ TWfL ks := by
  refine ⟨_, rfl, ?_⟩
  rw [twfL_iff]
  intro t ht
  obtain ⟨d, -, rfl⟩ := List.mem_map.mp ht
  exact twf_decl _ _

end Pycep.Mem
