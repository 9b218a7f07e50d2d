import Verif.Spec.Ast
import Verif.Py
/-
How deep trees, results and programs are nested.
-/
namespace Pycep

mutual
/-- levels of nodes of a tree; `Transformer.transform` (lark/visitors.py, `_transform_tree`) calls itself once
for every level -/
def Tree.height : Tree → Nat
  | .tok _ => 0
  | .none => 0
  | .node _ kids _ => 1 + Tree.heights kids
/-- the largest height of several trees -/
def Tree.heights : List Tree → Nat
  | [] => 0
  | t :: ts => max t.height (Tree.heights ts)
end

mutual
/-- levels of dictionaries and lists of a value -/
def Val.levels : Val → Nat
  | .dict d => 1 + Val.levelsItems d
  | .list l => 1 + Val.levelsList l
  | .tup2 a b => 1 + max a.levels b.levels
  | _ => 0
/-- the most levels of the entries of a dictionary -/
def Val.levelsItems : List (String × Val) → Nat
  | [] => 0
  | (_, v) :: d => max v.levels (Val.levelsItems d)
/-- the most levels of the elements of a list -/
def Val.levelsList : List Val → Nat
  | [] => 0
  | v :: l => max v.levels (Val.levelsList l)
end

mutual
/-- How deep an expression is nested: an expression is one level above its operands, arguments, elements
and members.  The number of elements, members and arguments does not count; the operators of a chain such
as `a + b + c` are operands of each other and do. -/
def Expr.nest : Expr → Nat
  | .array es => 1 + Expr.nests es
  | .object is => 1 + Item.nests is
  | .call _ es => 1 + Expr.nests es
  | .bin _ a b => 1 + max a.nest b.nest
  | .not a => 1 + a.nest
  | .minus a => 1 + a.nest
  | .cond c t f => 1 + max c.nest (max t.nest f.nest)
  | .method a _ args => 1 + max a.nest (Expr.optNests args)
  | .lambda v e => 1 + max v.nest e.nest
  | .lambdaN v1 v2 v3 vs e => 1 + max v1.nest (max v2.nest (max v3.nest (max (Expr.nests vs) e.nest)))
  | _ => 1
/-- the deepest of several expressions -/
def Expr.nests : List Expr → Nat
  | [] => 0
  | e :: es => max e.nest (Expr.nests es)
/-- of an optional expression -/
def Expr.optNest : Option Expr → Nat
  | .none => 0
  | some e => e.nest
/-- the deepest of several optional expressions -/
def Expr.optNests : List (Option Expr) → Nat
  | [] => 0
  | e :: es => max (Expr.optNest e) (Expr.optNests es)
/-- a member of an object is one level above its value -/
def Item.nest : Item → Nat
  | .pair _ v => 1 + v.nest
  | .pairLoop _ l => 1 + l.nest
  | .child _ _ _ _ c => 1 + c.nest
/-- the deepest of several members -/
def Item.nests : List Item → Nat
  | [] => 0
  | i :: is => max i.nest (Item.nests is)
/-- a loop is one level above its head, condition and body -/
def Loop.nest : Loop → Nat
  | .mk h cond body => 1 + max h.nest (max (Expr.optNest cond) body.nest)
/-- a loop head is one level above what it ranges over -/
def LoopHead.nest : LoopHead → Nat
  | .arr _ e => 1 + e.nest
  | .arrIdx _ _ e => 1 + e.nest
  | .obj _ e => 1 + e.nest
/-- bodies of resources and modules -/
def Config.nest : Config → Nat
  | .obj is => 1 + Item.nests is
  | .loop l => l.nest
  | .cond c e => 1 + max c.nest e.nest
end

mutual
/-- data types: unions are above their members -/
def DataType.nest : DataType → Nat
  | .mk b _ => 1 + b.nest
def BaseType.nest : BaseType → Nat
  | .name _ => 1
  | .union d1 d2 ds => 1 + max d1.nest (max d2.nest (DataType.nests ds))
def DataType.nests : List DataType → Nat
  | [] => 0
  | d :: ds => max d.nest (DataType.nests ds)
end

/-- the deepest argument of decorators -/
def decoNest : List Deco → Nat
  | [] => 0
  | d :: ds => max (1 + Expr.optNest d.arg) (decoNest ds)

/-- the deepest type of parameters -/
def paramNest : List (Ident × DataType) → Nat
  | [] => 0
  | p :: ps => max p.2.nest (paramNest ps)

def LoopOrExpr.nest : LoopOrExpr → Nat
  | .expr e => e.nest
  | .loop l => l.nest

/-- a declaration is above its parts -/
def Decl.nest : Decl → Nat
  | .extension _ (some is) _ => 1 + (1 + Item.nests is)
  | .param ds _ type default => 1 + max (decoNest ds) (max type.nest (Expr.optNest default))
  | .var ds _ (some d) v => 1 + max (decoNest ds) (max d.nest v.nest)
  | .var ds _ .none v => 1 + max (decoNest ds) v.nest
  | .output ds _ type v => 1 + max (decoNest ds) (max type.nest v.nest)
  | .resource ds _ _ _ c => 1 + max (decoNest ds) c.nest
  | .module ds _ _ c => 1 + max (decoNest ds) c.nest
  | .typ ds _ e es => 1 + max (decoNest ds) (max e.nest (Expr.nests es))
  | .func ds _ ps ret body => 1 + max (decoNest ds) (max (paramNest ps) (max ret.nest body.nest))
  | _ => 1

/-- the deepest declaration of a program -/
def Program.nest (p : Program) : Nat :=
  match p with
  | [] => 0
  | d :: ds => max d.2.nest (Program.nest ds)

end Pycep
