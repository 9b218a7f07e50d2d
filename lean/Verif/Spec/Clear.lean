import Verif.Spec.Ast
/-
A condition on programs: in a loop with a condition, `[for x in xs: c e]`, what follows the condition
must not look like a continuation of it, i.e. must not start with `-` or `[`.
-/
namespace Pycep

/-- Does the expression, written without brackets around it, start with neither `-` nor `[`? -/
def Expr.lead : Expr → Bool
  | .array _ => false
  | .minus _ => false
  | .bin _ a _ => a.lead
  | .cond c _ _ => c.lead
  | .method a _ _ => a.lead
  | .lambda v _ => v.lead
  | _ => true

mutual
/-- the bodies of all loops with conditions are clearly separated from the condition -/
def Expr.clear : Expr → Bool
  | .null | .tru | .fls | .int _ | .ident _ | .str _ | .multi _ => true
  | .array es => Expr.clearL es
  | .object is => Item.clearL is
  | .call _ es => Expr.clearL es
  | .bin _ a b => a.clear && b.clear
  | .not a => a.clear
  | .minus a => a.clear
  | .cond c t f => c.clear && (t.clear && f.clear)
  | .method a _ args => a.clear && Expr.clearO args
  | .lambda v e => v.clear && e.clear
  | .lambdaN v1 v2 v3 vs e =>
    v1.clear && (v2.clear && (v3.clear && (Expr.clearL vs && e.clear)))
/-- `Expr.clear` of a list -/
def Expr.clearL : List Expr → Bool
  | [] => true
  | e :: es => e.clear && Expr.clearL es
/-- `Expr.clear` of an optional expression -/
def Expr.clear1 : Option Expr → Bool
  | .none => true
  | some e => e.clear
/-- `Expr.clear` of a list of optional expressions -/
def Expr.clearO : List (Option Expr) → Bool
  | [] => true
  | e :: es => Expr.clear1 e && Expr.clearO es
/-- `Expr.clear` of an object member -/
def Item.clear : Item → Bool
  | .pair _ v => v.clear
  | .pairLoop _ l => l.clear
  | .child _ _ _ _ c => c.clear
/-- `Item.clear` of a list -/
def Item.clearL : List Item → Bool
  | [] => true
  | i :: is => i.clear && Item.clearL is
/-- `Expr.clear` of a loop -/
def Loop.clear : Loop → Bool
  | .mk h c e => h.clear && (Expr.clear1 c && (e.clear && (c.isNone || e.lead)))
/-- `Expr.clear` of a loop head -/
def LoopHead.clear : LoopHead → Bool
  | .arr _ e => e.clear
  | .arrIdx _ _ e => e.clear
  | .obj _ e => e.clear
/-- `Expr.clear` of a resource or module body -/
def Config.clear : Config → Bool
  | .obj is => Item.clearL is
  | .loop l => l.clear
  | .cond c e => c.clear && e.clear
end

/-- `Expr.clear` of a decorator -/
def Deco.clear (d : Deco) : Bool := Expr.clear1 d.arg

/-- `Expr.clear` of a value of a variable or output -/
def LoopOrExpr.clear : LoopOrExpr → Bool
  | .expr e => e.clear
  | .loop l => l.clear

/-- `Expr.clear` of a declaration -/
def Decl.clear : Decl → Bool
  | .scope _ | .importNs _ | .importFrom _ _ _ | .metadata _ _ => true
  | .extension _ c _ => match c with | some is => Item.clearL is | .none => true
  | .param ds _ _ o => ds.all Deco.clear && Expr.clear1 o
  | .var ds _ _ v => ds.all Deco.clear && v.clear
  | .output ds _ _ v => ds.all Deco.clear && v.clear
  | .resource ds _ _ _ c => ds.all Deco.clear && c.clear
  | .module ds _ _ c => ds.all Deco.clear && c.clear
  | .typ ds _ e es => ds.all Deco.clear && (e.clear && Expr.clearL es)
  | .func ds _ _ _ e => ds.all Deco.clear && e.clear

/-- In all loops with conditions, the body starts with neither `-` nor `[`. -/
def Program.clear (p : Program) : Bool := p.all (fun d => d.2.clear)

end Pycep
