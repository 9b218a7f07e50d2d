import Verif.Spec.Nested
/-
Plain data, and the keys that occur in it.
-/
namespace Pycep

/-- Plain data: nothing, truth values, integers, strings, lists and dictionaries without repeated
keys, at any depth.  All keys satisfy `K`. -/
inductive Json (K : String → Prop) : Val → Prop where
  | none : Json K .none
  | bool {b} : Json K (.bool b)
  | int {i} : Json K (.int i)
  | str {s} : Json K (.str s)
  | elem {s} : Json K (.elem s)
  | list {l} : (∀ x ∈ l, Json K x) → Json K (.list l)
  | dict {d} : (d.map Prod.fst).Nodup → (∀ p ∈ d, K p.1) → (∀ p ∈ d, Json K p.2) → Json K (.dict d)

mutual
/-- all keys of objects in an expression satisfy `K`; a nested resource counts as the key
`__child_resource__` -/
def Expr.Keys (K : String → Prop) : Expr → Prop
  | .null | .tru | .fls | .int _ | .ident _ | .str _ | .multi _ => True
  | .array es => Expr.KeysL K es
  | .object is => Item.KeysL K is
  | .call _ es => Expr.KeysL K es
  | .bin _ a b => a.Keys K ∧ b.Keys K
  | .not a => a.Keys K
  | .minus a => a.Keys K
  | .cond c t f => c.Keys K ∧ t.Keys K ∧ f.Keys K
  | .method a _ es => a.Keys K ∧ Expr.KeysO K es
  | .lambda v e => v.Keys K ∧ e.Keys K
  | .lambdaN v1 v2 v3 vs e => v1.Keys K ∧ v2.Keys K ∧ v3.Keys K ∧ Expr.KeysL K vs ∧ e.Keys K
/-- the same for several expressions -/
def Expr.KeysL (K : String → Prop) : List Expr → Prop
  | [] => True
  | e :: es => e.Keys K ∧ Expr.KeysL K es
/-- the same for an optional expression -/
def Expr.KeysOpt (K : String → Prop) : Option Expr → Prop
  | .none => True
  | some e => e.Keys K
/-- the same for optional expressions -/
def Expr.KeysO (K : String → Prop) : List (Option Expr) → Prop
  | [] => True
  | e :: es => Expr.KeysOpt K e ∧ Expr.KeysO K es
/-- the same for a member of an object -/
def Item.Keys (K : String → Prop) : Item → Prop
  | .pair k e => K k.text ∧ e.Keys K
  | .pairLoop k l => K k.text ∧ l.Keys K
  | .child _ _ _ _ c => K "__child_resource__" ∧ c.Keys K
/-- the same for the members of an object -/
def Item.KeysL (K : String → Prop) : List Item → Prop
  | [] => True
  | i :: is => i.Keys K ∧ Item.KeysL K is
/-- the same for a loop -/
def Loop.Keys (K : String → Prop) : Loop → Prop
  | .mk h c b => h.Keys K ∧ Expr.KeysOpt K c ∧ b.Keys K
/-- the same for the head of a loop -/
def LoopHead.Keys (K : String → Prop) : LoopHead → Prop
  | .arr _ e | .arrIdx _ _ e | .obj _ e => e.Keys K
/-- the same for the body of a resource -/
def Config.Keys (K : String → Prop) : Config → Prop
  | .obj is => Item.KeysL K is
  | .loop l => l.Keys K
  | .cond c e => c.Keys K ∧ e.Keys K
end

mutual
/-- Resources are nested only directly in the body of a resource, and the key `__child_resource__`
is not used otherwise. -/
def Config.Tidy : Config → Prop
  | .obj is => Item.TidyL is
  | .loop l => l.Keys (· ≠ "__child_resource__")
  | .cond c e => c.Keys (· ≠ "__child_resource__") ∧ e.Keys (· ≠ "__child_resource__")
/-- the same for the members of such a body -/
def Item.TidyL : List Item → Prop
  | [] => True
  | i :: is => i.Tidy ∧ Item.TidyL is
/-- the same for a member -/
def Item.Tidy : Item → Prop
  | .pair k e => k.text ≠ "__child_resource__" ∧ e.Keys (· ≠ "__child_resource__")
  | .pairLoop k l => k.text ≠ "__child_resource__" ∧ l.Keys (· ≠ "__child_resource__")
  | .child _ _ _ _ c => c.Tidy
end

/-- an argument of a decorator -/
def Deco.Keys (K : String → Prop) (d : Deco) : Prop := Expr.KeysOpt K d.arg

/-- a value of a variable or output -/
def LoopOrExpr.Keys (K : String → Prop) : LoopOrExpr → Prop
  | .expr e => e.Keys K
  | .loop l => l.Keys K

/-- Names and keys of a declaration satisfy `K`; `R` is what is asked of the body of a resource. -/
def Decl.Keys (K : String → Prop) (R : Config → Prop) : Decl → Prop
  | .scope _ => True
  | .importNs b => K (txt b)
  | .importFrom i is _ => ∀ j ∈ i :: is, K j.name.text
  | .extension x is _ => K (txt x.1) ∧ ∀ is', is = some is' → Item.KeysL K is'
  | .metadata x _ => K (txt x.1)
  | .param ds x _ e => K (txt x.1) ∧ (∀ d ∈ ds, d.Keys K) ∧ Expr.KeysOpt K e
  | .var ds x _ e => K (txt x.1) ∧ (∀ d ∈ ds, d.Keys K) ∧ e.Keys K
  | .output ds x _ e => K (txt x.1) ∧ (∀ d ∈ ds, d.Keys K) ∧ e.Keys K
  | .resource ds x _ _ c => K (txt x.1) ∧ (∀ d ∈ ds, d.Keys K) ∧ R c
  | .module ds x _ c => K (txt x.1) ∧ (∀ d ∈ ds, d.Keys K) ∧ c.Keys K
  | .typ ds x e es => K (txt x.1) ∧ (∀ d ∈ ds, d.Keys K) ∧ e.Keys K ∧ Expr.KeysL K es
  | .func ds x ps _ e => K (txt x.1) ∧ (∀ d ∈ ds, d.Keys K) ∧ (∀ q ∈ ps, K (txt q.1.1)) ∧ e.Keys K

/-- The program neither uses the word `__child_resource__` as a key or name nor nests resources
anywhere else than directly in the body of a resource. -/
def Program.Tidy (p : Program) : Prop := ∀ q ∈ p, q.2.Keys (· ≠ "__child_resource__") Config.Tidy

end Pycep
