import Verif.Spec.FunTable
import Verif.Spec.Faithful
/-
The type that `pycep/typing.py` publishes for the values of expressions, and the expressions whose
values have it.
-/
namespace Pycep

/-- `bool | int | str`: what may be in a list -/
inductive Val.Atom : Val → Prop where
  | bool {b} : Atom (.bool b)
  | int {i} : Atom (.int i)
  | str {s} : Atom (.str s)
  | elem {s} : Atom (.elem s)

/-- `PossibleValue` (typing.py:7): `bool | int | str | list[bool | int | str] | dict[str, PossibleValue]` -/
inductive Val.Possible : Val → Prop where
  | atom {v} : v.Atom → Possible v
  | list {l : List Val} : (∀ v ∈ l, v.Atom) → Possible (.list l)
  | dict {d : List (String × Val)} : (∀ p ∈ d, Possible p.2) → Possible (.dict d)

/-- literals other than `null`, and identifiers -/
def Expr.Single : Expr → Prop
  | .tru | .fls | .int _ | .ident _ | .str _ | .multi _ => True
  | _ => False

/-- a call with the arguments `args`, of which those in `ok` are reported with the published type -/
def CallFits (f : String) (args : List Val) (ok : List Prop) : Prop :=
  (∀ s ∈ signatures, f ∈ s.names → ∀ ps, s.report args = .params ps →
    ∀ q ∈ ps, match q.2 with
      | .arg i => ok[i]?.getD False
      | .absent => False
      | .text _ => True) ∧
  ((∀ s ∈ signatures, f ∉ s.names) → ∀ q ∈ ok, q)

/-- A condition that is written as an object may look like the representation of `if (...)`. -/
def LooksLikeIf (w : Val) : Prop :=
  ∃ u, w.at? [.key "function", .key "type"] = some u ∧ u.eqStr "if" = true

/-- The condition `c` of a loop, which itself has the published type if `F`, and its arguments if `A`;
`if (c)` is represented by `c`. -/
def CondFits (ln : Bool) (c : Expr) (F : Prop) (A : List Prop) : Prop :=
  match c with
  | .call f _ => if txt f.1 = "if" then A[0]?.getD False else F
  | .object is => ∀ w, (Expr.object is).val ln = .ok w →
      (LooksLikeIf w → ∀ y, w.at? [.key "function", .key "parameters", .key "arg_1"] = some y → y.Possible) ∧
      (¬ LooksLikeIf w → F)
  | _ => F

mutual
/-- The expressions whose values have the type `PossibleValue`: `null` must not be reported, the
elements of arrays are single values, no optional argument of a known function is left out. -/
def Expr.Fits (ln : Bool) : Expr → Prop
  | .null => False
  | .tru | .fls | .int _ | .ident _ | .str _ | .multi _ => True
  | .array es => ∀ e ∈ es, e.Single
  | .object is => Item.Fit ln is
  | .call f es => ∀ args, Expr.vals ln es = .ok args → CallFits (txt f.1) args (Expr.fit ln es)
  | .bin _ a b => a.Fits ln ∧ b.Fits ln
  | .not a => a.Fits ln
  | .minus a => a.Fits ln
  | .cond c t f => c.Fits ln ∧ t.Fits ln ∧ f.Fits ln
  | .method a _ args => a.Fits ln ∧ Expr.optFit ln args
  | .lambda _ e => e.Fits ln
  | .lambdaN _ _ _ _ e => e.Fits ln
/-- for each of some expressions -/
def Expr.fit (ln : Bool) : List Expr → List Prop
  | [] => []
  | e :: es => e.Fits ln :: Expr.fit ln es
/-- arguments of methods: empty ones are not reported -/
def Expr.optFit (ln : Bool) : List (Option Expr) → Prop
  | [] => True
  | .none :: es => Expr.optFit ln es
  | some e :: es => (e.blank = true ∨ e.Fits ln) ∧ Expr.optFit ln es
/-- a member of an object -/
def Item.Fits (ln : Bool) : Item → Prop
  | .pair _ e => e.Fits ln
  | .pairLoop _ l => l.Fits ln
  | .child _ _ _ _ c => c.Fits ln
/-- the members of an object: of several with the same key the last one counts -/
def Item.Fit (ln : Bool) : List Item → Prop
  | [] => True
  | i :: is => ((∃ j ∈ is, j.key = i.key) ∨ i.Fits ln) ∧ Item.Fit ln is
/-- a loop: there must be a condition, since otherwise `None` is reported -/
def Loop.Fits (ln : Bool) : Loop → Prop
  | .mk _ .none _ => False
  | .mk h (some c) b => h.Fits ln ∧ b.Fits ln ∧ CondFits ln c (c.Fits ln) (c.argFit ln)
/-- for each of the arguments of a call -/
def Expr.argFit (ln : Bool) : Expr → List Prop
  | .call _ es => Expr.fit ln es
  | _ => []
/-- what a loop ranges over -/
def LoopHead.Fits (ln : Bool) : LoopHead → Prop
  | .arr _ e => e.Fits ln
  | .arrIdx _ _ e => e.Fits ln
  | .obj _ _ => True
/-- the body of a resource or module -/
def Config.Fits (ln : Bool) : Config → Prop
  | .obj is => Item.Fit ln is
  | .loop l => l.Fits ln
  | .cond c e => c.Fits ln ∧ e.Fits ln
end
end Pycep
