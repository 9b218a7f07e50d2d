import Verif.Spec.Ast
import Verif.Spec.Sem
/-
Data: values made of nothing, truth values, numbers, texts, references, lists and dictionaries; and the
expressions that are nothing but data.
-/
namespace Pycep

/-- Data with texts `S`, references `R` and keys `K`; numbers are not negative and have at most 4300
digits. -/
inductive Datum (S R K : String → Prop) : Val → Prop where
  | none : Datum S R K .none
  | bool {b} : Datum S R K (.bool b)
  | int {n : Nat} : n < 10 ^ 4300 → Datum S R K (.int n)
  | str {s} : S s → Datum S R K (.str s)
  | elem {s} : R s → Datum S R K (.elem s)
  | list {l} : (∀ x ∈ l, Datum S R K x) → Datum S R K (.list l)
  | dict {d} : (d.map Prod.fst).Nodup → (∀ p ∈ d, K p.1) → (∀ p ∈ d, Datum S R K p.2) → Datum S R K (.dict d)

mutual
/-- literals, identifiers, and arrays and objects of such: no operators, calls, lambdas, loops or nested
resources -/
def Expr.isData : Expr → Bool
  | .null | .tru | .fls | .int _ | .ident _ | .str _ | .multi _ => true
  | .array es => Expr.isDataL es
  | .object is => Item.isDataL is
  | _ => false
/-- `Expr.isData` of a list -/
def Expr.isDataL : List Expr → Bool
  | [] => true
  | e :: es => e.isData && Expr.isDataL es
/-- `Expr.isData` of a member of an object -/
def Item.isData : Item → Bool
  | .pair _ e => e.isData
  | _ => false
/-- `Item.isData` of a list -/
def Item.isDataL : List Item → Bool
  | [] => true
  | i :: is => i.isData && Item.isDataL is
end

/-- an identifier that is none of the words `ws` -/
def IdentBut (ws : List String) (s : String) : Prop := IsIdentText s.toList ∧ s ∉ ws

/-- a text that can be written between triple quotes: it does not contain them, and does not end with a
quote -/
def TripleQuotable (s : String) : Prop := ¬ ['\'', '\'', '\''] <:+: s.toList ++ ['\'', '\'']

end Pycep
