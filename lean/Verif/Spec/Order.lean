import Verif.Spec.Document
/-
The order of declarations: which declarations may change places, and what the results have in common.
-/
namespace Pycep

/-- the places in the result a declaration asks for: the name declared, or the names imported, each
with its section -/
def Decl.places : Decl → List (String × String)
  | .scope _ => [("globals", "scope")]
  | d => d.declares

/-- the declaration has no nested resource that is reported under the name `n` -/
def Decl.NestsNot (d : Decl) (n : String) : Prop :=
  ∀ ds x b ex c, d = .resource ds x b ex c → ∃ rs, Chain c rs ∧ n ∉ chainNames (txt x.1) rs

/-- Two declarations that do not compete: they declare or import different names, and so do the
resources nested in them. -/
def Decl.Apart (d d' : Decl) : Prop :=
  (∀ q ∈ d.places, q ∉ d'.places) ∧ ∀ n, d.NestsNot n ∨ d'.NestsNot n

/-- The same declarations in another order: again and again two neighbours that do not compete change
places. -/
inductive Rearranged : Program → Program → Prop where
  | refl {p} : Rearranged p p
  | swap {a x y b} : x.2.Apart y.2 → Rearranged (a ++ x :: y :: b) (a ++ y :: x :: b)
  | trans {p q r} : Rearranged p q → Rearranged q r → Rearranged p r

/-- Equal up to the order of sections, and of the names in every section: equal as Python
dictionaries. -/
def Reordered (v v' : Val) : Prop :=
  ∃ ss ss' qs, v = .dict ss ∧ v' = .dict ss' ∧ qs.Perm ss' ∧
    List.Forall₂ (fun s s' => s.1 = s'.1 ∧ ∃ ns ns', s.2 = .dict ns ∧ s'.2 = .dict ns' ∧ ns.Perm ns') ss qs

end Pycep
