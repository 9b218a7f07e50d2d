import Verif.Spec.Order
/-
Declarations that are overridden by later ones.
-/
namespace Pycep

/-- a resource nested in the declaration is reported under the name `n` -/
def Decl.Nests (d : Decl) (n : String) : Prop :=
  ∃ ds x b ex c rs, d = .resource ds x b ex c ∧ Chain c rs ∧ n ∈ chainNames (txt x.1) rs

/-- Every declaration of `p` is overridden in `q`: each name it declares or imports is declared or imported
there again, and so are the names of the resources nested in it. -/
def Program.OverriddenBy (p q : Program) : Prop :=
  ∀ x ∈ p, (∀ s ∈ x.2.places, ∃ y ∈ q, s ∈ y.2.places) ∧ ∀ n, x.2.NestsNot n ∨ ∃ y ∈ q, y.2.Nests n

end Pycep
