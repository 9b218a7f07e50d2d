import Verif.Spec.Place
/-
Nested resources: which of them are reported, and how.
-/
namespace Pycep

/-- a resource declared in the body of another one -/
structure Nested where
  lines : Lines
  name : Ident
  type : List Char
  existing : Bool
  config : Config

/-- the member of a body that declares it -/
def Nested.item (r : Nested) : Item := .child r.lines r.name r.type r.existing r.config

/-- `r` is the last resource nested directly in the body `c` -/
def ChildOf (c : Config) (r : Nested) : Prop :=
  ∃ is, c = .obj is ∧ LastItem is "__child_resource__" r.item

/-- nothing is nested directly in the body -/
def NoChild : Config → Prop
  | .obj is => ∀ i ∈ is, i.key ≠ "__child_resource__"
  | _ => True

/-- the chain of nested resources of a body: the last one in it, the last one in that one, ... -/
inductive Chain : Config → List Nested → Prop where
  | nil {c} : NoChild c → Chain c []
  | cons {c r rs} : ChildOf c r → Chain r.config rs → Chain c (r :: rs)

/-- names of a chain of resources nested in one named `n` -/
def chainNames (n : String) : List Nested → List String
  | [] => []
  | r :: rs => (n ++ "__" ++ txt r.name.1) :: chainNames (n ++ "__" ++ txt r.name.1) rs

/-- types of a chain of resources nested in one of type `t` -/
def chainTypes (t : String) : List Nested → List String
  | [] => []
  | r :: rs => (t ++ "/" ++ txt r.type) :: chainTypes (t ++ "/" ++ txt r.type) rs

end Pycep
