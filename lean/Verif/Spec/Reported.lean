import Verif.Spec.Nested
/-
Which declarations of a program are reported, and where every piece of them is found in the result.
-/
namespace Pycep

/-- section and name under which a declaration is reported at its own place -/
def Decl.ownName : Decl → List (String × String)
  | .scope _ => [("globals", "scope")]
  | .importNs _ => []
  | .importFrom _ _ _ => []
  | .extension x _ _ => [("extensions", txt x.1)]
  | .metadata x _ => [("metadata", txt x.1)]
  | .param _ x _ _ => [("parameters", txt x.1)]
  | .var _ x _ _ => [("variables", txt x.1)]
  | .output _ x _ _ => [("outputs", txt x.1)]
  | .resource _ x _ _ _ => [("resources", txt x.1)]
  | .module _ x _ _ => [("modules", txt x.1)]
  | .typ _ x _ _ => [("types", txt x.1)]
  | .func _ x _ _ _ => [("functions", txt x.1)]

/-- no nested resource of the program is reported under the name `n` -/
def NotNested (p : Program) (n : String) : Prop :=
  ∀ l ds x b ex c, (l, Decl.resource ds x b ex c) ∈ p → ∃ rs, Chain c rs ∧ n ∉ chainNames (txt x.1) rs

/-- The declaration `d` at the lines `l` is what is reported as `n` in the section `s`: it is the
last one with this name, and no nested resource has the same name. -/
def Reported (p : Program) (s n : String) (l : Lines) (d : Decl) : Prop :=
  ∃ a b, p = a ++ (l, d) :: b ∧ (s, n) ∈ d.ownName ∧ (∀ q ∈ b, (s, n) ∉ q.2.ownName) ∧
    (s = "resources" → NotNested p n)

/-- The nested resource `r` is what is reported as `n`. It is the one with index `i` in the chain
`rs` of resources nested in a resource named `x`, and no nested resource of a later declaration has
the same name. -/
def NestedReported (p : Program) (n : String) (x : Ident) (b : List Char) (rs : List Nested) (i : Nat) (r : Nested) :
    Prop :=
  ∃ before l ds ex c later, p = before ++ (l, Decl.resource ds x b ex c) :: later ∧ Chain c rs ∧
    rs[i]? = some r ∧ (chainNames (txt x.1) rs)[i]? = some n ∧ NotNested later n

/-- `p.At s n π m`: the piece `m` of the program `p` is found at `π` in what is reported as `n` in
the section `s` -/
inductive Program.At (p : Program) : String → String → List PStep → Node → Prop where
  | own {s n l d κ m π k} : Reported p s n l d → DeclPlace1 d κ m → Place m π k → p.At s n (κ ++ π) k
  | nested {n x b rs i r is key key' e π k} : NestedReported p n x b rs i r → r.config = .obj is →
      LastItem is key (.pair key' e) → key ≠ "__child_resource__" → key ≠ "depends_on" →
      Place (.expr e) π k → p.At "resources" n ([.key "config", .key key] ++ π) k
  | nestedLoop {n x b rs i r is key key' l π k} : NestedReported p n x b rs i r → r.config = .obj is →
      LastItem is key (.pairLoop key' l) → key ≠ "__child_resource__" → key ≠ "depends_on" →
      Place (.loop l) π k → p.At "resources" n ([.key "config", .key key] ++ π) k
  | nestedFor {n x b rs i r l π k} : NestedReported p n x b rs i r → r.config = .loop l →
      Place (.loop l) π k → π ≠ [] → p.At "resources" n ([.key "config"] ++ π) k
  | nestedCond {n x b rs i r c e π k} : NestedReported p n x b rs i r → r.config = .cond c e →
      Place (.config (.cond c e)) π k → π ≠ [] → p.At "resources" n ([.key "config"] ++ π) k

end Pycep
