import Verif.Spec.Sem
/-
Places in a result: following keys and indices.
-/
namespace Pycep

/-- one step into a value -/
inductive PStep where
  | key (k : String)
  | idx (i : Nat)
  deriving DecidableEq, Repr

/-- a string literal as a step into a dictionary -/
instance : Coe String PStep := ⟨.key⟩

/-- `v[step]` -/
def Val.step? (v : Val) : PStep → Option Val
  | .key k => match v with
    | .dict d => dGet k d
    | _ => .none
  | .idx i => match v with
    | .list l => l[i]?
    | _ => .none

/-- `v[s1][s2]...` -/
def Val.at? (v : Val) : List PStep → Option Val
  | [] => some v
  | s :: π => (v.step? s).bind (fun u => u.at? π)

theorem Val.at?_append (v : Val) (π σ : List PStep) : v.at? (π ++ σ) = (v.at? π).bind (fun u => u.at? σ) := by
  induction π generalizing v with
  | nil => rfl
  | cons s π ih =>
    simp only [List.cons_append, Val.at?]
    cases v.step? s with
    | none => rfl
    | some u => exact ih u

/-- keys of a dictionary, in order -/
def Val.keys : Val → List String
  | .dict d => d.map Prod.fst
  | _ => []

end Pycep
