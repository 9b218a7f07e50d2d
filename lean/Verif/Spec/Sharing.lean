import Verif.Heap.Basic
/-
Spec for C70: objects reached from a result by following keys and positions.
-/
namespace Pycep.Sharing

/-- a key of a dictionary or a position in a list -/
inductive Sel where
  | key (k : String)
  | pos (i : Nat)
  deriving DecidableEq, Repr

/-- `x[s]`, for a reference `x` to a dictionary or list in the memory `h` -/
def sub (h : Heap) (x : HV) (s : Sel) : Option HV :=
  match x with
  | .ref a => match h[a]?, s with
    | some (.dict d), .key k => d.lookup k
    | some (.list l), .pos i => l[i]?
    | _, _ => .none
  | _ => .none

/-- `x[s1][s2]...` in the memory `h` -/
def reach (h : Heap) (x : HV) : List Sel → Option HV
  | [] => some x
  | s :: p => (sub h x s).bind (reach h · p)

/-- `v[s]`, for a plain value -/
def subV (v : Val) (s : Sel) : Option Val :=
  match v, s with
  | .dict d, .key k => d.lookup k
  | .list l, .pos i => l[i]?
  | _, _ => .none

/-- `v[s1][s2]...`, for a plain value -/
def reachV (v : Val) : List Sel → Option Val
  | [] => some v
  | s :: p => (subV v s).bind (reachV · p)

/-- The same at first sight: equal immutable values, dictionaries with the same keys in the same
order, lists of the same length. -/
inductive Like (h : Heap) : HV → Val → Prop
  | none : Like h .none .none
  | bool (b : Bool) : Like h (.bool b) (.bool b)
  | int (i : Int) : Like h (.int i) (.int i)
  | str (s : String) : Like h (.str s) (.str s)
  | elem (s : String) : Like h (.elem s) (.elem s)
  | dict {a d d'} : h[a]? = some (.dict d) → d.map Prod.fst = d'.map Prod.fst → Like h (.ref a) (.dict d')
  | list {a l l'} : h[a]? = some (.list l) → l.length = l'.length → Like h (.ref a) (.list l')

/-- In the memory `h`, `x` is `v`: the same at first sight along every path. -/
def Is (h : Heap) (x : HV) (v : Val) : Prop :=
  ∀ p, (reach h x p = .none ∧ reachV v p = .none) ∨
    ∃ y w, reach h x p = some y ∧ reachV v p = some w ∧ Like h y w

/-- no object is reached by two paths -/
def Unshared (h : Heap) (x : HV) : Prop :=
  ∀ p q a, reach h x p = some (.ref a) → reach h x q = some (.ref a) → p = q

end Pycep.Sharing
