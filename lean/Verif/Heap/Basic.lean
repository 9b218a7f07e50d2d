import Verif.Transformer
/-
Python objects with identity.  In `Py.lean` dictionaries and lists are plain values; here they are
objects in a memory, values hold references to them, and two places may hold the same reference.
This is the part of the Python runtime that matters for sharing and for changes in place.
-/
namespace Pycep

/-- Python values: immutable ones are kept as they are, a dictionary or list is a reference, that is the
position of an object in the memory.
The constructors `list` and `dict` occur in two roles: as the contents of an object in the memory, and
as a display (`[...]`, `{...}`) that is being evaluated and not yet stored. -/
inductive HV where
  | none
  | bool (b : Bool)
  | int (i : Int)
  | str (s : String)
  | elem (s : String)
  | tok (type : String) (value : String)
  | list (l : List HV)
  | tup2 (a b : HV)
  | dict (d : List (String × HV))
  | ref (a : Nat)
  deriving Inhabited, Repr

/-- the memory: the contents of the objects made so far -/
abbrev Heap := List HV

mutual
/-- Evaluate a display: every dictionary and list in it becomes a new object, inner ones first. -/
def HV.alloc : HV → Heap → HV × Heap
  | .list l, h => let (l, h) := HV.allocL l h; (.ref h.length, h ++ [.list l])
  | .dict d, h => let (d, h) := HV.allocI d h; (.ref h.length, h ++ [.dict d])
  | .tup2 a b, h =>
    let (a, h) := a.alloc h
    let (b, h) := b.alloc h
    (.tup2 a b, h)
  | v, h => (v, h)
/-- evaluate the members of a list display -/
def HV.allocL : List HV → Heap → List HV × Heap
  | [], h => ([], h)
  | v :: l, h =>
    let (v, h) := v.alloc h
    let (l, h) := HV.allocL l h
    (v :: l, h)
/-- evaluate the items of a dictionary display -/
def HV.allocI : List (String × HV) → Heap → List (String × HV) × Heap
  | [], h => ([], h)
  | (k, v) :: d, h =>
    let (v, h) := v.alloc h
    let (d, h) := HV.allocI d h
    ((k, v) :: d, h)
end

/-- the contents of a reference -/
def HV.obj (h : Heap) : HV → HV
  | .ref a => (h[a]?).getD .none
  | v => v

/-- What a value looks like, as a plain value: all references followed, down to the depth `n`. -/
def HV.see (h : Heap) : Nat → HV → Val
  | 0, _ => .none
  | _ + 1, .none => .none
  | _ + 1, .bool b => .bool b
  | _ + 1, .int i => .int i
  | _ + 1, .str s => .str s
  | _ + 1, .elem s => .elem s
  | _ + 1, .tok t s => .tok t s
  | n + 1, .list l => .list (l.map (HV.see h n))
  | n + 1, .tup2 a b => .tup2 (HV.see h n a) (HV.see h n b)
  | n + 1, .dict d => .dict (d.map (fun p => (p.1, HV.see h n p.2)))
  | n + 1, .ref a => match h[a]? with
    | some o => HV.see h n o
    | .none => .none

mutual
/-- size of a value, not following references -/
def HV.size : HV → Nat
  | .list l => 1 + HV.sizeL l
  | .tup2 a b => 1 + a.size + b.size
  | .dict d => 1 + HV.sizeI d
  | _ => 1
/-- size of the members of a list -/
def HV.sizeL : List HV → Nat
  | [] => 0
  | v :: l => v.size + HV.sizeL l
/-- size of the items of a dictionary -/
def HV.sizeI : List (String × HV) → Nat
  | [] => 0
  | (_, v) :: d => v.size + HV.sizeI d
end

/-- the size of a memory, an upper bound for the depth of every value without cycles -/
def Heap.size (h : Heap) : Nat := (h.map (fun o => o.size + 1)).sum

/-- What a value looks like: operations that only look at a value (`str`, `bool`, `int`, `==`) are
those of `Py.lean` on what it looks like. -/
def HV.read (h : Heap) (v : HV) : Val := v.see h (v.size + h.size)

/-- `bool(v)` -/
def HV.truthy (h : Heap) (v : HV) : Bool := (v.read h).truthy

/-- `str(v)` -/
def HV.pyStr (h : Heap) (v : HV) : String := (v.read h).pyStr

/-- `v == s` -/
def HV.eqStr (h : Heap) (v : HV) (s : String) : Bool := (v.read h).eqStr s

/-! ### Dictionaries: as in `Py.lean`, for values with references -/

/-- `d.get(k)` / `k in d`, as an option. -/
def hGet (k : String) : List (String × HV) → Option HV
  | [] => .none
  | (k', v) :: d => if k' = k then some v else hGet k d

/-- `d[k] = v` -/
def hSet (k : String) (v : HV) : List (String × HV) → List (String × HV)
  | [] => [(k, v)]
  | (k', v') :: d => if k' = k then (k, v) :: d else (k', v') :: hSet k v d

/-- `d.pop(k)`: the dictionary without `k`. -/
def hErase (k : String) : List (String × HV) → List (String × HV)
  | [] => []
  | (k', v') :: d => if k' = k then d else (k', v') :: hErase k d

/-- A dict display / `dict(pairs)` / dict comprehension: assignments from left to right. -/
def hDict (ps : List (String × HV)) : List (String × HV) :=
  ps.foldl (fun d p => hSet p.1 p.2 d) []

/-- `{f"{pre}{idx + start}": x for idx, x in enumerate(xs)}` as the list of its items. -/
def hEnum (pre : String) (start : Nat) : List HV → List (String × HV)
  | [] => []
  | x :: xs => (pre ++ toString start, x) :: hEnum pre (start + 1) xs

/-- `v[k]` where `v` is expected to be a dict and `k` is a string. -/
def HV.item (h : Heap) (v : HV) (k : String) : Except PyErr HV :=
  match v.obj h with
  | .dict d => match hGet k d with
    | some x => .ok x
    | .none => .error .keyError
  | _ => .error .typeError

/-- `v.get(k, {})` -/
def HV.getOrEmpty (h : Heap) (v : HV) (k : String) : Except PyErr HV :=
  match v.obj h with
  | .dict d => .ok ((hGet k d).getD (.dict []))
  | _ => .error .attributeError

/-- `v.get(k)` -/
def HV.get (h : Heap) (v : HV) (k : String) : Except PyErr HV :=
  match v.obj h with
  | .dict d => .ok ((hGet k d).getD .none)
  | _ => .error .attributeError

/-- `l[i]` -/
def hIdx (l : List HV) (i : Nat) : Except PyErr HV :=
  match l[i]? with
  | some v => .ok v
  | .none => .error .indexError

/-- `int(v)`: a new number -/
def HV.pyInt (h : Heap) (v : HV) : Except PyErr HV :=
  match Pycep.pyInt (v.read h) with
  | .ok (.int i) => .ok (.int i)
  | .ok _ => .error .typeError
  | .error e => .error e

/-- `v * -1`: a new value -/
def HV.mulNegOne (h : Heap) (v : HV) : Except PyErr HV :=
  match v.obj h with
  | .int i => .ok (.int (-i))
  | .bool b => .ok (.int (if b then -1 else 0))
  | .str _ => .ok (.str "")
  | .elem _ => .ok (.str "")
  | .tok _ _ => .ok (.str "")
  | .list _ => .ok (.list [])
  | _ => .error .typeError

mutual
/-- A plain value as a display: to store the outcome of a function that makes new objects only. -/
def Val.display : Val → HV
  | .none => .none
  | .bool b => .bool b
  | .int i => .int i
  | .str s => .str s
  | .elem s => .elem s
  | .tok t s => .tok t s
  | .list l => .list (Val.displayL l)
  | .tup2 a b => .tup2 a.display b.display
  | .dict d => .dict (Val.displayI d)
/-- members of a list -/
def Val.displayL : List Val → List HV
  | [] => []
  | v :: l => v.display :: Val.displayL l
/-- items of a dictionary -/
def Val.displayI : List (String × Val) → List (String × HV)
  | [] => []
  | (k, v) :: d => (k, v.display) :: Val.displayI d
end

end Pycep
