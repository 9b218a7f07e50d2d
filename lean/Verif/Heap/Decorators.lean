import Verif.Heap.Basic
/-
`/repo/pycep/rules/decorators.py` once more, on values with identity: the same branches as in
`Decorators.lean`.
-/
namespace Pycep.HDecorators
open Pycep

/-- Type of the entries of `DECORATORS` (decorators.py:121). -/
abbrev DecoDef := Heap → String → List HV → Except PyErr HV

/-- `{"type": t, "argument": a}`. -/
def ddata (t : String) (a : HV) : HV := .dict [("type", .str t), ("argument", a)]

/-- `deco_allowed` (decorators.py:19-23). -/
def deco_allowed : DecoDef := fun _ _ args =>
  match args with
  | a :: _ => .ok (ddata "allowed" a)
  | [] => .error .indexError

/-- `deco_batch` (decorators.py:26-30). -/
def deco_batch : DecoDef := fun _ _ args =>
  match args with
  | a :: _ => .ok (ddata "batchSize" a)
  | [] => .error .indexError

/-- `deco_description` (decorators.py:33-37). -/
def deco_description : DecoDef := fun _ _ args =>
  match args with
  | a :: _ => .ok (ddata "description" a)
  | [] => .error .indexError

/-- `deco_export` (decorators.py:40-43). -/
def deco_export : DecoDef := fun _ _ _ => .ok (.dict [("type", .str "export")])

/-- `deco_min_len` (decorators.py:46-50). -/
def deco_min_len : DecoDef := fun _ _ args =>
  match args with
  | a :: _ => .ok (ddata "min_length" a)
  | [] => .error .indexError

/-- `deco_max_len` (decorators.py:53-57). -/
def deco_max_len : DecoDef := fun _ _ args =>
  match args with
  | a :: _ => .ok (ddata "max_length" a)
  | [] => .error .indexError

/-- The argument rewriting of `deco_min_val` (decorators.py:61-63):
`{"operator": {"type": "minus", "operands": {"integer_value": n}}}` becomes `n * -1`. -/
def minValArg (h : Heap) (arg : HV) : Except PyErr HV :=
  match arg.obj h with
  | .dict _ => do
    let operator ← arg.getOrEmpty h "operator"
    let t ← operator.get h "type"
    if t.eqStr h "minus" then
      let operands ← operator.item h "operands"
      let n ← operands.item h "integer_value"
      n.mulNegOne h
    else pure arg
  | _ => .ok arg

/-- `deco_min_val` (decorators.py:60-68). -/
def deco_min_val : DecoDef := fun h _ args =>
  match args with
  | a :: _ => (minValArg h a).map (ddata "min_value")
  | [] => .error .indexError

/-- `deco_max_val` (decorators.py:71-75). -/
def deco_max_val : DecoDef := fun h _ args =>
  match args with
  | a :: _ => (a.pyInt h).map (ddata "max_value")
  | [] => .error .indexError

/-- `deco_metadata` (decorators.py:78-82). -/
def deco_metadata : DecoDef := fun _ _ args =>
  match args with
  | a :: _ => .ok (ddata "metadata" a)
  | [] => .error .indexError

/-- `deco_sealed` (decorators.py:85-88). -/
def deco_sealed : DecoDef := fun _ _ _ => .ok (.dict [("type", .str "sealed")])

/-- `deco_secure` (decorators.py:91-94). -/
def deco_secure : DecoDef := fun _ _ _ => .ok (.dict [("type", .str "secure")])

/-- `unknown_deco` (decorators.py:104-112). -/
def unknown_deco : DecoDef := fun _ name args =>
  match args with
  | a :: _ => .ok (ddata name a)
  | [] => .ok (.dict [("type", .str name)])

/-- `DECORATORS` (decorators.py:121-144). -/
def DECORATORS : List (String × DecoDef) := [
  ("allowed", deco_allowed),
  ("sys.allowed", deco_allowed),
  ("batchSize", deco_batch),
  ("sys.batchSize", deco_batch),
  ("description", deco_description),
  ("sys.description", deco_description),
  ("export", deco_export),
  ("sys.export", deco_export),
  ("minLength", deco_min_len),
  ("sys.minLength", deco_min_len),
  ("maxLength", deco_max_len),
  ("sys.maxLength", deco_max_len),
  ("minValue", deco_min_val),
  ("sys.minValue", deco_min_val),
  ("maxValue", deco_max_val),
  ("sys.maxValue", deco_max_val),
  ("metadata", deco_metadata),
  ("sys.metadata", deco_metadata),
  ("sealed", deco_sealed),
  ("sys.sealed", deco_sealed),
  ("secure", deco_secure),
  ("sys.secure", deco_secure)]

/-- `DECORATORS.get(name, UNKNOWN_DECORATOR)` (transformer.py:602, decorators.py:147). -/
def getDecorator (name : String) : DecoDef :=
  match DECORATORS.lookup name with
  | some f => f
  | .none => unknown_deco

end Pycep.HDecorators
