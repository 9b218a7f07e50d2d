import Verif.Spec.Sem
/-
The types that `pycep/typing.py` publishes for the result of `parse`, down to the attributes of the
entries. The types of expressions (`PossibleValue` and `Any`) are not looked into; that they are
plain data is the subject of `Spec/Json.lean`.
-/
namespace Pycep

/-- The forms of types used there. -/
inductive Ty where
  /-- `Any`, `PossibleValue`, `PossibleNoneValue` -/
  | any
  | str
  | int
  | bool
  /-- `Literal[...]` -/
  | lit (words : List String)
  /-- `list[...]` -/
  | list (t : Ty)
  /-- `dict[str, ...]` -/
  | dict (t : Ty)
  /-- a `TypedDict`: key, whether it is required, type of its value -/
  | record (fields : List (String × Bool × Ty))
  /-- `A | B | ...` -/
  | oneOf (ts : List Ty)
  /-- `DataType` (typing.py:10, 46-53), the only recursive one -/
  | dataType

/-- A value has a type. A `TypedDict` has all its required keys and no others than those listed. -/
inductive HasTy : Ty → Val → Prop where
  | any {v} : HasTy .any v
  | str {s} : HasTy .str (.str s)
  | elem {s} : HasTy .str (.elem s)
  | int {i} : HasTy .int (.int i)
  | bool {b} : HasTy .bool (.bool b)
  | lit {w ws} : w ∈ ws → HasTy (.lit ws) (.str w)
  | list {t l} : (∀ v ∈ l, HasTy t v) → HasTy (.list t) (.list l)
  | dict {t d} : (d.map Prod.fst).Nodup → (∀ p ∈ d, HasTy t p.2) → HasTy (.dict t) (.dict d)
  | record {fs d} (ty : String × Val → Ty) : (d.map Prod.fst).Nodup →
      (∀ f ∈ fs, f.2.1 = true → f.1 ∈ d.map Prod.fst) →
      (∀ p ∈ d, ∃ required, (p.1, required, ty p) ∈ fs) → (∀ p ∈ d, HasTy (ty p) p.2) →
      HasTy (.record fs) (.dict d)
  | oneOf {t ts v} : t ∈ ts → HasTy t v → HasTy (.oneOf ts) v
  | named {s} : HasTy .dataType (.str s)
  | array {v} : HasTy .dataType v → HasTy .dataType (.dict [("type", .str "array"), ("item_type", v)])
  | union {vs} : (∀ v ∈ vs, HasTy .dataType v) →
      HasTy .dataType (.dict [("type", .str "union"), ("members", .list vs)])

/-- the two keys that are present if line numbers are asked for -/
def lineFields : List (String × Bool × Ty) := [("__start_line__", false, .int), ("__end_line__", false, .int)]

/-- `ScopeAttributes` (typing.py:71-74) -/
def scopeTy : Ty :=
  .record ([("value", true, .lit ["resourceGroup", "subscription", "managementGroup", "tenant"])] ++ lineFields)

/-- `ImportAttributes` (typing.py:86-90) -/
def importTy : Ty := .record ([("alias", false, .str), ("file_path", false, .str)] ++ lineFields)

/-- `MetadataAttributes` (typing.py:107-110) -/
def metadataTy : Ty := .record ([("value", true, .str)] ++ lineFields)

/-- `ExtensionAttributes` (typing.py:122-126) -/
def extensionTy : Ty := .record ([("alias", false, .str), ("config", false, .dict .any)] ++ lineFields)

/-- `Decorator` (typing.py:16, 404-453): the type, and an argument for most of them -/
def decoratorTy : Ty := .record [("type", true, .str), ("argument", false, .any)]

/-- `ParameterAttributes` (typing.py:138-143) -/
def parameterTy : Ty :=
  .record ([("decorators", true, .list decoratorTy), ("type", true, .dataType), ("default", true, .any)] ++ lineFields)

/-- `VariableAttributes`, `TypeAttributes` (typing.py:155-160, 231) -/
def variableTy : Ty :=
  .record ([("decorators", true, .list decoratorTy), ("type", false, .dataType), ("value", true, .any)] ++ lineFields)

/-- `OutputAttributes` (typing.py:172-177) -/
def outputTy : Ty :=
  .record ([("decorators", true, .list decoratorTy), ("type", true, .dataType), ("value", true, .any)] ++ lineFields)

/-- `ResourceAttributes` (typing.py:189-196) -/
def resourceTy : Ty :=
  .record ([("decorators", true, .list decoratorTy), ("type", true, .str), ("api_version", true, .str),
    ("existing", true, .bool), ("config", true, .dict .any)] ++ lineFields)

/-- `ModuleDetail` (typing.py:13, 268-322) -/
def detailTy : Ty :=
  .oneOf [
    .record [("full", true, .str), ("path", true, .str)],
    .record [("full", true, .str), ("registry_name", true, .str), ("path", true, .str), ("tag", true, .str),
      ("public", true, .bool)],
    .record [("full", true, .str), ("alias", true, .str), ("path", true, .str), ("tag", true, .str),
      ("public", true, .bool)],
    .record [("full", true, .str), ("subscription_id", true, .str), ("resource_group_id", true, .str),
      ("name", true, .str), ("version", true, .str)],
    .record [("full", true, .str), ("alias", true, .str), ("path", true, .str), ("tag", true, .str)]]

/-- `ModuleAttributes` (typing.py:208-214) -/
def moduleTy : Ty :=
  .record ([("decorators", true, .list decoratorTy),
    ("type", true, .lit ["local", "bicep_registry", "bicep_registry_alias", "template_spec", "template_spec_alias"]),
    ("detail", true, detailTy), ("config", true, .dict .any)] ++ lineFields)

/-- `FunctionAttributes` (typing.py:243-249) -/
def functionTy : Ty :=
  .record ([("decorators", true, .list decoratorTy), ("args", true, .dict .dataType), ("type", true, .dataType),
    ("expression", true, .any)] ++ lineFields)

/-- `GlobalsAttributes` (typing.py:63-64) -/
def globalsTy : Ty := .record [("scope", true, scopeTy)]

/-- the sections of `BicepJson` (typing.py:1382-1392) -/
def bicepJsonSections : List (String × Bool × Ty) :=
  [("globals", true, globalsTy), ("imports", false, .dict importTy), ("extensions", false, .dict extensionTy),
   ("types", false, .dict variableTy), ("functions", false, .dict functionTy),
   ("parameters", false, .dict parameterTy), ("variables", false, .dict variableTy),
   ("resources", false, .dict resourceTy), ("modules", false, .dict moduleTy), ("outputs", false, .dict outputTy)]

/-- `BicepJson` -/
def bicepJsonTy : Ty := .record bicepJsonSections

/-- `BicepJson` with the section that it lacks -/
def resultTy : Ty := .record (bicepJsonSections ++ [("metadata", false, .dict metadataTy)])

end Pycep
