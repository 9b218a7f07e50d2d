import Verif.Tree
import Verif.ModulePath
import Verif.Functions
import Verif.Decorators
/-
Model of `BicepToJson` (transformer.py) and of `lark.Transformer.transform`.
One definition per method; `args` is the list of already transformed children.
Python methods that store into `self.imports` / `self.child_resources` take and return a `TState`.
-/
namespace Pycep

/-- Shorthand for a dict with distinct keys. -/
abbrev D (ps : List (String × Val)) : Val := .dict ps

/-- `self.imports`, `self.child_resources` (transformer.py:36-37). -/
structure TState where
  imports : List Val
  children : List Val
  deriving Inhabited, Repr

/-- `{"__start_line__": meta.line, "__end_line__": meta.end_line}` added to `attrs` when line
numbers are requested (the `if self.add_line_numbers:` blocks).  Reading `meta.line` of an empty
`Meta` raises AttributeError. -/
def addLines (ln : Bool) (sp : Option Span) (attrs : List (String × Val)) :
    Except PyErr (List (String × Val)) :=
  if ln then
    match sp with
    | some s => .ok (dSet "__end_line__" (.int s.endLine) (dSet "__start_line__" (.int s.line) attrs))
    | .none => .error .attributeError
  else .ok attrs

/-- `decorators or []`. -/
def orEmptyList (v : Val) : Val := if v.truthy then v else .list []

/-- `{kind: {"__name__": name, "__attrs__": attrs}}`. -/
def elementOf (kind : String) (name : String) (attrs : List (String × Val)) : Val :=
  D [(kind, D [("__name__", .str name), ("__attrs__", .dict attrs)])]

/-- `transform_string_token` and `sanitize_multi_line_string_token` (utils.py:11-27).
`.type` of anything but a token raises AttributeError. -/
def sanitizeMultiLine (s : String) : String := removePrefix "\n" (sliceBoth 3 s)

/-- `transform_string_token` (utils.py:11-22). -/
def transformStringToken : Val → Except PyErr Val
  | .tok "MULTI_LINE_STRING" s => .ok (.str (sanitizeMultiLine s))
  | .tok "QUOTED_STRING" s => .ok (.str (sliceBoth 1 s))
  | .tok "QUOTED_INTERPOLATION" s => .ok (.str (sliceBoth 1 s))
  | .tok _ s => .ok (.elem s)
  | _ => .error .attributeError

/-! ### start -/

/-- One `result.setdefault(key, {})[value["__name__"]] = value["__attrs__"]` (transformer.py:66).
Names are always strings here; anything else is reported as a TypeError. -/
def startStep (result : List (String × Val)) (key : String) (value : Val) :
    Except PyErr (List (String × Val)) := do
  let attrs ← value.item "__attrs__"
  let name ← value.item "__name__"
  match (dGet key result).getD (.dict []) with
  | .dict sect =>
    match name with
    | .str n | .elem n | .tok _ n => .ok (dSet key (.dict (dSet n attrs sect)) result)
    | _ => .error .typeError
  | _ => .error .typeError

/-- `for key, value in arg.items()` (transformer.py:65). -/
def startItems (result : List (String × Val)) : List (String × Val) →
    Except PyErr (List (String × Val))
  | [] => .ok result
  | (k, v) :: rest => do startItems (← startStep result k v) rest

/-- The loop over `itertools.chain(args, self.imports, self.child_resources)`
(transformer.py:61-66). -/
def startLoop (result : List (String × Val)) : List Val → Except PyErr (List (String × Val))
  | [] => .ok result
  | arg :: rest =>
    if !arg.truthy then startLoop result rest
    else match arg with
      | .dict d => do startLoop (← startItems result d) rest
      | _ => .error .attributeError

/-- The initial `result` of `start` (transformer.py:48-59). -/
def startInit (ln : Bool) : List (String × Val) :=
  [("globals", D [("scope", .dict ([("value", .str "resourceGroup")] ++
    (if ln then [("__start_line__", .int 0), ("__end_line__", .int 0)] else [])))])]

/-- `start` (transformer.py:47-68). -/
def cb_start (ln : Bool) (args : List Val) (st : TState) : Except PyErr Val :=
  (startLoop (startInit ln) (args ++ st.imports ++ st.children)).map .dict

/-! ### elements -/

/-- `VALID_TARGET_SCOPES` (transformer.py:29) -/
def validTargetScopes : List String := ["resourceGroup", "subscription", "managementGroup", "tenant"]

/-- `scope` (transformer.py:76-96) -/
def cb_scope (ln : Bool) (sp : Option Span) (args : List Val) : Except PyErr Val := do
  let a ← idx args 0
  let value := sliceBoth 1 a.pyStr
  if !validTargetScopes.contains value then
    .error (.valueError ("target scope is invalid: " ++ value))
  else
    let attrs ← addLines ln sp [("value", .str value)]
    .ok (elementOf "globals" "scope" attrs)

/-- The loop body of `custom_import` (transformer.py:119-138). -/
def importEntry (ln : Bool) (sp : Option Span) (filePath : Val) (nameAlias : Val) :
    Except PyErr Val := do
  let name ← nameAlias.item "name"
  let fp ← transformStringToken filePath
  let alias ← nameAlias.get "alias"
  let attrs := if alias.truthy then [("file_path", fp), ("alias", .str alias.pyStr)]
    else [("file_path", fp)]
  let attrs ← addLines ln sp attrs
  .ok (elementOf "imports" name.pyStr attrs)

/-- Run a loop body over a list, stopping at the first exception. -/
def mapE (f : Val → Except PyErr Val) : List Val → Except PyErr (List Val)
  | [] => .ok []
  | x :: xs => do
    let y ← f x
    let ys ← mapE f xs
    .ok (y :: ys)

/-- `custom_import` (transformer.py:98-138).  A namespace import (one child) is stored without
line numbers. -/
def cb_custom_import (ln : Bool) (sp : Option Span) (args : List Val) (st : TState) :
    Except PyErr (Val × TState) :=
  match args with
  | [a] => do
    let name ← transformStringToken a
    .ok (.none, { st with imports := st.imports ++
      [D [("imports", D [("__name__", name), ("__attrs__", D [])])]] })
  | _ =>
    match args.reverse with
    | [] => unpackErr
    | filePath :: pairs => do
      let es ← mapE (importEntry ln sp filePath) pairs.reverse
      .ok (.none, { st with imports := st.imports ++ es })

/-- `extension` (transformer.py:140-163) -/
def cb_extension (ln : Bool) (sp : Option Span) (args : List Val) : Except PyErr Val :=
  match args with
  | [name, config, alias] => do
    let attrs := (if config.truthy then [("config", config)] else []) ++
      (if alias.truthy then [("alias", .str alias.pyStr)] else [])
    let attrs ← addLines ln sp attrs
    .ok (elementOf "extensions" name.pyStr attrs)
  | _ => unpackErr

/-- `metadata` (transformer.py:165-182) -/
def cb_metadata (ln : Bool) (sp : Option Span) (args : List Val) : Except PyErr Val :=
  match args with
  | [name, value] => do
    let attrs ← addLines ln sp [("value", value)]
    .ok (elementOf "metadata" name.pyStr attrs)
  | _ => unpackErr

/-- `param` (transformer.py:184-205) -/
def cb_param (ln : Bool) (sp : Option Span) (args : List Val) : Except PyErr Val :=
  match args with
  | [decorators, name, dataType, default] => do
    let attrs ← addLines ln sp
      [("decorators", orEmptyList decorators), ("type", dataType), ("default", default)]
    .ok (elementOf "parameters" name.pyStr attrs)
  | _ => unpackErr

/-- `var` (transformer.py:207-232) -/
def cb_var (ln : Bool) (sp : Option Span) (args : List Val) : Except PyErr Val :=
  match args with
  | [decorators, name, dataType, value] => do
    let attrs ← addLines ln sp
      ([("decorators", orEmptyList decorators), ("value", value)] ++
        (if dataType.truthy then [("type", dataType)] else []))
    .ok (elementOf "variables" name.pyStr attrs)
  | _ => unpackErr

/-- `output` (transformer.py:234-255) -/
def cb_output (ln : Bool) (sp : Option Span) (args : List Val) : Except PyErr Val :=
  match args with
  | [decorators, name, dataType, value] => do
    let attrs ← addLines ln sp
      [("decorators", orEmptyList decorators), ("type", dataType), ("value", value)]
    .ok (elementOf "outputs" name.pyStr attrs)
  | _ => unpackErr

mutual
/-- Size of a value, used as recursion measure. -/
def Val.depth : Val → Nat
  | .dict d => 1 + Val.depthItems d
  | .list l => 1 + Val.depthList l
  | .tup2 a b => 1 + a.depth + b.depth
  | _ => 1
/-- sum over dict items -/
def Val.depthItems : List (String × Val) → Nat
  | [] => 0
  | (_, v) :: d => v.depth + Val.depthItems d
/-- sum over list items -/
def Val.depthList : List Val → Nat
  | [] => 0
  | v :: l => v.depth + Val.depthList l
end

/-- One level of `process_child_resource` (transformer.py:951-972): given the popped child, the
updated child (with its new name, type, api version and dependency), and its config. -/
def adoptChild (parentName parentType parentApi : Val) (child : Val) :
    Except PyErr (Val × Val × Val × Val) := do
  let cname ← child.item "__name__"
  let newName := Val.str (parentName.pyStr ++ "__" ++ cname.pyStr)
  let child ← child.setItem "__name__" newName
  let attrs ← child.item "__attrs__"
  let ctype ← attrs.item "type"
  let newType := Val.str (parentType.pyStr ++ "/" ++ ctype.pyStr)
  let attrs ← attrs.setItem "type" newType
  let attrs ← attrs.setItem "api_version" parentApi
  let config ← attrs.item "config"
  match config with
  | .dict cfg =>
    match (dGet "depends_on" cfg).getD (.list []) with
    | .list deps =>
      let cfg := dSet "depends_on" (.list (deps ++ [.elem parentName.pyStr])) cfg
      .ok (child, attrs, newName, .dict cfg)
    | _ => .error .attributeError
  | _ => .error .attributeError

/-- `process_child_resource` (transformer.py:943-978).  Python mutates `config` and the popped
child in place; here the updated `config` is returned together with the extracted children, in the
order in which they are appended to `self.child_resources`.  Since a child's config is emptied of
its own nested child after the child was appended (the same object), the stored child carries the
config *after* the recursive call.  The fuel bounds the nesting depth. -/
def processChild : Nat → Val → Val → Val → List (String × Val) →
    Except PyErr (List (String × Val) × List Val)
  | 0, _, _, _, config => .ok (config, [])
  | n + 1, parentName, parentType, parentApi, config =>
    match dGet "__child_resource__" config with
    | .none => .ok (config, [])
    | some child => do
      let (child, attrs, newName, cfg) ← adoptChild parentName parentType parentApi child
      match cfg with
      | .dict cfg =>
        let ctype ← attrs.item "type"
        let (cfg', more) ← processChild n newName ctype parentApi cfg
        let attrs ← attrs.setItem "config" (.dict cfg')
        let child ← child.setItem "__attrs__" attrs
        .ok (dErase "__child_resource__" config, D [("resources", child)] :: more)
      | _ => .error .attributeError

/-- `resource` (transformer.py:257-287) -/
def cb_resource (ln : Bool) (sp : Option Span) (args : List Val) (st : TState) :
    Except PyErr (Val × TState) :=
  match args with
  | [decorators, name, typeApi, existing, config] => do
    let nameStr := name.pyStr
    match config with
    | .dict cfg =>
      let ptype ← match dGet "__child_resource__" cfg with
        | .none => .ok Val.none
        | some _ => typeApi.item "type"
      let papi ← match dGet "__child_resource__" cfg with
        | .none => .ok Val.none
        | some _ => typeApi.item "api_version"
      let (cfg', more) ← processChild (config.depth + 1) (.str nameStr) ptype papi cfg
      let t ← typeApi.item "type"
      let v ← typeApi.item "api_version"
      let attrs ← addLines ln sp
        [("decorators", orEmptyList decorators), ("type", t), ("api_version", v),
         ("existing", .bool existing.truthy), ("config", .dict cfg')]
      .ok (elementOf "resources" nameStr attrs, { st with children := st.children ++ more })
    | _ => .error .typeError
  | _ => unpackErr

/-- `child_resource` (transformer.py:289-311) -/
def cb_child_resource (ln : Bool) (sp : Option Span) (args : List Val) : Except PyErr Val :=
  match args with
  | [name, typeName, existing, config] => do
    let attrs ← addLines ln (sp.map (fun s => { s with endLine := s.endLine - 1 }))
      [("decorators", .list []), ("type", .str (sliceBoth 1 typeName.pyStr)),
       ("api_version", .str ""), ("existing", .bool existing.truthy), ("config", config)]
    .ok (.tup2 (.str "__child_resource__")
      (D [("__name__", .str name.pyStr), ("__attrs__", .dict attrs)]))
  | _ => unpackErr

/-- `module` (transformer.py:313-335) -/
def cb_module (ln : Bool) (sp : Option Span) (args : List Val) : Except PyErr Val :=
  match args with
  | [decorators, name, path, config] => do
    let t ← path.item "type"
    let d ← path.item "detail"
    let attrs ← addLines ln sp
      [("decorators", orEmptyList decorators), ("type", t), ("detail", d), ("config", config)]
    .ok (elementOf "modules" name.pyStr attrs)
  | _ => unpackErr

/-- `custom_type` (transformer.py:337-357) -/
def cb_custom_type (ln : Bool) (sp : Option Span) (args : List Val) : Except PyErr Val :=
  match args with
  | [decorators, name, value] => do
    let attrs ← addLines ln sp [("decorators", orEmptyList decorators), ("value", value)]
    .ok (elementOf "types" name.pyStr attrs)
  | _ => unpackErr

/-- `zip(*[iter(arg_type_pairs)] * 2, strict=True)` (transformer.py:379): consecutive pairs,
ValueError for an odd number of items. -/
def argPairs : List Val → Except PyErr (List (String × Val))
  | [] => .ok []
  | [_] => unpackErr
  | n :: t :: rest => do
    let ps ← argPairs rest
    .ok ((n.pyStr, t) :: ps)

/-- `custom_func` (transformer.py:359-391) -/
def cb_custom_func (ln : Bool) (sp : Option Span) (args : List Val) : Except PyErr Val :=
  match args with
  | decorators :: name :: rest =>
    match rest.reverse with
    | expression :: returnType :: pairsRev => do
      let ps ← argPairs pairsRev.reverse
      let attrs ← addLines ln sp
        [("decorators", orEmptyList decorators), ("args", .dict (mkDict ps)),
         ("type", returnType), ("expression", expression)]
      .ok (elementOf "functions" name.pyStr attrs)
    | _ => unpackErr
  | _ => unpackErr

/-! ### element type extras -/

/-- `array_suffix` (transformer.py:399-400) -/
def cb_array_suffix (_ : List Val) : Except PyErr Val := .ok .none

/-- `base_type` (transformer.py:402-404) -/
def cb_base_type (args : List Val) : Except PyErr Val := do
  match ← idx args 0 with
  | .tok _ s => .ok (.str s)
  | v => .ok v

/-- `union_type` (transformer.py:406-407) -/
def cb_union_type (args : List Val) : Except PyErr Val :=
  .ok (D [("type", .str "union"), ("members", .list args)])

/-- the loop of `data_type` (transformer.py:412-413) -/
def wrapArray : List Val → Val → Val
  | [], t => t
  | _ :: s, t => wrapArray s (D [("type", .str "array"), ("item_type", t)])

/-- `data_type` (transformer.py:409-414) -/
def cb_data_type (args : List Val) : Except PyErr Val :=
  match args with
  | base :: suffixes => .ok (wrapArray suffixes base)
  | [] => unpackErr

/-- `type_api_pair` (transformer.py:416-421) -/
def cb_type_api_pair (args : List Val) : Except PyErr Val := do
  let a ← idx args 0
  match splitOn '@' (sliceBoth 1 a.pyStr) with
  | [t, v] => .ok (D [("type", .str t), ("api_version", .str v)])
  | _ => unpackErr

/-- `module_path` (transformer.py:423-514) -/
def cb_module_path (args : List Val) : Except PyErr Val := do
  let a ← idx args 0
  classifyModulePath (sliceBoth 1 a.pyStr)

/-- `import_alias` (transformer.py:516-524) -/
def cb_import_alias (args : List Val) : Except PyErr Val :=
  match args with
  | [name, alias] =>
    .ok (.dict ([("name", .str name.pyStr)] ++
      (if alias.truthy then [("alias", .str alias.pyStr)] else [])))
  | _ => unpackErr

/-- `type_value` (transformer.py:526-528) -/
def cb_type_value (args : List Val) : Except PyErr Val :=
  .ok (.str (" | ".intercalate (args.map Val.pyStr)))

/-! ### loops and conditions -/

/-- The condition rewriting of `loop` (transformer.py:539-540). -/
def loopCondition (condition : Val) : Except PyErr Val :=
  match condition with
  | .dict _ => do
    let func ← condition.getOrEmpty "function"
    let t ← func.get "type"
    if t.eqStr "if" then
      let ps ← func.item "parameters"
      ps.item "arg_1"
    else .ok condition
  | _ => .ok condition

/-- `loop` (transformer.py:536-546) -/
def cb_loop (args : List Val) : Except PyErr Val :=
  match args with
  | [loopType, condition, config] => do
    let condition ← loopCondition condition
    .ok (D [("loop_type", loopType), ("condition", condition), ("config", config)])
  | _ => unpackErr

/-- `loop_array` (transformer.py:548-556) -/
def cb_loop_array (args : List Val) : Except PyErr Val :=
  match args with
  | [item, arr] => .ok (D [("type", .str "array"), ("detail", D [
      ("item_name", .str item.pyStr), ("array_name", arr)])])
  | _ => unpackErr

/-- `loop_array_index` (transformer.py:558-567) -/
def cb_loop_array_index (args : List Val) : Except PyErr Val :=
  match args with
  | [item, i, arr] => .ok (D [("type", .str "array_index"), ("detail", D [
      ("item_name", .str item.pyStr), ("index_name", .str i.pyStr), ("array_name", arr)])])
  | _ => unpackErr

/-- `loop_object` (transformer.py:569-577) -/
def cb_loop_object (args : List Val) : Except PyErr Val :=
  match args with
  | [item, obj] => .ok (D [("type", .str "object"), ("detail", D [
      ("item_name", .str item.pyStr), ("object_name", .str obj.pyStr)])])
  | _ => unpackErr

/-- `deploy_condition` (transformer.py:585-590) -/
def cb_deploy_condition (args : List Val) : Except PyErr Val :=
  match args with
  | [condition, config] => .ok (D [("condition", condition), ("config", config)])
  | _ => unpackErr

/-! ### decorators and functions -/

/-- `decorator` (transformer.py:598-603) -/
def cb_decorator (args : List Val) : Except PyErr Val :=
  match args with
  | name :: params => Decorators.getDecorator name.pyStr name.pyStr params
  | [] => unpackErr

/-- `decorators` (transformer.py:605-606) -/
def cb_decorators (args : List Val) : Except PyErr Val := .ok (.list args)

/-- `function` (transformer.py:614-621) -/
def cb_function (args : List Val) : Except PyErr Val :=
  match args with
  | name :: params => do
    let fname := removeSuffix "(" name.pyStr
    let data ← Functions.getFunction fname fname params
    .ok (D [("function", data)])
  | [] => unpackErr

/-! ### operators -/

/-- `operator` (transformer.py:629-630) -/
def cb_operator (args : List Val) : Except PyErr Val := do
  let a ← idx args 0
  .ok (D [("operator", a)])

/-- The binary operators, all of the same form: `greater_than_or_equals` ... `not_equals_case_insens`
(transformer.py:632-718), `add`, `divide`, `modulo`, `multiply`, `substract`
(transformer.py:790-851), `index_accessor`, `nested_resource_accessor`, `property_accessor`
(transformer.py:859-863, 876-886). -/
def cb_binary (type : String) (args : List Val) : Except PyErr Val :=
  match args with
  | [a, b] => .ok (D [("type", .str type), ("operands", D [("operand_1", a), ("operand_2", b)])])
  | _ => unpackErr

/-- `and_op`, `or_op`, `coalesce` (transformer.py:726-748, 758-768) -/
def cb_variadic (type : String) (args : List Val) : Except PyErr Val :=
  match args with
  | a :: b :: rest => .ok (D [("type", .str type), ("operands",
      .dict (mkDict (("operand_1", a) :: ("operand_2", b) :: enumKeys "operand_" 3 rest)))])
  | _ => unpackErr

/-- `not_op` (transformer.py:750-756) -/
def cb_not_op (args : List Val) : Except PyErr Val := do
  let a ← idx args 0
  .ok (D [("type", .str "not"), ("operands", D [("bool_value", a)])])

/-- `minus` (transformer.py:812-818) -/
def cb_minus (args : List Val) : Except PyErr Val := do
  let a ← idx args 0
  .ok (D [("type", .str "minus"), ("operands", D [("integer_value", a)])])

/-- `conditional` (transformer.py:770-782) -/
def cb_conditional (args : List Val) : Except PyErr Val :=
  match args with
  | [c, t, f] => .ok (D [("type", .str "conditional"), ("operands", D [
      ("condition", c), ("true_value", t), ("false_value", f)])])
  | _ => unpackErr

/-- `function_accessor` (transformer.py:865-874): falsy extra arguments are left out, the numbering
counts them. -/
def cb_function_accessor (args : List Val) : Except PyErr Val :=
  match args with
  | a :: fname :: rest => .ok (D [("type", .str "function_accessor"), ("operands",
      .dict (mkDict (("operand_1", a) :: ("func_name", .str fname.pyStr) ::
        (enumKeys "operand_" 2 rest).filter (fun p => p.2.truthy))))])
  | _ => unpackErr

/-! ### data types -/

/-- `item.value if isinstance(item, Token) else item` (transformer.py:895, 902) -/
def tokValue : Val → Val
  | .tok _ s => .str s
  | v => v

/-- `array` (transformer.py:894-895) -/
def cb_array (args : List Val) : Except PyErr Val := .ok (.list (args.map tokValue))

/-- the argument of `dict(args)` in `object` (transformer.py:898): a sequence of pairs with string
keys; anything else is a TypeError. -/
def dictPairs : List Val → Except PyErr (List (String × Val))
  | [] => .ok []
  | .tup2 (.str k) v :: rest => do
    let ps ← dictPairs rest
    .ok ((k, v) :: ps)
  | _ :: _ => .error .typeError

/-- `object` (transformer.py:897-898) -/
def cb_object (args : List Val) : Except PyErr Val := do
  let ps ← dictPairs args
  .ok (.dict (mkDict ps))

/-- `pair` (transformer.py:900-902) -/
def cb_pair (args : List Val) : Except PyErr Val :=
  match args with
  | [key, value] => .ok (.tup2 key (tokValue value))
  | _ => unpackErr

/-- `key` (transformer.py:904-905) -/
def cb_key (args : List Val) : Except PyErr Val := do
  let a ← idx args 0
  .ok (.str a.pyStr)

/-- `int_type` (transformer.py:907-908) -/
def cb_int_type (args : List Val) : Except PyErr Val := do
  let a ← idx args 0
  pyInt a

/-- `string` (transformer.py:910-911) -/
def cb_string (args : List Val) : Except PyErr Val := do
  let a ← idx args 0
  transformStringToken a

/-- `multi_line_string` (transformer.py:913-914) -/
def cb_multi_line_string (args : List Val) : Except PyErr Val := do
  let a ← idx args 0
  .ok (.str (sanitizeMultiLine a.pyStr))

/-- `true`, `false`, `null` (transformer.py:916-923) -/
def cb_const (v : Val) (_ : List Val) : Except PyErr Val := .ok v

/-- `lambda_expression` (transformer.py:925-935) -/
def cb_lambda_expression (args : List Val) : Except PyErr Val :=
  match args with
  | a :: rest =>
    match rest.reverse with
    | expr :: xs => .ok (D [("type", .str "lambda_expression"), ("detail",
        .dict (mkDict (("var_1", .str a.pyStr) ::
          (enumKeys "var_" 2 (xs.reverse.map (fun v => .str v.pyStr)) ++ [("expression", expr)]))))])
    | [] => unpackErr
  | [] => unpackErr

/-! ### dispatch -/

/-- A method of `BicepToJson`. -/
abbrev Callback := Bool → Option Span → List Val → TState → Except PyErr (Val × TState)

/-- A method that uses neither `meta` nor the state. -/
def plain (f : List Val → Except PyErr Val) : Callback :=
  fun _ _ args st => (f args).map (·, st)

/-- A method decorated with `@v_args(meta=True)` that leaves the state alone. -/
def withMeta (f : Bool → Option Span → List Val → Except PyErr Val) : Callback :=
  fun ln sp args st => (f ln sp args).map (·, st)

/-- The methods by rule name (`getattr(self, tree.data)`). -/
def callbacks : List (String × Callback) := [
  ("start", fun ln _ args st => (cb_start ln args st).map (·, st)),
  ("scope", withMeta cb_scope),
  ("custom_import", cb_custom_import),
  ("extension", withMeta cb_extension),
  ("metadata", withMeta cb_metadata),
  ("param", withMeta cb_param),
  ("var", withMeta cb_var),
  ("output", withMeta cb_output),
  ("resource", cb_resource),
  ("child_resource", withMeta cb_child_resource),
  ("module", withMeta cb_module),
  ("custom_type", withMeta cb_custom_type),
  ("custom_func", withMeta cb_custom_func),
  ("array_suffix", plain cb_array_suffix),
  ("base_type", plain cb_base_type),
  ("union_type", plain cb_union_type),
  ("data_type", plain cb_data_type),
  ("type_api_pair", plain cb_type_api_pair),
  ("module_path", plain cb_module_path),
  ("import_alias", plain cb_import_alias),
  ("type_value", plain cb_type_value),
  ("loop", plain cb_loop),
  ("loop_array", plain cb_loop_array),
  ("loop_array_index", plain cb_loop_array_index),
  ("loop_object", plain cb_loop_object),
  ("deploy_condition", plain cb_deploy_condition),
  ("decorator", plain cb_decorator),
  ("decorators", plain cb_decorators),
  ("function", plain cb_function),
  ("operator", plain cb_operator),
  ("greater_than_or_equals", plain (cb_binary "greater_than_or_equals")),
  ("greater_than", plain (cb_binary "greater_than")),
  ("less_than_or_equals", plain (cb_binary "less_than_or_equals")),
  ("less_than", plain (cb_binary "less_than")),
  ("equals", plain (cb_binary "equals")),
  ("not_equals", plain (cb_binary "not_equals")),
  ("equals_case_insens", plain (cb_binary "equals_case_insensitive")),
  ("not_equals_case_insens", plain (cb_binary "not_equals_case_insensitive")),
  ("and_op", plain (cb_variadic "and")),
  ("or_op", plain (cb_variadic "or")),
  ("not_op", plain cb_not_op),
  ("coalesce", plain (cb_variadic "coalesce")),
  ("conditional", plain cb_conditional),
  ("add", plain (cb_binary "add")),
  ("divide", plain (cb_binary "divide")),
  ("minus", plain cb_minus),
  ("modulo", plain (cb_binary "modulo")),
  ("multiply", plain (cb_binary "multiply")),
  ("substract", plain (cb_binary "substract")),
  ("index_accessor", plain (cb_binary "index_accessor")),
  ("function_accessor", plain cb_function_accessor),
  ("nested_resource_accessor", plain (cb_binary "nested_resource_accessor")),
  ("property_accessor", plain (cb_binary "property_accessor")),
  ("array", plain cb_array),
  ("object", plain cb_object),
  ("pair", plain cb_pair),
  ("key", plain cb_key),
  ("int_type", plain cb_int_type),
  ("string", plain cb_string),
  ("multi_line_string", plain cb_multi_line_string),
  ("true", plain (cb_const (.bool true))),
  ("false", plain (cb_const (.bool false))),
  ("null", plain (cb_const .none)),
  ("lambda_expression", plain cb_lambda_expression)]

/-- Exceptions leaving `Transformer.transform`: `VisitError` naming the rule and carrying the
original exception; `noCallback` stands for a rule without a method, for which Lark would keep a
`Tree` (`Props/ApiProps.lean` shows that it cannot happen). -/
inductive VErr where
  | visit (rule : String) (e : PyErr)
  | noCallback (rule : String)
  deriving DecidableEq, Repr

mutual
/-- `Transformer._transform_tree`: children first, from left to right, then the method of the node.
Tokens stay tokens (there are no token callbacks), placeholders stay `None`. -/
def transform (ln : Bool) : Tree → TState → Except VErr (Val × TState)
  | .tok t, st => .ok (.tok (termName t.type) (String.ofList t.text), st)
  | .none, st => .ok (.none, st)
  | .node d kids sp, st => do
    let (args, st) ← transformList ln kids st
    match callbacks.lookup d with
    | some f => match f ln sp args st with
      | .ok r => .ok r
      | .error e => .error (.visit d e)
    | .none => .error (.noCallback d)
/-- `Transformer._transform_children`. -/
def transformList (ln : Bool) : List Tree → TState → Except VErr (List Val × TState)
  | [], st => .ok ([], st)
  | t :: ts, st => do
    let (v, st) ← transform ln t st
    let (vs, st) ← transformList ln ts st
    .ok (v :: vs, st)
end

/-- `BicepToJson(add_line_numbers=ln).transform(tree)` (main.py:29): a fresh transformer. -/
def bicepToJson (ln : Bool) (t : Tree) : Except VErr Val :=
  (transform ln t ⟨[], []⟩).map Prod.fst

end Pycep
