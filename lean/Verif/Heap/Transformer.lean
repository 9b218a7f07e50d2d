import Verif.Heap.Functions
import Verif.Heap.Decorators
import Verif.Parser
/-
`BicepToJson` (transformer.py) once more, on values with identity.  One definition per method, the same
branches as in `Transformer.lean`.  Most methods only look into their arguments and return a display;
the objects of the display are made when the method returns (in Python while it is evaluated, which
makes no difference because nothing else refers to them until then).  `resource` changes objects in
place.
-/
namespace Pycep

/-- `self.imports`, `self.child_resources` (transformer.py:36-37): their members. -/
structure HState where
  imports : List HV
  children : List HV
  deriving Inhabited, Repr

/-- the `if self.add_line_numbers:` blocks, see `addLines` -/
def hAddLines (ln : Bool) (sp : Option Span) (attrs : List (String × HV)) :
    Except PyErr (List (String × HV)) :=
  if ln then
    match sp with
    | some s => .ok (hSet "__end_line__" (.int s.endLine) (hSet "__start_line__" (.int s.line) attrs))
    | .none => .error .attributeError
  else .ok attrs

/-- `decorators or []`. -/
def hOrEmptyList (h : Heap) (v : HV) : HV := if v.truthy h then v else .list []

/-- `{kind: {"__name__": name, "__attrs__": attrs}}`. -/
def hElementOf (kind : String) (name : String) (attrs : List (String × HV)) : HV :=
  .dict [(kind, .dict [("__name__", .str name), ("__attrs__", .dict attrs)])]

/-- `transform_string_token` (utils.py:11-22). -/
def hTransformStringToken : HV → Except PyErr HV
  | .tok "MULTI_LINE_STRING" s => .ok (.str (sanitizeMultiLine s))
  | .tok "QUOTED_STRING" s => .ok (.str (sliceBoth 1 s))
  | .tok "QUOTED_INTERPOLATION" s => .ok (.str (sliceBoth 1 s))
  | .tok _ s => .ok (.elem s)
  | _ => .error .attributeError

/-! ### start -/

/-- One `result.setdefault(key, {})[value["__name__"]] = value["__attrs__"]` (transformer.py:66).
Names are always strings here; anything else is reported as a TypeError. -/
def hStartStep (h : Heap) (result : List (String × HV)) (key : String) (value : HV) :
    Except PyErr (List (String × HV)) := do
  let attrs ← value.item h "__attrs__"
  let name ← value.item h "__name__"
  match (hGet key result).getD (.dict []) with
  | .dict sect =>
    match name with
    | .str n | .elem n | .tok _ n => .ok (hSet key (.dict (hSet n attrs sect)) result)
    | _ => .error .typeError
  | _ => .error .typeError

/-- `for key, value in arg.items()` (transformer.py:65). -/
def hStartItems (h : Heap) (result : List (String × HV)) : List (String × HV) →
    Except PyErr (List (String × HV))
  | [] => .ok result
  | (k, v) :: rest => do hStartItems h (← hStartStep h result k v) rest

/-- The loop over `itertools.chain(args, self.imports, self.child_resources)`
(transformer.py:61-66). -/
def hStartLoop (h : Heap) (result : List (String × HV)) : List HV → Except PyErr (List (String × HV))
  | [] => .ok result
  | arg :: rest =>
    if !arg.truthy h then hStartLoop h result rest
    else match arg.obj h with
      | .dict d => do hStartLoop h (← hStartItems h result d) rest
      | _ => .error .attributeError

/-- The initial `result` of `start` (transformer.py:48-59). -/
def hStartInit (ln : Bool) : List (String × HV) :=
  [("globals", .dict [("scope", .dict ([("value", .str "resourceGroup")] ++
    (if ln then [("__start_line__", .int 0), ("__end_line__", .int 0)] else [])))])]

/-- `start` (transformer.py:47-68). -/
def hcb_start (h : Heap) (ln : Bool) (args : List HV) (st : HState) : Except PyErr HV :=
  (hStartLoop h (hStartInit ln) (args ++ st.imports ++ st.children)).map .dict

/-! ### elements -/

/-- `scope` (transformer.py:76-96) -/
def hcb_scope (h : Heap) (ln : Bool) (sp : Option Span) (args : List HV) : Except PyErr HV := do
  let a ← hIdx args 0
  let value := sliceBoth 1 (a.pyStr h)
  if !validTargetScopes.contains value then
    .error (.valueError ("target scope is invalid: " ++ value))
  else
    let attrs ← hAddLines ln sp [("value", .str value)]
    .ok (hElementOf "globals" "scope" attrs)

/-- The loop body of `custom_import` (transformer.py:119-138). -/
def hImportEntry (h : Heap) (ln : Bool) (sp : Option Span) (filePath : HV) (nameAlias : HV) :
    Except PyErr HV := do
  let name ← nameAlias.item h "name"
  let fp ← hTransformStringToken filePath
  let alias ← nameAlias.get h "alias"
  let attrs := if alias.truthy h then [("file_path", fp), ("alias", .str (alias.pyStr h))]
    else [("file_path", fp)]
  let attrs ← hAddLines ln sp attrs
  .ok (hElementOf "imports" (name.pyStr h) attrs)

/-- Run a loop body over a list, stopping at the first exception. -/
def hMapE (f : HV → Except PyErr HV) : List HV → Except PyErr (List HV)
  | [] => .ok []
  | x :: xs => do
    let y ← f x
    let ys ← hMapE f xs
    .ok (y :: ys)

/-- `custom_import` (transformer.py:98-138).  A namespace import (one child) is stored without
line numbers. -/
def hcb_custom_import (ln : Bool) (sp : Option Span) (args : List HV) (st : HState) (h : Heap) :
    Except PyErr (HV × HState × Heap) :=
  match args with
  | [a] => do
    let name ← hTransformStringToken a
    let (e, h) := (HV.dict
      [("imports", .dict [("__name__", name), ("__attrs__", .dict [])])]).alloc h
    .ok (.none, { st with imports := st.imports ++ [e] }, h)
  | _ =>
    match args.reverse with
    | [] => unpackErr
    | filePath :: pairs => do
      let es ← hMapE (hImportEntry h ln sp filePath) pairs.reverse
      let (es, h) := HV.allocL es h
      .ok (.none, { st with imports := st.imports ++ es }, h)

/-- `extension` (transformer.py:140-163) -/
def hcb_extension (h : Heap) (ln : Bool) (sp : Option Span) (args : List HV) : Except PyErr HV :=
  match args with
  | [name, config, alias] => do
    let attrs := (if config.truthy h then [("config", config)] else []) ++
      (if alias.truthy h then [("alias", .str (alias.pyStr h))] else [])
    let attrs ← hAddLines ln sp attrs
    .ok (hElementOf "extensions" (name.pyStr h) attrs)
  | _ => unpackErr

/-- `metadata` (transformer.py:165-182) -/
def hcb_metadata (h : Heap) (ln : Bool) (sp : Option Span) (args : List HV) : Except PyErr HV :=
  match args with
  | [name, value] => do
    let attrs ← hAddLines ln sp [("value", value)]
    .ok (hElementOf "metadata" (name.pyStr h) attrs)
  | _ => unpackErr

/-- `param` (transformer.py:184-205) -/
def hcb_param (h : Heap) (ln : Bool) (sp : Option Span) (args : List HV) : Except PyErr HV :=
  match args with
  | [decorators, name, dataType, default] => do
    let attrs ← hAddLines ln sp
      [("decorators", hOrEmptyList h decorators), ("type", dataType), ("default", default)]
    .ok (hElementOf "parameters" (name.pyStr h) attrs)
  | _ => unpackErr

/-- `var` (transformer.py:207-232) -/
def hcb_var (h : Heap) (ln : Bool) (sp : Option Span) (args : List HV) : Except PyErr HV :=
  match args with
  | [decorators, name, dataType, value] => do
    let attrs ← hAddLines ln sp
      ([("decorators", hOrEmptyList h decorators), ("value", value)] ++
        (if dataType.truthy h then [("type", dataType)] else []))
    .ok (hElementOf "variables" (name.pyStr h) attrs)
  | _ => unpackErr

/-- `output` (transformer.py:234-255) -/
def hcb_output (h : Heap) (ln : Bool) (sp : Option Span) (args : List HV) : Except PyErr HV :=
  match args with
  | [decorators, name, dataType, value] => do
    let attrs ← hAddLines ln sp
      [("decorators", hOrEmptyList h decorators), ("type", dataType), ("value", value)]
    .ok (hElementOf "outputs" (name.pyStr h) attrs)
  | _ => unpackErr

/-- `v[k] = x` for a dictionary: the object changes in place. -/
def HV.store (v : HV) (k : String) (x : HV) (h : Heap) : Except PyErr Heap :=
  match v with
  | .ref a => match h[a]? with
    | some (.dict d) => .ok (h.set a (.dict (hSet k x d)))
    | _ => .error .typeError
  | _ => .error .typeError

/-- `v.pop(k)` for a dictionary that has the key: the object changes in place. -/
def HV.pop (v : HV) (k : String) (h : Heap) : Except PyErr Heap :=
  match v with
  | .ref a => match h[a]? with
    | some (.dict d) => .ok (h.set a (.dict (hErase k d)))
    | _ => .error .attributeError
  | _ => .error .attributeError

/-- `v.append(x)`: the list object changes in place. -/
def HV.append (v : HV) (x : HV) (h : Heap) : Except PyErr Heap :=
  match v with
  | .ref a => match h[a]? with
    | some (.list l) => .ok (h.set a (.list (l ++ [x])))
    | _ => .error .attributeError
  | _ => .error .attributeError

/-- `v.setdefault(k, [])`: the object at `k`, a new empty list if there was none. -/
def HV.setdefaultList (v : HV) (k : String) (h : Heap) : Except PyErr (HV × Heap) :=
  match v.obj h with
  | .dict d => match hGet k d with
    | some x => .ok (x, h)
    | .none => do
      let (x, h) := (HV.list []).alloc h
      let h ← v.store k x h
      .ok (x, h)
  | _ => .error .attributeError

/-- `process_child_resource` (transformer.py:943-978), statement by statement: `config` and the popped
child are changed in place, new members of `self.child_resources` are returned.  The fuel bounds the
nesting depth. -/
def hProcessChild : Nat → String → HV → HV → HV → Heap → Except PyErr (List HV × Heap)
  | 0, _, _, _, _, h => .ok ([], h)
  | n + 1, parentName, parentType, parentApi, config, h =>
    match config.obj h with
    | .dict d =>
      match hGet "__child_resource__" d with
      | .none => .ok ([], h)
      | some child => do
        let h ← config.pop "__child_resource__" h
        let cname ← child.item h "__name__"
        let newName := parentName ++ "__" ++ cname.pyStr h
        let h ← child.store "__name__" (.str newName) h
        let attrs ← child.item h "__attrs__"
        let ctype ← attrs.item h "type"
        let newType := HV.str (parentType.pyStr h ++ "/" ++ ctype.pyStr h)
        let h ← attrs.store "type" newType h
        let h ← attrs.store "api_version" parentApi h
        let cconfig ← attrs.item h "config"
        let (deps, h) ← cconfig.setdefaultList "depends_on" h
        let h ← deps.append (.elem parentName) h
        let (entry, h) := (HV.dict [("resources", child)]).alloc h
        let (more, h) ← hProcessChild n newName newType parentApi cconfig h
        .ok (entry :: more, h)
    | _ => .error .typeError

/-- `resource` (transformer.py:257-287) -/
def hcb_resource (ln : Bool) (sp : Option Span) (args : List HV) (st : HState) (h : Heap) :
    Except PyErr (HV × HState × Heap) :=
  match args with
  | [decorators, name, typeApi, existing, config] => do
    let nameStr := name.pyStr h
    match config.obj h with
    | .dict d =>
      let ptype ← match hGet "__child_resource__" d with
        | .none => .ok HV.none
        | some _ => typeApi.item h "type"
      let papi ← match hGet "__child_resource__" d with
        | .none => .ok HV.none
        | some _ => typeApi.item h "api_version"
      let (more, h) ← hProcessChild ((config.read h).depth + 1) nameStr ptype papi config h
      let t ← typeApi.item h "type"
      let v ← typeApi.item h "api_version"
      let attrs ← hAddLines ln sp
        [("decorators", hOrEmptyList h decorators), ("type", t), ("api_version", v),
         ("existing", .bool (existing.truthy h)), ("config", config)]
      let (r, h) := (hElementOf "resources" nameStr attrs).alloc h
      .ok (r, { st with children := st.children ++ more }, h)
    | _ => .error .typeError
  | _ => unpackErr

/-- `child_resource` (transformer.py:289-311) -/
def hcb_child_resource (h : Heap) (ln : Bool) (sp : Option Span) (args : List HV) : Except PyErr HV :=
  match args with
  | [name, typeName, existing, config] => do
    let attrs ← hAddLines ln (sp.map (fun s => { s with endLine := s.endLine - 1 }))
      [("decorators", .list []), ("type", .str (sliceBoth 1 (typeName.pyStr h))),
       ("api_version", .str ""), ("existing", .bool (existing.truthy h)), ("config", config)]
    .ok (.tup2 (.str "__child_resource__")
      (.dict [("__name__", .str (name.pyStr h)), ("__attrs__", .dict attrs)]))
  | _ => unpackErr

/-- `module` (transformer.py:313-335) -/
def hcb_module (h : Heap) (ln : Bool) (sp : Option Span) (args : List HV) : Except PyErr HV :=
  match args with
  | [decorators, name, path, config] => do
    let t ← path.item h "type"
    let d ← path.item h "detail"
    let attrs ← hAddLines ln sp
      [("decorators", hOrEmptyList h decorators), ("type", t), ("detail", d), ("config", config)]
    .ok (hElementOf "modules" (name.pyStr h) attrs)
  | _ => unpackErr

/-- `custom_type` (transformer.py:337-357) -/
def hcb_custom_type (h : Heap) (ln : Bool) (sp : Option Span) (args : List HV) : Except PyErr HV :=
  match args with
  | [decorators, name, value] => do
    let attrs ← hAddLines ln sp [("decorators", hOrEmptyList h decorators), ("value", value)]
    .ok (hElementOf "types" (name.pyStr h) attrs)
  | _ => unpackErr

/-- `zip(*[iter(arg_type_pairs)] * 2, strict=True)` (transformer.py:379): consecutive pairs,
ValueError for an odd number of items. -/
def hArgPairs (h : Heap) : List HV → Except PyErr (List (String × HV))
  | [] => .ok []
  | [_] => unpackErr
  | n :: t :: rest => do
    let ps ← hArgPairs h rest
    .ok (((n.pyStr h), t) :: ps)

/-- `custom_func` (transformer.py:359-391) -/
def hcb_custom_func (h : Heap) (ln : Bool) (sp : Option Span) (args : List HV) : Except PyErr HV :=
  match args with
  | decorators :: name :: rest =>
    match rest.reverse with
    | expression :: returnType :: pairsRev => do
      let ps ← hArgPairs h pairsRev.reverse
      let attrs ← hAddLines ln sp
        [("decorators", hOrEmptyList h decorators), ("args", .dict (hDict ps)),
         ("type", returnType), ("expression", expression)]
      .ok (hElementOf "functions" (name.pyStr h) attrs)
    | _ => unpackErr
  | _ => unpackErr

/-! ### element type extras -/

/-- `array_suffix` (transformer.py:399-400) -/
def hcb_array_suffix (_ : Heap) (_ : List HV) : Except PyErr HV := .ok .none

/-- `base_type` (transformer.py:402-404) -/
def hcb_base_type (_ : Heap) (args : List HV) : Except PyErr HV := do
  match ← hIdx args 0 with
  | .tok _ s => .ok (.str s)
  | v => .ok v

/-- `union_type` (transformer.py:406-407) -/
def hcb_union_type (_ : Heap) (args : List HV) : Except PyErr HV :=
  .ok (.dict [("type", .str "union"), ("members", .list args)])

/-- the loop of `data_type` (transformer.py:412-413) -/
def hWrapArray : List HV → HV → HV
  | [], t => t
  | _ :: s, t => hWrapArray s (.dict [("type", .str "array"), ("item_type", t)])

/-- `data_type` (transformer.py:409-414) -/
def hcb_data_type (_ : Heap) (args : List HV) : Except PyErr HV :=
  match args with
  | base :: suffixes => .ok (hWrapArray suffixes base)
  | [] => unpackErr

/-- `type_api_pair` (transformer.py:416-421) -/
def hcb_type_api_pair (h : Heap) (args : List HV) : Except PyErr HV := do
  let a ← hIdx args 0
  match splitOn '@' (sliceBoth 1 (a.pyStr h)) with
  | [t, v] => .ok (.dict [("type", .str t), ("api_version", .str v)])
  | _ => unpackErr

/-- `module_path` (transformer.py:423-514) -/
def hcb_module_path (h : Heap) (args : List HV) : Except PyErr HV := do
  let a ← hIdx args 0
  (classifyModulePath (sliceBoth 1 (a.pyStr h))).map Val.display

/-- `import_alias` (transformer.py:516-524) -/
def hcb_import_alias (h : Heap) (args : List HV) : Except PyErr HV :=
  match args with
  | [name, alias] =>
    .ok (.dict ([("name", .str (name.pyStr h))] ++
      (if alias.truthy h then [("alias", .str (alias.pyStr h))] else [])))
  | _ => unpackErr

/-- `type_value` (transformer.py:526-528) -/
def hcb_type_value (h : Heap) (args : List HV) : Except PyErr HV :=
  .ok (.str (" | ".intercalate (args.map (HV.pyStr h))))

/-! ### loops and conditions -/

/-- The condition rewriting of `loop` (transformer.py:539-540). -/
def hLoopCondition (h : Heap) (condition : HV) : Except PyErr HV :=
  match condition.obj h with
  | .dict _ => do
    let func ← condition.getOrEmpty h "function"
    let t ← func.get h "type"
    if t.eqStr h "if" then
      let ps ← func.item h "parameters"
      ps.item h "arg_1"
    else .ok condition
  | _ => .ok condition

/-- `loop` (transformer.py:536-546) -/
def hcb_loop (h : Heap) (args : List HV) : Except PyErr HV :=
  match args with
  | [loopType, condition, config] => do
    let condition ← hLoopCondition h condition
    .ok (.dict [("loop_type", loopType), ("condition", condition), ("config", config)])
  | _ => unpackErr

/-- `loop_array` (transformer.py:548-556) -/
def hcb_loop_array (h : Heap) (args : List HV) : Except PyErr HV :=
  match args with
  | [item, arr] => .ok (.dict [("type", .str "array"), ("detail", .dict [
      ("item_name", .str (item.pyStr h)), ("array_name", arr)])])
  | _ => unpackErr

/-- `loop_array_index` (transformer.py:558-567) -/
def hcb_loop_array_index (h : Heap) (args : List HV) : Except PyErr HV :=
  match args with
  | [item, i, arr] => .ok (.dict [("type", .str "array_index"), ("detail", .dict [
      ("item_name", .str (item.pyStr h)), ("index_name", .str (i.pyStr h)), ("array_name", arr)])])
  | _ => unpackErr

/-- `loop_object` (transformer.py:569-577) -/
def hcb_loop_object (h : Heap) (args : List HV) : Except PyErr HV :=
  match args with
  | [item, obj] => .ok (.dict [("type", .str "object"), ("detail", .dict [
      ("item_name", .str (item.pyStr h)), ("object_name", .str (obj.pyStr h))])])
  | _ => unpackErr

/-- `deploy_condition` (transformer.py:585-590) -/
def hcb_deploy_condition (_ : Heap) (args : List HV) : Except PyErr HV :=
  match args with
  | [condition, config] => .ok (.dict [("condition", condition), ("config", config)])
  | _ => unpackErr

/-! ### decorators and functions -/

/-- `decorator` (transformer.py:598-603) -/
def hcb_decorator (h : Heap) (args : List HV) : Except PyErr HV :=
  match args with
  | name :: params => HDecorators.getDecorator (name.pyStr h) h (name.pyStr h) params
  | [] => unpackErr

/-- `decorators` (transformer.py:605-606) -/
def hcb_decorators (_ : Heap) (args : List HV) : Except PyErr HV := .ok (.list args)

/-- `function` (transformer.py:614-621) -/
def hcb_function (h : Heap) (args : List HV) : Except PyErr HV :=
  match args with
  | name :: params => do
    let fname := removeSuffix "(" (name.pyStr h)
    let data ← HFunctions.getFunction fname h fname params
    .ok (.dict [("function", data)])
  | [] => unpackErr

/-! ### operators -/

/-- `operator` (transformer.py:629-630) -/
def hcb_operator (_ : Heap) (args : List HV) : Except PyErr HV := do
  let a ← hIdx args 0
  .ok (.dict [("operator", a)])

/-- The binary operators, all of the same form: `greater_than_or_equals` ... `not_equals_case_insens`
(transformer.py:632-718), `add`, `divide`, `modulo`, `multiply`, `substract`
(transformer.py:790-851), `index_accessor`, `nested_resource_accessor`, `property_accessor`
(transformer.py:859-863, 876-886). -/
def hcb_binary (_ : Heap) (type : String) (args : List HV) : Except PyErr HV :=
  match args with
  | [a, b] => .ok (.dict [("type", .str type), ("operands", .dict [("operand_1", a), ("operand_2", b)])])
  | _ => unpackErr

/-- `and_op`, `or_op`, `coalesce` (transformer.py:726-748, 758-768) -/
def hcb_variadic (_ : Heap) (type : String) (args : List HV) : Except PyErr HV :=
  match args with
  | a :: b :: rest => .ok (.dict [("type", .str type), ("operands",
      .dict (hDict (("operand_1", a) :: ("operand_2", b) :: hEnum "operand_" 3 rest)))])
  | _ => unpackErr

/-- `not_op` (transformer.py:750-756) -/
def hcb_not_op (_ : Heap) (args : List HV) : Except PyErr HV := do
  let a ← hIdx args 0
  .ok (.dict [("type", .str "not"), ("operands", .dict [("bool_value", a)])])

/-- `minus` (transformer.py:812-818) -/
def hcb_minus (_ : Heap) (args : List HV) : Except PyErr HV := do
  let a ← hIdx args 0
  .ok (.dict [("type", .str "minus"), ("operands", .dict [("integer_value", a)])])

/-- `conditional` (transformer.py:770-782) -/
def hcb_conditional (_ : Heap) (args : List HV) : Except PyErr HV :=
  match args with
  | [c, t, f] => .ok (.dict [("type", .str "conditional"), ("operands", .dict [
      ("condition", c), ("true_value", t), ("false_value", f)])])
  | _ => unpackErr

/-- `function_accessor` (transformer.py:865-874): falsy extra arguments are left out, the numbering
counts them. -/
def hcb_function_accessor (h : Heap) (args : List HV) : Except PyErr HV :=
  match args with
  | a :: fname :: rest => .ok (.dict [("type", .str "function_accessor"), ("operands",
      .dict (hDict (("operand_1", a) :: ("func_name", .str (fname.pyStr h)) ::
        (hEnum "operand_" 2 rest).filter (fun p => p.2.truthy h))))])
  | _ => unpackErr

/-! ### data types -/

/-- `item.value if isinstance(item, Token) else item` (transformer.py:895, 902) -/
def hTokValue : HV → HV
  | .tok _ s => .str s
  | v => v

/-- `array` (transformer.py:894-895) -/
def hcb_array (_ : Heap) (args : List HV) : Except PyErr HV := .ok (.list (args.map hTokValue))

/-- the argument of `dict(args)` in `object` (transformer.py:898): a sequence of pairs with string
keys; anything else is a TypeError. -/
def hDictPairs : List HV → Except PyErr (List (String × HV))
  | [] => .ok []
  | .tup2 (.str k) v :: rest => do
    let ps ← hDictPairs rest
    .ok ((k, v) :: ps)
  | _ :: _ => .error .typeError

/-- `object` (transformer.py:897-898) -/
def hcb_object (_ : Heap) (args : List HV) : Except PyErr HV := do
  let ps ← hDictPairs args
  .ok (.dict (hDict ps))

/-- `pair` (transformer.py:900-902) -/
def hcb_pair (_ : Heap) (args : List HV) : Except PyErr HV :=
  match args with
  | [key, value] => .ok (.tup2 key (hTokValue value))
  | _ => unpackErr

/-- `key` (transformer.py:904-905) -/
def hcb_key (h : Heap) (args : List HV) : Except PyErr HV := do
  let a ← hIdx args 0
  .ok (.str (a.pyStr h))

/-- `int_type` (transformer.py:907-908) -/
def hcb_int_type (h : Heap) (args : List HV) : Except PyErr HV := do
  let a ← hIdx args 0
  a.pyInt h

/-- `string` (transformer.py:910-911) -/
def hcb_string (_ : Heap) (args : List HV) : Except PyErr HV := do
  let a ← hIdx args 0
  hTransformStringToken a

/-- `multi_line_string` (transformer.py:913-914) -/
def hcb_multi_line_string (h : Heap) (args : List HV) : Except PyErr HV := do
  let a ← hIdx args 0
  .ok (.str (sanitizeMultiLine (a.pyStr h)))

/-- `true`, `false`, `null` (transformer.py:916-923) -/
def hcb_const (_ : Heap) (v : HV) (_ : List HV) : Except PyErr HV := .ok v

/-- `lambda_expression` (transformer.py:925-935) -/
def hcb_lambda_expression (h : Heap) (args : List HV) : Except PyErr HV :=
  match args with
  | a :: rest =>
    match rest.reverse with
    | expr :: xs => .ok (.dict [("type", .str "lambda_expression"), ("detail",
        .dict (hDict (("var_1", .str (a.pyStr h)) ::
          (hEnum "var_" 2 (xs.reverse.map (fun v => .str (v.pyStr h))) ++ [("expression", expr)]))))])
    | [] => unpackErr
  | [] => unpackErr

/-! ### dispatch -/

/-- A method of `BicepToJson`. -/
abbrev HCallback :=
  Bool → Option Span → List HV → HState → Heap → Except PyErr (HV × HState × Heap)

/-- the returned display is stored -/
def hReturn (h : Heap) (st : HState) (v : HV) : HV × HState × Heap :=
  ((v.alloc h).1, st, (v.alloc h).2)

/-- A method that uses neither `meta` nor the state. -/
def hPlain (f : Heap → List HV → Except PyErr HV) : HCallback :=
  fun _ _ args st h => (f h args).map (hReturn h st)

/-- A method decorated with `@v_args(meta=True)` that leaves the state alone. -/
def hWithMeta (f : Heap → Bool → Option Span → List HV → Except PyErr HV) : HCallback :=
  fun ln sp args st h => (f h ln sp args).map (hReturn h st)

/-- The methods by rule name (`getattr(self, tree.data)`). -/
def hcallbacks : List (String × HCallback) := [
  ("start", fun ln _ args st h => (hcb_start h ln args st).map (hReturn h st)),
  ("scope", hWithMeta hcb_scope),
  ("custom_import", hcb_custom_import),
  ("extension", hWithMeta hcb_extension),
  ("metadata", hWithMeta hcb_metadata),
  ("param", hWithMeta hcb_param),
  ("var", hWithMeta hcb_var),
  ("output", hWithMeta hcb_output),
  ("resource", hcb_resource),
  ("child_resource", hWithMeta hcb_child_resource),
  ("module", hWithMeta hcb_module),
  ("custom_type", hWithMeta hcb_custom_type),
  ("custom_func", hWithMeta hcb_custom_func),
  ("array_suffix", hPlain hcb_array_suffix),
  ("base_type", hPlain hcb_base_type),
  ("union_type", hPlain hcb_union_type),
  ("data_type", hPlain hcb_data_type),
  ("type_api_pair", hPlain hcb_type_api_pair),
  ("module_path", hPlain hcb_module_path),
  ("import_alias", hPlain hcb_import_alias),
  ("type_value", hPlain hcb_type_value),
  ("loop", hPlain hcb_loop),
  ("loop_array", hPlain hcb_loop_array),
  ("loop_array_index", hPlain hcb_loop_array_index),
  ("loop_object", hPlain hcb_loop_object),
  ("deploy_condition", hPlain hcb_deploy_condition),
  ("decorator", hPlain hcb_decorator),
  ("decorators", hPlain hcb_decorators),
  ("function", hPlain hcb_function),
  ("operator", hPlain hcb_operator),
  ("greater_than_or_equals", hPlain (fun h => hcb_binary h "greater_than_or_equals")),
  ("greater_than", hPlain (fun h => hcb_binary h "greater_than")),
  ("less_than_or_equals", hPlain (fun h => hcb_binary h "less_than_or_equals")),
  ("less_than", hPlain (fun h => hcb_binary h "less_than")),
  ("equals", hPlain (fun h => hcb_binary h "equals")),
  ("not_equals", hPlain (fun h => hcb_binary h "not_equals")),
  ("equals_case_insens", hPlain (fun h => hcb_binary h "equals_case_insensitive")),
  ("not_equals_case_insens", hPlain (fun h => hcb_binary h "not_equals_case_insensitive")),
  ("and_op", hPlain (fun h => hcb_variadic h "and")),
  ("or_op", hPlain (fun h => hcb_variadic h "or")),
  ("not_op", hPlain hcb_not_op),
  ("coalesce", hPlain (fun h => hcb_variadic h "coalesce")),
  ("conditional", hPlain hcb_conditional),
  ("add", hPlain (fun h => hcb_binary h "add")),
  ("divide", hPlain (fun h => hcb_binary h "divide")),
  ("minus", hPlain hcb_minus),
  ("modulo", hPlain (fun h => hcb_binary h "modulo")),
  ("multiply", hPlain (fun h => hcb_binary h "multiply")),
  ("substract", hPlain (fun h => hcb_binary h "substract")),
  ("index_accessor", hPlain (fun h => hcb_binary h "index_accessor")),
  ("function_accessor", hPlain hcb_function_accessor),
  ("nested_resource_accessor", hPlain (fun h => hcb_binary h "nested_resource_accessor")),
  ("property_accessor", hPlain (fun h => hcb_binary h "property_accessor")),
  ("array", hPlain hcb_array),
  ("object", hPlain hcb_object),
  ("pair", hPlain hcb_pair),
  ("key", hPlain hcb_key),
  ("int_type", hPlain hcb_int_type),
  ("string", hPlain hcb_string),
  ("multi_line_string", hPlain hcb_multi_line_string),
  ("true", hPlain (fun h => hcb_const h (.bool true))),
  ("false", hPlain (fun h => hcb_const h (.bool false))),
  ("null", hPlain (fun h => hcb_const h .none)),
  ("lambda_expression", hPlain hcb_lambda_expression)]

mutual
/-- `Transformer._transform_tree`, see `transform`. -/
def hTransform (ln : Bool) : Tree → HState → Heap → Except VErr (HV × HState × Heap)
  | .tok t, st, h => .ok (.tok (termName t.type) (String.ofList t.text), st, h)
  | .none, st, h => .ok (.none, st, h)
  | .node d kids sp, st, h => do
    let (args, st, h) ← hTransformList ln kids st h
    match hcallbacks.lookup d with
    | some f => match f ln sp args st h with
      | .ok r => .ok r
      | .error e => .error (.visit d e)
    | .none => .error (.noCallback d)
/-- `Transformer._transform_children`. -/
def hTransformList (ln : Bool) : List Tree → HState → Heap → Except VErr (List HV × HState × Heap)
  | [], st, h => .ok ([], st, h)
  | t :: ts, st, h => do
    let (v, st, h) ← hTransform ln t st h
    let (vs, st, h) ← hTransformList ln ts st h
    .ok (v :: vs, st, h)
end

/-- `BicepToJson(add_line_numbers=ln).transform(tree)` (main.py:29): a fresh transformer, in the
memory `h`. -/
def hBicepToJson (ln : Bool) (t : Tree) (h : Heap) : Except VErr (HV × Heap) :=
  (hTransform ln t ⟨[], []⟩ h).map (fun r => (r.1, r.2.2))

/-- `BicepParser.parse` (main.py:27-29), in the memory `h`. -/
def Parser.hparse (p : Parser) (text : Option String) (filePath : Option PathArg) (h : Heap) :
    Except ApiErr (HV × Heap) := do
  let tree ← createTree' text filePath
  match hBicepToJson p.addLineNumbers tree h with
  | .ok r => .ok r
  | .error (.visit r e) => .error (.visitError r e)
  | .error (.noCallback _) => .error .internal

end Pycep
