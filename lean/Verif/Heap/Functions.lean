import Verif.Heap.Basic
/-
`/repo/pycep/rules/functions.py` once more, on values with identity: the same branches as in
`Functions.lean`.  A function gets the memory (to look into its arguments), the function name and the
arguments, and returns a dictionary display.
-/
namespace Pycep.HFunctions
open Pycep

/-- Type of the entries of `FUNCTIONS` (functions.py:1028). -/
abbrev FuncDef := Heap → String → List HV → Except PyErr HV

/-- The dictionary display `{"type": t, "parameters": {...}}` shared by all definitions. -/
def fdata (t : String) (params : List (String × HV)) : HV :=
  .dict [("type", .str t), ("parameters", .dict params)]

/-! ### functions - any -/

/-- `any_func` (functions.py:20-26). -/
def any_func : FuncDef := fun _ _ args =>
  match args with
  | a :: _ => .ok (fdata "any" [("value", a)])
  | [] => .error .indexError

/-! ### functions - array -/

/-- `array_func` (functions.py:36-42). -/
def array_func : FuncDef := fun _ _ args =>
  match args with
  | a :: _ => .ok (fdata "array" [("convert_to_array", a)])
  | [] => .error .indexError

/-- `concat` (functions.py:45-54). -/
def concat : FuncDef := fun _ _ args =>
  match args with
  | a :: rest => .ok (fdata "concat" (hDict (("arg_1", a) :: hEnum "arg_" 2 rest)))
  | [] => unpackErr

/-- `contains` (functions.py:57-68). -/
def contains : FuncDef := fun _ _ args =>
  match args with
  | [a, b] => .ok (fdata "contains" [("container", a), ("item_to_find", b)])
  | _ => unpackErr

/-- `empty` (functions.py:71-77). -/
def empty : FuncDef := fun _ _ args =>
  match args with
  | a :: _ => .ok (fdata "empty" [("item_to_test", a)])
  | [] => .error .indexError

/-- `first` (functions.py:80-86). -/
def first : FuncDef := fun _ _ args =>
  match args with
  | a :: _ => .ok (fdata "first" [("arg_1", a)])
  | [] => .error .indexError

/-- `flatten` (functions.py:89-95). -/
def flatten : FuncDef := fun _ _ args =>
  match args with
  | a :: _ => .ok (fdata "flatten" [("array_to_flattern", a)])
  | [] => .error .indexError

/-- `intersection` (functions.py:98-110). -/
def intersection : FuncDef := fun _ _ args =>
  match args with
  | a :: b :: rest => .ok (fdata "intersection" (hDict (("arg_1", a) :: ("arg_2", b) :: hEnum "arg_" 3 rest)))
  | _ => unpackErr

/-- `last` (functions.py:113-119). -/
def last : FuncDef := fun _ _ args =>
  match args with
  | a :: _ => .ok (fdata "last" [("arg_1", a)])
  | [] => .error .indexError

/-- `length` (functions.py:122-128). -/
def length : FuncDef := fun _ _ args =>
  match args with
  | a :: _ => .ok (fdata "length" [("arg_1", a)])
  | [] => .error .indexError

/-- `max_func` (functions.py:131-140). -/
def max_func : FuncDef := fun _ _ args =>
  match args with
  | a :: rest => .ok (fdata "max" (hDict (("arg_1", a) :: hEnum "arg_" 2 rest)))
  | [] => unpackErr

/-- `min_func` (functions.py:143-152). -/
def min_func : FuncDef := fun _ _ args =>
  match args with
  | a :: rest => .ok (fdata "min" (hDict (("arg_1", a) :: hEnum "arg_" 2 rest)))
  | [] => unpackErr

/-- `range_func` (functions.py:155-163). -/
def range_func : FuncDef := fun _ _ args =>
  match args with
  | [a, b] => .ok (fdata "range" [("start_index", a), ("count", b)])
  | _ => unpackErr

/-- `skip` (functions.py:166-175). -/
def skip : FuncDef := fun _ _ args =>
  match args with
  | [a, b] => .ok (fdata "skip" [("original_value", a), ("number_to_skip", b)])
  | _ => unpackErr

/-- `take` (functions.py:178-187). -/
def take : FuncDef := fun _ _ args =>
  match args with
  | [a, b] => .ok (fdata "take" [("original_value", a), ("number_to_take", b)])
  | _ => unpackErr

/-- `union` (functions.py:190-202). -/
def union : FuncDef := fun _ _ args =>
  match args with
  | a :: b :: rest => .ok (fdata "union" (hDict (("arg_1", a) :: ("arg_2", b) :: hEnum "arg_" 3 rest)))
  | _ => unpackErr

/-! ### functions - date -/

/-- `date_time_add` (functions.py:212-224). -/
def date_time_add : FuncDef := fun _ _ args =>
  match args with
  | [a, b] => .ok (fdata "date_time_add" [("base", a), ("duration", b), ("format", .none)])
  | a :: b :: c :: _ => .ok (fdata "date_time_add" [("base", a), ("duration", b), ("format", c)])
  | _ => unpackErr

/-- `date_time_from_epoch` (functions.py:227-233). -/
def date_time_from_epoch : FuncDef := fun _ _ args =>
  match args with
  | a :: _ => .ok (fdata "date_time_from_epoch" [("epoch_time", a)])
  | [] => .error .indexError

/-- `date_time_to_epoch` (functions.py:236-242). -/
def date_time_to_epoch : FuncDef := fun _ _ args =>
  match args with
  | a :: _ => .ok (fdata "date_time_to_epoch" [("date_time", a)])
  | [] => .error .indexError

/-- `utc_now` (functions.py:245-251). -/
def utc_now : FuncDef := fun _ _ args =>
  match args with
  | a :: _ => .ok (fdata "utc_now" [("format", a)])
  | [] => .ok (fdata "utc_now" [("format", .none)])

/-! ### functions - deployment -/

/-- `deployment` (functions.py:261-262). -/
def deployment : FuncDef := fun _ _ _ =>
  .ok (.dict [("type", .str "deployment")])

/-- `environment` (functions.py:265-266). -/
def environment : FuncDef := fun _ _ _ =>
  .ok (.dict [("type", .str "environment")])

/-! ### functions - file -/

/-- `load_text_content` (functions.py:276-287). -/
def load_text_content : FuncDef := fun _ _ args =>
  match args with
  | [a] => .ok (fdata "load_text_content" [("file_path", a), ("encoding", .none)])
  | a :: b :: _ => .ok (fdata "load_text_content" [("file_path", a), ("encoding", b)])
  | [] => unpackErr

/-- `load_json_content` (functions.py:290-315). With four or more arguments everything after the first one is ignored. -/
def load_json_content : FuncDef := fun _ _ args =>
  match args with
  | [a, b, c] => .ok (fdata "load_json_content" [("file_path", a), ("json_path", b), ("encoding", c)])
  | [a, b] => .ok (fdata "load_json_content" [("file_path", a), ("json_path", b), ("encoding", .none)])
  | a :: _ => .ok (fdata "load_json_content" [("file_path", a), ("json_path", .none), ("encoding", .none)])
  | [] => unpackErr

/-- `load_yaml_content` (functions.py:318-343). With four or more arguments everything after the first one is ignored. -/
def load_yaml_content : FuncDef := fun _ _ args =>
  match args with
  | [a, b, c] => .ok (fdata "load_yaml_content" [("file_path", a), ("path_filter", b), ("encoding", c)])
  | [a, b] => .ok (fdata "load_yaml_content" [("file_path", a), ("path_filter", b), ("encoding", .none)])
  | a :: _ => .ok (fdata "load_yaml_content" [("file_path", a), ("path_filter", .none), ("encoding", .none)])
  | [] => unpackErr

/-- `load_file_as_base64` (functions.py:346-352). -/
def load_file_as_base64 : FuncDef := fun _ _ args =>
  match args with
  | a :: _ => .ok (fdata "load_file_as_base64" [("file_path", a)])
  | [] => .error .indexError

/-! ### functions - lambda -/

/-- `filter_func` (functions.py:362-373). -/
def filter_func : FuncDef := fun _ _ args =>
  match args with
  | [a, b] => .ok (fdata "filter" [("input_array", a), ("expression", b)])
  | _ => unpackErr

/-! ### functions - logical -/

/-- `bool_func` (functions.py:383-389). -/
def bool_func : FuncDef := fun _ _ args =>
  match args with
  | a :: _ => .ok (fdata "bool" [("arg_1", a)])
  | [] => .error .indexError

/-! ### functions - numeric -/

/-- `int_func` (functions.py:399-405). -/
def int_func : FuncDef := fun _ _ args =>
  match args with
  | a :: _ => .ok (fdata "int" [("value_to_convert", a)])
  | [] => .error .indexError

/-! ### functions - object -/

/-- `json_func` (functions.py:415-421). -/
def json_func : FuncDef := fun _ _ args =>
  match args with
  | a :: _ => .ok (fdata "json" [("arg_1", a)])
  | [] => .error .indexError

/-! ### functions - resource -/

/-- `extension_resource_id` (functions.py:431-452). -/
def extension_resource_id : FuncDef := fun _ _ args =>
  match args with
  | [a, b, c] => .ok (fdata "extension_resource_id" [("resource_id", a), ("resource_type", b), ("resource_name_1", c), ("resource_name_2", .none)])
  | a :: b :: c :: d :: _ => .ok (fdata "extension_resource_id" [("resource_id", a), ("resource_type", b), ("resource_name_1", c), ("resource_name_2", d)])
  | _ => .error .indexError

/-- `list_func` (functions.py:455-475). -/
def list_func : FuncDef := fun _ _ args =>
  match args with
  | [a, b] => .ok (fdata "list_func" [("func_name", .str "listKeys"), ("resource_identifier", a), ("api_version", b)])
  | _ => unpackErr

/-- `management_group_resource_id` (functions.py:478-496). -/
def management_group_resource_id : FuncDef := fun _ _ args =>
  match args with
  | [a, b] => .ok (fdata "management_group_resource_id" [("resource_type", a), ("resource_name_1", b), ("resource_name_2", .none)])
  | a :: b :: c :: _ => .ok (fdata "management_group_resource_id" [("resource_type", a), ("resource_name_1", b), ("resource_name_2", c)])
  | _ => .error .indexError

/-- `pick_zones` (functions.py:499-522). With six or more arguments `offset` stays `None`. -/
def pick_zones : FuncDef := fun _ _ args =>
  match args with
  | [a, b, c] => .ok (fdata "pick_zones" [("provider_namespace", a), ("resource_type", b), ("location", c), ("number_of_zones", .none), ("offset", .none)])
  | [a, b, c, d, e] => .ok (fdata "pick_zones" [("provider_namespace", a), ("resource_type", b), ("location", c), ("number_of_zones", d), ("offset", e)])
  | a :: b :: c :: d :: _ => .ok (fdata "pick_zones" [("provider_namespace", a), ("resource_type", b), ("location", c), ("number_of_zones", d), ("offset", .none)])
  | _ => .error .indexError

/-- `reference` (functions.py:525-552). With four or more arguments everything after the first one is ignored. -/
def reference : FuncDef := fun _ _ args =>
  match args with
  | [a, b, c] => .ok (fdata "reference" [("resource_identifier", a), ("api_version", b), ("full", c)])
  | [a, b] => .ok (fdata "reference" [("resource_identifier", a), ("api_version", b), ("full", .none)])
  | a :: _ => .ok (fdata "reference" [("resource_identifier", a), ("api_version", .none), ("full", .none)])
  | [] => unpackErr

/-- `resource_id` (functions.py:555-610). The last case is the `else` branch: five or more arguments
(fewer than two raise `IndexError` at `args[0]`/`args[1]`/`args[2]`). -/
def resource_id : FuncDef := fun _ _ args =>
  match args with
  | [a, b] => .ok (fdata "resource_id" [("resource_type", a), ("resource_name_1", b), ("resource_name_2", .none), ("resource_group_name", .none), ("subscription_id", .none)])
  | [a, b, c] => .ok (fdata "resource_id" [("resource_type", a), ("resource_name_1", b), ("resource_name_2", c), ("resource_group_name", .none), ("subscription_id", .none)])
  | [a, b, c, d] => .ok (fdata "resource_id" [("resource_type", b), ("resource_name_1", c), ("resource_name_2", d), ("resource_group_name", a), ("subscription_id", .none)])
  | a :: b :: c :: names => .ok (fdata "resource_id" (hDict
      ([("resource_type", c)] ++ hEnum "resource_name_" 1 names ++
       [("resource_group_name", b), ("subscription_id", a)])))
  | _ => .error .indexError

/-- `subscription_resource_id` (functions.py:613-644). -/
def subscription_resource_id : FuncDef := fun _ _ args =>
  match args with
  | [a, b] => .ok (fdata "subscription_resource_id" [("resource_type", a), ("resource_name_1", b), ("resource_name_2", .none), ("subscription_id", .none)])
  | [a, b, c] => .ok (fdata "subscription_resource_id" [("resource_type", a), ("resource_name_1", b), ("resource_name_2", c), ("subscription_id", .none)])
  | a :: b :: c :: d :: _ => .ok (fdata "subscription_resource_id" [("resource_type", b), ("resource_name_1", c), ("resource_name_2", d), ("subscription_id", a)])
  | _ => .error .indexError

/-- `tenant_resource_id` (functions.py:647-665). -/
def tenant_resource_id : FuncDef := fun _ _ args =>
  match args with
  | [a, b] => .ok (fdata "tenant_resource_id" [("resource_type", a), ("resource_name_1", b), ("resource_name_2", .none)])
  | a :: b :: c :: _ => .ok (fdata "tenant_resource_id" [("resource_type", a), ("resource_name_1", b), ("resource_name_2", c)])
  | _ => .error .indexError

/-! ### functions - scope -/

/-- `management_group` (functions.py:675-681). -/
def management_group : FuncDef := fun _ _ args =>
  match args with
  | a :: _ => .ok (fdata "management_group" [("identifier", a)])
  | [] => .ok (fdata "management_group" [("identifier", .none)])

/-- `resource_group` (functions.py:684-707). -/
def resource_group : FuncDef := fun h _ args =>
  let (rg, sub) : HV × HV := match args with
    | [a, b] => (a, b)
    | [a] => (a, .none)
    | _ => (.none, .none)
  let (rg, sub) := if rg.truthy h && sub.truthy h then (sub, rg) else (rg, sub)
  .ok (fdata "resource_group" [("resource_group_name", rg), ("subscription_id", sub)])

/-- `subscription` (functions.py:710-718). -/
def subscription : FuncDef := fun _ _ args =>
  match args with
  | a :: _ => .ok (fdata "subscription" [("subscription_id", a)])
  | [] => .ok (fdata "subscription" [("subscription_id", .none)])

/-- `tenant` (functions.py:721-722). -/
def tenant : FuncDef := fun _ _ _ =>
  .ok (.dict [("type", .str "tenant")])

/-! ### functions - string -/

/-- `base64_func` (functions.py:732-738). -/
def base64_func : FuncDef := fun _ _ args =>
  match args with
  | a :: _ => .ok (fdata "base64" [("input_string", a)])
  | [] => .error .indexError

/-- `base64_to_json` (functions.py:741-747). -/
def base64_to_json : FuncDef := fun _ _ args =>
  match args with
  | a :: _ => .ok (fdata "base64_to_json" [("base64_value", a)])
  | [] => .error .indexError

/-- `base64_to_string` (functions.py:750-756). -/
def base64_to_string : FuncDef := fun _ _ args =>
  match args with
  | a :: _ => .ok (fdata "base64_to_string" [("base64_value", a)])
  | [] => .error .indexError

/-- `data_uri` (functions.py:759-765). -/
def data_uri : FuncDef := fun _ _ args =>
  match args with
  | a :: _ => .ok (fdata "data_uri" [("string_to_convert", a)])
  | [] => .error .indexError

/-- `data_uri_to_string` (functions.py:768-774). -/
def data_uri_to_string : FuncDef := fun _ _ args =>
  match args with
  | a :: _ => .ok (fdata "data_uri_to_string" [("data_uri_to_convert", a)])
  | [] => .error .indexError

/-- `ends_with` (functions.py:777-788). -/
def ends_with : FuncDef := fun _ _ args =>
  match args with
  | [a, b] => .ok (fdata "ends_with" [("string_to_search", a), ("string_to_find", b)])
  | _ => unpackErr

/-- `format_func` (functions.py:791-800). -/
def format_func : FuncDef := fun _ _ args =>
  match args with
  | a :: rest => .ok (fdata "format" (hDict (("format_string", a) :: hEnum "arg_" 1 rest)))
  | [] => unpackErr

/-- `guid` (functions.py:803-812). -/
def guid : FuncDef := fun _ _ args =>
  match args with
  | a :: rest => .ok (fdata "guid" (hDict (("base_string", a) :: hEnum "extra_string_" 1 rest)))
  | [] => unpackErr

/-- `index_of` (functions.py:815-826). -/
def index_of : FuncDef := fun _ _ args =>
  match args with
  | [a, b] => .ok (fdata "index_of" [("string_to_search", a), ("string_to_find", b)])
  | _ => unpackErr

/-- `last_index_of` (functions.py:829-840). -/
def last_index_of : FuncDef := fun _ _ args =>
  match args with
  | [a, b] => .ok (fdata "last_index_of" [("string_to_search", a), ("string_to_find", b)])
  | _ => unpackErr

/-- `new_guid` (functions.py:843-844). -/
def new_guid : FuncDef := fun _ _ _ =>
  .ok (.dict [("type", .str "new_guid")])

/-- `pad_left` (functions.py:847-859). -/
def pad_left : FuncDef := fun _ _ args =>
  match args with
  | [a, b] => .ok (fdata "pad_left" [("value_to_pad", a), ("total_length", b), ("padding_character", .none)])
  | a :: b :: c :: _ => .ok (fdata "pad_left" [("value_to_pad", a), ("total_length", b), ("padding_character", c)])
  | _ => unpackErr

/-- `replace` (functions.py:862-874). -/
def replace : FuncDef := fun _ _ args =>
  match args with
  | [a, b, c] => .ok (fdata "replace" [("original_string", a), ("old_string", b), ("new_string", c)])
  | _ => unpackErr

/-- `split` (functions.py:877-888). -/
def split : FuncDef := fun _ _ args =>
  match args with
  | [a, b] => .ok (fdata "split" [("input_string", a), ("delimiter", b)])
  | _ => unpackErr

/-- `join` (functions.py:891-896). -/
def join : FuncDef := fun _ _ args =>
  match args with
  | [a, b] => .ok (fdata "join" [("input_array", a), ("delimiter", b)])
  | _ => unpackErr

/-- `starts_with` (functions.py:899-910). -/
def starts_with : FuncDef := fun _ _ args =>
  match args with
  | [a, b] => .ok (fdata "starts_with" [("string_to_search", a), ("string_to_find", b)])
  | _ => unpackErr

/-- `string_func` (functions.py:913-919). -/
def string_func : FuncDef := fun _ _ args =>
  match args with
  | a :: _ => .ok (fdata "string" [("value_to_convert", a)])
  | [] => .error .indexError

/-- `substring` (functions.py:922-934). -/
def substring : FuncDef := fun _ _ args =>
  match args with
  | [a, b] => .ok (fdata "substring" [("string_to_parse", a), ("start_index", b), ("length", .none)])
  | a :: b :: c :: _ => .ok (fdata "substring" [("string_to_parse", a), ("start_index", b), ("length", c)])
  | _ => unpackErr

/-- `to_lower` (functions.py:937-943). -/
def to_lower : FuncDef := fun _ _ args =>
  match args with
  | a :: _ => .ok (fdata "to_lower" [("string_to_change", a)])
  | [] => .error .indexError

/-- `to_upper` (functions.py:946-952). -/
def to_upper : FuncDef := fun _ _ args =>
  match args with
  | a :: _ => .ok (fdata "to_upper" [("string_to_change", a)])
  | [] => .error .indexError

/-- `trim` (functions.py:955-961). -/
def trim : FuncDef := fun _ _ args =>
  match args with
  | a :: _ => .ok (fdata "trim" [("string_to_trim", a)])
  | [] => .error .indexError

/-- `unique_string` (functions.py:964-973). -/
def unique_string : FuncDef := fun _ _ args =>
  match args with
  | a :: rest => .ok (fdata "unique_string" (hDict (("base_string", a) :: hEnum "extra_string_" 1 rest)))
  | [] => unpackErr

/-- `uri` (functions.py:976-985). -/
def uri : FuncDef := fun _ _ args =>
  match args with
  | [a, b] => .ok (fdata "uri" [("base_uri", a), ("relative_uri", b)])
  | _ => unpackErr

/-- `uri_component` (functions.py:988-994). -/
def uri_component : FuncDef := fun _ _ args =>
  match args with
  | a :: _ => .ok (fdata "uri_component" [("string_to_encode", a)])
  | [] => .error .indexError

/-- `uri_component_to_string` (functions.py:997-1005). -/
def uri_component_to_string : FuncDef := fun _ _ args =>
  match args with
  | a :: _ => .ok (fdata "uri_component_to_string" [("uri_encoded_string", a)])
  | [] => .error .indexError

/-! ### functions - unknown -/

/-- `unknown_func` (functions.py:1015-1019): placeholder for functions without a definition. -/
def unknown_func : FuncDef := fun _ name args =>
  .ok (.dict [("type", .str name), ("parameters", .dict (hDict (hEnum "arg_" 1 args)))])

/-- `FUNCTIONS` (functions.py:1028-1175). -/
def FUNCTIONS : List (String × FuncDef) := [
  ("any", any_func),
  ("sys.any", any_func),
  ("array", array_func),
  ("sys.array", array_func),
  ("concat", concat),
  ("sys.concat", concat),
  ("contains", contains),
  ("sys.contains", contains),
  ("empty", empty),
  ("sys.empty", empty),
  ("first", first),
  ("sys.first", first),
  ("flatten", flatten),
  ("sys.flatten", flatten),
  ("intersection", intersection),
  ("sys.intersection", intersection),
  ("last", last),
  ("sys.last", last),
  ("length", length),
  ("sys.length", length),
  ("max", max_func),
  ("sys.max", max_func),
  ("min", min_func),
  ("sys.min", min_func),
  ("range", range_func),
  ("sys.range", range_func),
  ("skip", skip),
  ("sys.skip", skip),
  ("take", take),
  ("sys.take", take),
  ("union", union),
  ("sys.union", union),
  ("dateTimeAdd", date_time_add),
  ("sys.dateTimeAdd", date_time_add),
  ("dateTimeFromEpoch", date_time_from_epoch),
  ("sys.dateTimeFromEpoch", date_time_from_epoch),
  ("dateTimeToEpoch", date_time_to_epoch),
  ("sys.dateTimeToEpoch", date_time_to_epoch),
  ("utcNow", utc_now),
  ("sys.utcNow", utc_now),
  ("deployment", deployment),
  ("az.deployment", deployment),
  ("environment", environment),
  ("az.environment", environment),
  ("loadFileAsBase64", load_file_as_base64),
  ("sys.loadFileAsBase64", load_file_as_base64),
  ("loadJsonContent", load_json_content),
  ("sys.loadJsonContent", load_json_content),
  ("loadTextContent", load_text_content),
  ("sys.loadTextContent", load_text_content),
  ("loadYamlContent", load_yaml_content),
  ("sys.loadYamlContent", load_yaml_content),
  ("filter", filter_func),
  ("sys.filter", filter_func),
  ("bool", bool_func),
  ("sys.bool", bool_func),
  ("int", int_func),
  ("sys.int", int_func),
  ("json", json_func),
  ("sys.json", json_func),
  ("extensionResourceId", extension_resource_id),
  ("az.extensionResourceId", extension_resource_id),
  ("listKeys", list_func),
  ("az.listKeys", list_func),
  ("managementGroupResourceId", management_group_resource_id),
  ("az.managementGroupResourceId", management_group_resource_id),
  ("pickZones", pick_zones),
  ("az.pickZones", pick_zones),
  ("reference", reference),
  ("az.reference", reference),
  ("resourceId", resource_id),
  ("az.resourceId", resource_id),
  ("subscriptionResourceId", subscription_resource_id),
  ("az.subscriptionResourceId", subscription_resource_id),
  ("tenantResourceId", tenant_resource_id),
  ("az.tenantResourceId", tenant_resource_id),
  ("managementGroup", management_group),
  ("az.managementGroup", management_group),
  ("resourceGroup", resource_group),
  ("az.resourceGroup", resource_group),
  ("subscription", subscription),
  ("az.subscription", subscription),
  ("tenant", tenant),
  ("az.tenant", tenant),
  ("base64", base64_func),
  ("sys.base64", base64_func),
  ("base64ToJson", base64_to_json),
  ("sys.base64ToJson", base64_to_json),
  ("base64ToString", base64_to_string),
  ("sys.base64ToString", base64_to_string),
  ("dataUri", data_uri),
  ("sys.dataUri", data_uri),
  ("dataUriToString", data_uri_to_string),
  ("sys.dataUriToString", data_uri_to_string),
  ("endsWith", ends_with),
  ("sys.endsWith", ends_with),
  ("format", format_func),
  ("sys.format", format_func),
  ("guid", guid),
  ("sys.guid", guid),
  ("indexOf", index_of),
  ("sys.indexOf", index_of),
  ("join", join),
  ("sys.join", join),
  ("lastIndexOf", last_index_of),
  ("sys.lastIndexOf", last_index_of),
  ("newGuid", new_guid),
  ("sys.newGuid", new_guid),
  ("padLeft", pad_left),
  ("sys.padLeft", pad_left),
  ("replace", replace),
  ("sys.replace", replace),
  ("split", split),
  ("sys.split", split),
  ("startsWith", starts_with),
  ("sys.startsWith", starts_with),
  ("string", string_func),
  ("sys.string", string_func),
  ("substring", substring),
  ("sys.substring", substring),
  ("toLower", to_lower),
  ("sys.toLower", to_lower),
  ("toUpper", to_upper),
  ("sys.toUpper", to_upper),
  ("trim", trim),
  ("sys.trim", trim),
  ("uniqueString", unique_string),
  ("sys.uniqueString", unique_string),
  ("uri", uri),
  ("sys.uri", uri),
  ("uriComponent", uri_component),
  ("sys.uriComponent", uri_component),
  ("uriComponentToString", uri_component_to_string),
  ("sys.uriComponentToString", uri_component_to_string)]

/-- `FUNCTIONS.get(name, UNKNOWN_FUNCTION)` (transformer.py:618, functions.py:1177). -/
def getFunction (name : String) : FuncDef :=
  match FUNCTIONS.lookup name with
  | some f => f
  | .none => unknown_func

end Pycep.HFunctions
