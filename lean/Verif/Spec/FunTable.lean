import Verif.Spec.Sem
/-
Which functions are known, how many arguments each of them takes and under which names its
arguments are reported.  A table, to be read beside the documentation of Bicep; it shares nothing
with the model of functions.py but the names it reports.
-/
namespace Pycep

/-- where a reported parameter comes from -/
inductive Src where
  /-- the argument with this index, counting from 0 -/
  | arg (i : Nat)
  /-- an optional argument that was not given: `None` -/
  | absent
  /-- a fixed text -/
  | text (s : String)

/-- the value of a reported parameter -/
def Src.val (args : List Val) : Src → Val
  | .arg i => args[i]?.getD .none
  | .absent => .none
  | .text s => .str s

/-- what is reported about a call -/
inductive Report where
  /-- the call is refused: an exception -/
  | refused
  /-- the type of the function, no parameters -/
  | bare
  /-- the type of the function and these parameters -/
  | params (ps : List (String × Src))

/-- a known function -/
structure Signature where
  /-- prefix under which it is known, too -/
  ns : String
  name : String
  /-- reported type -/
  type : String
  /-- what is reported, depending on the arguments -/
  report : List Val → Report

namespace Signature

/-- `(k1, first argument), (k2, second argument), ...` -/
def firsts : Nat → List String → List (String × Src)
  | _, [] => []
  | i, k :: ks => (k, .arg i) :: firsts (i + 1) ks

/-- `n` arguments from index `i`, under numbered names -/
def rest (pre : String) (start i : Nat) : Nat → List (String × Src)
  | 0 => []
  | n + 1 => (pre ++ toString start, .arg i) :: rest pre (start + 1) (i + 1) n

/-- optional arguments: `None` from index `n` on -/
def given (n : Nat) : Nat → List String → List (String × Src)
  | _, [] => []
  | i, k :: ks => (k, if i < n then .arg i else .absent) :: given n (i + 1) ks

/-- exactly these arguments -/
def exactly (ks : List String) (args : List Val) : Report :=
  if args.length = ks.length then .params (firsts 0 ks) else .refused

/-- these arguments; further ones are ignored -/
def atLeast (ks : List String) (args : List Val) : Report :=
  if args.length < ks.length then .refused else .params (firsts 0 ks)

/-- at least `r` of these arguments; further ones are ignored -/
def someOf (r : Nat) (ks : List String) (args : List Val) : Report :=
  if args.length < r then .refused else .params (given args.length 0 ks)

/-- these arguments and any number of further ones, numbered from `start` -/
def variadic (ks : List String) (pre : String) (start : Nat) (args : List Val) : Report :=
  if args.length < ks.length then .refused
  else .params (firsts 0 ks ++ rest pre start ks.length (args.length - ks.length))

/-- no parameters are reported, whatever the arguments are -/
def bare (_ : List Val) : Report := .bare

/-- one to three arguments; with more than three only the first one is reported -/
def upToThree (ks : List String) (args : List Val) : Report :=
  if args.length = 0 then .refused
  else .params (given (if args.length ≤ 3 then args.length else 1) 0 ks)

/-- `pickZones`: an offset is only reported if there are exactly five arguments -/
def pickZones (args : List Val) : Report :=
  if args.length < 3 then .refused
  else .params (given (if args.length = 5 then 5 else min args.length 4) 0
    ["provider_namespace", "resource_type", "location", "number_of_zones", "offset"])

/-- `resourceId`: two or three arguments are a type and names, four start with a resource group,
five or more with subscription and resource group -/
def resourceId (args : List Val) : Report :=
  match args.length with
  | 0 | 1 => .refused
  | 2 => .params [("resource_type", .arg 0), ("resource_name_1", .arg 1),
      ("resource_name_2", .absent), ("resource_group_name", .absent), ("subscription_id", .absent)]
  | 3 => .params [("resource_type", .arg 0), ("resource_name_1", .arg 1),
      ("resource_name_2", .arg 2), ("resource_group_name", .absent), ("subscription_id", .absent)]
  | 4 => .params [("resource_type", .arg 1), ("resource_name_1", .arg 2),
      ("resource_name_2", .arg 3), ("resource_group_name", .arg 0), ("subscription_id", .absent)]
  | n + 5 => .params (("resource_type", .arg 2) :: rest "resource_name_" 1 3 (n + 2) ++
      [("resource_group_name", .arg 1), ("subscription_id", .arg 0)])

/-- `subscriptionResourceId`: four or more arguments start with a subscription -/
def subscriptionResourceId (args : List Val) : Report :=
  match args.length with
  | 0 | 1 => .refused
  | 2 => .params [("resource_type", .arg 0), ("resource_name_1", .arg 1),
      ("resource_name_2", .absent), ("subscription_id", .absent)]
  | 3 => .params [("resource_type", .arg 0), ("resource_name_1", .arg 1),
      ("resource_name_2", .arg 2), ("subscription_id", .absent)]
  | _ => .params [("resource_type", .arg 1), ("resource_name_1", .arg 2),
      ("resource_name_2", .arg 3), ("subscription_id", .arg 0)]

/-- `resourceGroup`: a name, or a subscription and a name; with two arguments one of which is empty
(`None`, `false`, 0, an empty text, list or dictionary) the first one counts as the name -/
def resourceGroup (args : List Val) : Report :=
  match args with
  | [_] => .params [("resource_group_name", .arg 0), ("subscription_id", .absent)]
  | [a, b] => if a.truthy ∧ b.truthy
      then .params [("resource_group_name", .arg 1), ("subscription_id", .arg 0)]
      else .params [("resource_group_name", .arg 0), ("subscription_id", .arg 1)]
  | _ => .params [("resource_group_name", .absent), ("subscription_id", .absent)]

/-- `listKeys` -/
def listKeys (args : List Val) : Report :=
  if args.length = 2 then .params [("func_name", .text "listKeys"),
    ("resource_identifier", .arg 0), ("api_version", .arg 1)] else .refused

end Signature

open Signature in
/-- The known functions. -/
def signatures : List Signature := [
  -- any
  ⟨"sys", "any", "any", atLeast ["value"]⟩,
  -- array
  ⟨"sys", "array", "array", atLeast ["convert_to_array"]⟩,
  ⟨"sys", "concat", "concat", variadic ["arg_1"] "arg_" 2⟩,
  ⟨"sys", "contains", "contains", exactly ["container", "item_to_find"]⟩,
  ⟨"sys", "empty", "empty", atLeast ["item_to_test"]⟩,
  ⟨"sys", "first", "first", atLeast ["arg_1"]⟩,
  ⟨"sys", "flatten", "flatten", atLeast ["array_to_flattern"]⟩,
  ⟨"sys", "intersection", "intersection", variadic ["arg_1", "arg_2"] "arg_" 3⟩,
  ⟨"sys", "last", "last", atLeast ["arg_1"]⟩,
  ⟨"sys", "length", "length", atLeast ["arg_1"]⟩,
  ⟨"sys", "max", "max", variadic ["arg_1"] "arg_" 2⟩,
  ⟨"sys", "min", "min", variadic ["arg_1"] "arg_" 2⟩,
  ⟨"sys", "range", "range", exactly ["start_index", "count"]⟩,
  ⟨"sys", "skip", "skip", exactly ["original_value", "number_to_skip"]⟩,
  ⟨"sys", "take", "take", exactly ["original_value", "number_to_take"]⟩,
  ⟨"sys", "union", "union", variadic ["arg_1", "arg_2"] "arg_" 3⟩,
  -- date
  ⟨"sys", "dateTimeAdd", "date_time_add", someOf 2 ["base", "duration", "format"]⟩,
  ⟨"sys", "dateTimeFromEpoch", "date_time_from_epoch", atLeast ["epoch_time"]⟩,
  ⟨"sys", "dateTimeToEpoch", "date_time_to_epoch", atLeast ["date_time"]⟩,
  ⟨"sys", "utcNow", "utc_now", someOf 0 ["format"]⟩,
  -- deployment
  ⟨"az", "deployment", "deployment", bare⟩,
  ⟨"az", "environment", "environment", bare⟩,
  -- file
  ⟨"sys", "loadFileAsBase64", "load_file_as_base64", atLeast ["file_path"]⟩,
  ⟨"sys", "loadJsonContent", "load_json_content", upToThree ["file_path", "json_path", "encoding"]⟩,
  ⟨"sys", "loadTextContent", "load_text_content", someOf 1 ["file_path", "encoding"]⟩,
  ⟨"sys", "loadYamlContent", "load_yaml_content", upToThree ["file_path", "path_filter", "encoding"]⟩,
  -- lambda
  ⟨"sys", "filter", "filter", exactly ["input_array", "expression"]⟩,
  -- logical, numeric, object
  ⟨"sys", "bool", "bool", atLeast ["arg_1"]⟩,
  ⟨"sys", "int", "int", atLeast ["value_to_convert"]⟩,
  ⟨"sys", "json", "json", atLeast ["arg_1"]⟩,
  -- resource
  ⟨"az", "extensionResourceId", "extension_resource_id",
    someOf 3 ["resource_id", "resource_type", "resource_name_1", "resource_name_2"]⟩,
  ⟨"az", "listKeys", "list_func", listKeys⟩,
  ⟨"az", "managementGroupResourceId", "management_group_resource_id",
    someOf 2 ["resource_type", "resource_name_1", "resource_name_2"]⟩,
  ⟨"az", "pickZones", "pick_zones", pickZones⟩,
  ⟨"az", "reference", "reference", upToThree ["resource_identifier", "api_version", "full"]⟩,
  ⟨"az", "resourceId", "resource_id", resourceId⟩,
  ⟨"az", "subscriptionResourceId", "subscription_resource_id", subscriptionResourceId⟩,
  ⟨"az", "tenantResourceId", "tenant_resource_id",
    someOf 2 ["resource_type", "resource_name_1", "resource_name_2"]⟩,
  -- scope
  ⟨"az", "managementGroup", "management_group", someOf 0 ["identifier"]⟩,
  ⟨"az", "resourceGroup", "resource_group", resourceGroup⟩,
  ⟨"az", "subscription", "subscription", someOf 0 ["subscription_id"]⟩,
  ⟨"az", "tenant", "tenant", bare⟩,
  -- string
  ⟨"sys", "base64", "base64", atLeast ["input_string"]⟩,
  ⟨"sys", "base64ToJson", "base64_to_json", atLeast ["base64_value"]⟩,
  ⟨"sys", "base64ToString", "base64_to_string", atLeast ["base64_value"]⟩,
  ⟨"sys", "dataUri", "data_uri", atLeast ["string_to_convert"]⟩,
  ⟨"sys", "dataUriToString", "data_uri_to_string", atLeast ["data_uri_to_convert"]⟩,
  ⟨"sys", "endsWith", "ends_with", exactly ["string_to_search", "string_to_find"]⟩,
  ⟨"sys", "format", "format", variadic ["format_string"] "arg_" 1⟩,
  ⟨"sys", "guid", "guid", variadic ["base_string"] "extra_string_" 1⟩,
  ⟨"sys", "indexOf", "index_of", exactly ["string_to_search", "string_to_find"]⟩,
  ⟨"sys", "join", "join", exactly ["input_array", "delimiter"]⟩,
  ⟨"sys", "lastIndexOf", "last_index_of", exactly ["string_to_search", "string_to_find"]⟩,
  ⟨"sys", "newGuid", "new_guid", bare⟩,
  ⟨"sys", "padLeft", "pad_left", someOf 2 ["value_to_pad", "total_length", "padding_character"]⟩,
  ⟨"sys", "replace", "replace", exactly ["original_string", "old_string", "new_string"]⟩,
  ⟨"sys", "split", "split", exactly ["input_string", "delimiter"]⟩,
  ⟨"sys", "startsWith", "starts_with", exactly ["string_to_search", "string_to_find"]⟩,
  ⟨"sys", "string", "string", atLeast ["value_to_convert"]⟩,
  ⟨"sys", "substring", "substring", someOf 2 ["string_to_parse", "start_index", "length"]⟩,
  ⟨"sys", "toLower", "to_lower", atLeast ["string_to_change"]⟩,
  ⟨"sys", "toUpper", "to_upper", atLeast ["string_to_change"]⟩,
  ⟨"sys", "trim", "trim", atLeast ["string_to_trim"]⟩,
  ⟨"sys", "uniqueString", "unique_string", variadic ["base_string"] "extra_string_" 1⟩,
  ⟨"sys", "uri", "uri", exactly ["base_uri", "relative_uri"]⟩,
  ⟨"sys", "uriComponent", "uri_component", atLeast ["string_to_encode"]⟩,
  ⟨"sys", "uriComponentToString", "uri_component_to_string", atLeast ["uri_encoded_string"]⟩]

/-- the names under which a function is known -/
def Signature.names (s : Signature) : List String := [s.name, s.ns ++ "." ++ s.name]

/-- `FunVal f args v`: a call of the function named `f` with these arguments is reported as `v`. -/
inductive FunVal (f : String) (args : List Val) : Val → Prop where
  /-- a known function -/
  | known {s ps} : s ∈ signatures → f ∈ s.names → s.report args = .params ps →
      FunVal f args (.dict [("type", .str s.type),
        ("parameters", .dict (ps.map (fun p => (p.1, p.2.val args))))])
  /-- a known function without parameters -/
  | bare {s} : s ∈ signatures → f ∈ s.names → s.report args = .bare →
      FunVal f args (.dict [("type", .str s.type)])
  /-- any other function: its name and its arguments, numbered from 1 -/
  | unknown : (∀ s ∈ signatures, f ∉ s.names) →
      FunVal f args (.dict [("type", .str f), ("parameters", .dict (numbered "arg_" 1 args))])

end Pycep
