import Verif.Spec.FunTable
import Verif.Spec.Typing
/-
The types that `pycep/typing.py` publishes for expressions: functions, operators, lambda
expressions, loops, conditions and decorators. Of a `TypedDict` the keys are taken over: which are
required, which are optional, and where a comment says that many more are possible. The types of
the values at these keys are those of other expressions and are not repeated.
-/
namespace Pycep

/-- the keys of a `TypedDict` -/
structure Keys where
  /-- required keys -/
  req : List String
  /-- `NotRequired` keys -/
  opt : List String := []
  /-- `# and many more possible`: what is in front of their numbers -/
  more : Option String := .none

/-- A dictionary with the keys `ks` has the type: all required keys and no unknown ones. -/
def Keys.Covers (k : Keys) (ks : List String) : Prop :=
  (∀ x ∈ k.req, x ∈ ks) ∧
    ∀ x ∈ ks, x ∈ k.req ∨ x ∈ k.opt ∨ ∃ pre n, k.more = some pre ∧ x = pre ++ toString (n : Nat)

/-- a published function type: its name in Bicep with the prefix under which it is known, too; the
literal of `type`; the keys of `parameters` unless there are none -/
structure FunTy where
  ns : String
  name : String
  type : String
  params : Option Keys

/-- the names of a function -/
def FunTy.names (t : FunTy) : List String := [t.name, t.ns ++ "." ++ t.name]

/-- `v` has the type -/
inductive FunTy.Has (t : FunTy) : Val → Prop where
  | bare : t.params = .none → FunTy.Has t (.dict [("type", .str t.type)])
  | params {k d} : t.params = some k → (d.map Prod.fst).Nodup → k.Covers (d.map Prod.fst) →
      FunTy.Has t (.dict [("type", .str t.type), ("parameters", .dict d)])

/-- the functions of typing.py:484-1144, with the lines of the function and of its parameters -/
def publishedFunctions : List FunTy := [
  -- AnyFunc: 497, 493
  ⟨"sys", "any", "any", some { req := ["value"] }⟩,
  -- Array: 513, 509
  ⟨"sys", "array", "array", some { req := ["convert_to_array"] }⟩,
  -- Concat: 518, 615
  ⟨"sys", "concat", "concat", some { req := ["arg_1", "arg_2"], opt := ["arg_3"], more := some "arg_" }⟩,
  -- Contains: 528, 523
  ⟨"sys", "contains", "contains", some { req := ["container", "item_to_find"] }⟩,
  -- Empty: 537, 533
  ⟨"sys", "empty", "empty", some { req := ["item_to_test"] }⟩,
  -- First: 542, 566
  ⟨"sys", "first", "first", some { req := ["arg_1"] }⟩,
  -- Flatten: 551, 547
  ⟨"sys", "flatten", "flatten", some { req := ["array_to_flattern"] }⟩,
  -- Intersection: 556, 615
  ⟨"sys", "intersection", "intersection", some { req := ["arg_1", "arg_2"], opt := ["arg_3"], more := some "arg_" }⟩,
  -- Last: 561, 566
  ⟨"sys", "last", "last", some { req := ["arg_1"] }⟩,
  -- Length: 570, 566
  ⟨"sys", "length", "length", some { req := ["arg_1"] }⟩,
  -- Max: 575, 615
  ⟨"sys", "max", "max", some { req := ["arg_1", "arg_2"], opt := ["arg_3"], more := some "arg_" }⟩,
  -- Min: 580, 615
  ⟨"sys", "min", "min", some { req := ["arg_1", "arg_2"], opt := ["arg_3"], more := some "arg_" }⟩,
  -- Range: 590, 585
  ⟨"sys", "range", "range", some { req := ["start_index", "count"] }⟩,
  -- Skip: 600, 595
  ⟨"sys", "skip", "skip", some { req := ["original_value", "number_to_skip"] }⟩,
  -- Take: 610, 605
  ⟨"sys", "take", "take", some { req := ["original_value", "number_to_take"] }⟩,
  -- UnionFunc: 621, 615
  ⟨"sys", "union", "union", some { req := ["arg_1", "arg_2"], opt := ["arg_3"], more := some "arg_" }⟩,
  -- DateTimeAdd: 639, 633
  ⟨"sys", "dateTimeAdd", "date_time_add", some { req := ["base", "duration", "format"] }⟩,
  -- DateTimeFromEpoch: 648, 644
  ⟨"sys", "dateTimeFromEpoch", "date_time_from_epoch", some { req := ["epoch_time"] }⟩,
  -- DateTimeToEpoch: 657, 653
  ⟨"sys", "dateTimeToEpoch", "date_time_to_epoch", some { req := ["date_time"] }⟩,
  -- UtcNow: 666, 662
  ⟨"sys", "utcNow", "utc_now", some { req := ["format"] }⟩,
  -- Deployment: 678
  ⟨"az", "deployment", "deployment", .none⟩,
  -- Environment: 682
  ⟨"az", "environment", "environment", .none⟩,
  -- LoadFileAsBase64: 697, 693
  ⟨"sys", "loadFileAsBase64", "load_file_as_base64", some { req := ["file_path"] }⟩,
  -- LoadJsonContent: 708, 702
  ⟨"sys", "loadJsonContent", "load_json_content", some { req := ["file_path", "json_path", "encoding"] }⟩,
  -- LoadTextContent: 729, 724
  ⟨"sys", "loadTextContent", "load_text_content", some { req := ["file_path", "encoding"] }⟩,
  -- LoadYamlContent: 719, 713
  ⟨"sys", "loadYamlContent", "load_yaml_content", some { req := ["file_path", "path_filter", "encoding"] }⟩,
  -- Filter: 746, 741
  ⟨"sys", "filter", "filter", some { req := ["input_array", "expression"] }⟩,
  -- BoolFunc: 758, 782
  ⟨"sys", "bool", "bool", some { req := ["arg_1"] }⟩,
  -- IntFunc: 770, 1071
  ⟨"sys", "int", "int", some { req := ["value_to_convert"] }⟩,
  -- Json: 786, 782
  ⟨"sys", "json", "json", some { req := ["arg_1"] }⟩,
  -- ExtensionResourceId: 805, 798
  ⟨"az", "extensionResourceId", "extension_resource_id",
    some { req := ["resource_id", "resource_type", "resource_name_1", "resource_name_2"] }⟩,
  -- ListFunc: 816, 810
  ⟨"az", "listKeys", "list_func", some { req := ["func_name", "resource_identifier", "api_version"] }⟩,
  -- ManagementGroupResourceId: 821, 875
  ⟨"az", "managementGroupResourceId", "management_group_resource_id",
    some { req := ["resource_type", "resource_name_1", "resource_name_2"] }⟩,
  -- PickZones: 834, 826
  ⟨"az", "pickZones", "pick_zones",
    some { req := ["provider_namespace", "resource_type", "location", "number_of_zones", "offset"] }⟩,
  -- Reference: 845, 839
  ⟨"az", "reference", "reference", some { req := ["resource_identifier", "api_version", "full"] }⟩,
  -- ResourceId: 858, 850
  ⟨"az", "resourceId", "resource_id",
    some { req := ["resource_type", "resource_name_1", "resource_name_2", "resource_group_name", "subscription_id"] }⟩,
  -- SubscriptionResourceId: 870, 863
  ⟨"az", "subscriptionResourceId", "subscription_resource_id",
    some { req := ["resource_type", "resource_name_1", "resource_name_2", "subscription_id"] }⟩,
  -- TenantResourceId: 881, 875
  ⟨"az", "tenantResourceId", "tenant_resource_id", some { req := ["resource_type", "resource_name_1", "resource_name_2"] }⟩,
  -- ManagementGroup: 897, 893
  ⟨"az", "managementGroup", "management_group", some { req := ["identifier"] }⟩,
  -- ResourceGroup: 907, 902
  ⟨"az", "resourceGroup", "resource_group", some { req := ["resource_group_name", "subscription_id"] }⟩,
  -- Subscription: 916, 912
  ⟨"az", "subscription", "subscription", some { req := ["subscription_id"] }⟩,
  -- Tenant: 921
  ⟨"az", "tenant", "tenant", .none⟩,
  -- Base64: 936, 932
  ⟨"sys", "base64", "base64", some { req := ["input_string"] }⟩,
  -- Base64ToJson: 945, 941
  ⟨"sys", "base64ToJson", "base64_to_json", some { req := ["base64_value"] }⟩,
  -- Base64ToString: 950, 941
  ⟨"sys", "base64ToString", "base64_to_string", some { req := ["base64_value"] }⟩,
  -- DataUri: 959, 955
  ⟨"sys", "dataUri", "data_uri", some { req := ["string_to_convert"] }⟩,
  -- DataUriToString: 968, 964
  ⟨"sys", "dataUriToString", "data_uri_to_string", some { req := ["data_uri_to_convert"] }⟩,
  -- EndsWith: 973, 1061
  ⟨"sys", "endsWith", "ends_with", some { req := ["string_to_search", "string_to_find"] }⟩,
  -- Format: 984, 978
  ⟨"sys", "format", "format", some { req := ["format_string", "arg_1"], opt := ["arg_2"], more := some "arg_" }⟩,
  -- Guid: 994, 989
  ⟨"sys", "guid", "guid", some { req := ["base_string"], opt := ["extra_string_1"], more := some "extra_string_" }⟩,
  -- IndexOf: 1004, 999
  ⟨"sys", "indexOf", "index_of", some { req := ["string_to_search", "string_to_find"] }⟩,
  -- Join: 1056, 1051
  ⟨"sys", "join", "join", some { req := ["input_array", "delimiter"] }⟩,
  -- LastIndexOf: 1009, 999
  ⟨"sys", "lastIndexOf", "last_index_of", some { req := ["string_to_search", "string_to_find"] }⟩,
  -- NewGuid: 1014
  ⟨"sys", "newGuid", "new_guid", .none⟩,
  -- PadLeft: 1024, 1018
  ⟨"sys", "padLeft", "pad_left", some { req := ["value_to_pad", "total_length", "padding_character"] }⟩,
  -- Replace: 1035, 1029
  ⟨"sys", "replace", "replace", some { req := ["original_string", "old_string", "new_string"] }⟩,
  -- Split: 1045, 1040
  ⟨"sys", "split", "split", some { req := ["input_string", "delimiter"] }⟩,
  -- StartsWith: 1066, 1061
  ⟨"sys", "startsWith", "starts_with", some { req := ["string_to_search", "string_to_find"] }⟩,
  -- String: 1075, 1071
  ⟨"sys", "string", "string", some { req := ["value_to_convert"] }⟩,
  -- Substring: 1086, 1080
  ⟨"sys", "substring", "substring", some { req := ["string_to_parse", "start_index", "length"] }⟩,
  -- ToLower: 1095, 1091
  ⟨"sys", "toLower", "to_lower", some { req := ["string_to_change"] }⟩,
  -- ToUpper: 1100, 1091
  ⟨"sys", "toUpper", "to_upper", some { req := ["string_to_change"] }⟩,
  -- Trim: 1109, 1105
  ⟨"sys", "trim", "trim", some { req := ["string_to_trim"] }⟩,
  -- UniqueString: 1114, 989
  ⟨"sys", "uniqueString", "unique_string",
    some { req := ["base_string"], opt := ["extra_string_1"], more := some "extra_string_" }⟩,
  -- Uri: 1124, 1119
  ⟨"sys", "uri", "uri", some { req := ["base_uri", "relative_uri"] }⟩,
  -- UriComponent: 1133, 1129
  ⟨"sys", "uriComponent", "uri_component", some { req := ["string_to_encode"] }⟩,
  -- UriComponentToString: 1142, 1138
  ⟨"sys", "uriComponentToString", "uri_component_to_string", some { req := ["uri_encoded_string"] }⟩]

/-- Calls that are accepted although the published type has no room for them: one argument where
two are required, and `resourceId` with more than two names behind subscription and resource
group. -/
def Deviates (name : String) (n : Nat) : Prop :=
  (name ∈ ["concat", "max", "min", "format"] ∧ n = 1) ∨ (name = "resourceId" ∧ 6 ≤ n)

/-- `UnknownFunction` (typing.py:1159-1168): the keys of `parameters` -/
def unknownFunctionKeys : Keys :=
  { req := [], opt := ["arg_1", "arg_2", "arg_3"], more := some "arg_" }

/-- the operators of typing.py:1188-1373: literal of `type`, keys of `operands` -/
def publishedOperators : List (String × Keys) := [
  -- GreaterThanOrEquals: 1193, 1188
  ("greater_than_or_equals", { req := ["operand_1", "operand_2"] }),
  -- GreaterThan: 1198, 1188
  ("greater_than", { req := ["operand_1", "operand_2"] }),
  -- LessThanOrEquals: 1203, 1188
  ("less_than_or_equals", { req := ["operand_1", "operand_2"] }),
  -- LessThan: 1208, 1188
  ("less_than", { req := ["operand_1", "operand_2"] }),
  -- Equals: 1213, 1188
  ("equals", { req := ["operand_1", "operand_2"] }),
  -- NotEquals: 1218, 1188
  ("not_equals", { req := ["operand_1", "operand_2"] }),
  -- EqualsCaseInsensitive: 1223, 1188
  ("equals_case_insensitive", { req := ["operand_1", "operand_2"] }),
  -- NotEqualsCaseInsensitive: 1228, 1188
  ("not_equals_case_insensitive", { req := ["operand_1", "operand_2"] }),
  -- And: 1246, 1240
  ("and", { req := ["operand_1", "operand_2"], opt := ["operand_3"], more := some "operand_" }),
  -- Or: 1251, 1240
  ("or", { req := ["operand_1", "operand_2"], opt := ["operand_3"], more := some "operand_" }),
  -- Not: 1260, 1256
  ("not", { req := ["bool_value"] }),
  -- Coalesce: 1265, 1240
  ("coalesce", { req := ["operand_1", "operand_2"], opt := ["operand_3"], more := some "operand_" }),
  -- Conditional: 1276, 1270
  ("conditional", { req := ["condition", "true_value", "false_value"] }),
  -- Add: 1288, 1317
  ("add", { req := ["operand_1", "operand_2"] }),
  -- Divide: 1293, 1317
  ("divide", { req := ["operand_1", "operand_2"] }),
  -- Minus: 1302, 1298
  ("minus", { req := ["integer_value"] }),
  -- Modulo: 1307, 1317
  ("modulo", { req := ["operand_1", "operand_2"] }),
  -- Multiply: 1312, 1317
  ("multiply", { req := ["operand_1", "operand_2"] }),
  -- Substract: 1322, 1317
  ("substract", { req := ["operand_1", "operand_2"] }),
  -- IndexAccessor: 1339, 1334
  ("index_accessor", { req := ["operand_1", "operand_2"] }),
  -- FunctionAccessor: 1350, 1344
  ("function_accessor", { req := ["operand_1", "func_name"], opt := ["operand_2"], more := some "operand_" }),
  -- NestedResourceAccessor: 1360, 1355
  ("nested_resource_accessor", { req := ["operand_1", "operand_2"] }),
  -- PropertyAccessor: 1370, 1365
  ("property_accessor", { req := ["operand_1", "operand_2"] })]

/-- `{operator: {type: ..., operands: {...}}}` (typing.py:1177-1178) of one of the published types -/
def IsOperator (v : Val) : Prop :=
  ∃ l k d, v = .dict [("operator", .dict [("type", .str l), ("operands", .dict d)])] ∧
    (l, k) ∈ publishedOperators ∧ (d.map Prod.fst).Nodup ∧ k.Covers (d.map Prod.fst)

/-- `LambdaExpression` (typing.py:463-472) -/
def IsLambda (v : Val) : Prop :=
  ∃ d e, v = .dict [("type", .str "lambda_expression"), ("detail", .dict (d ++ [("expression", e)]))] ∧
    ((d ++ [("expression", e)]).map Prod.fst).Nodup ∧
    Keys.Covers { req := ["var_1", "expression"], opt := ["var_2", "var_3"] }
      ((d ++ [("expression", e)]).map Prod.fst) ∧ ∀ p ∈ d, ∃ s, p.2 = .str s

/-- types of the values in the description of a loop head -/
inductive Slot where
  /-- `str` -/
  | text
  /-- `str | None` -/
  | textOrNone
  /-- `PossibleValue` -/
  | value

/-- `v` has such a type -/
inductive Slot.Has : Slot → Val → Prop where
  | text {s} : Slot.Has .text (.str s)
  | some {s} : Slot.Has .textOrNone (.str s)
  | none : Slot.Has .textOrNone .none
  | value {v} : Slot.Has .value v

/-- the literals and keys of `LoopType` (typing.py:14, 336-376) -/
def publishedHeads : List (String × List (String × Slot)) := [
  ("range", [("item_name", .textOrNone), ("index_name", .text), ("start_index", .value), ("count", .value)]),
  ("array", [("item_name", .text), ("array_name", .value)]),
  ("array_index", [("item_name", .text), ("index_name", .text), ("array_name", .value)]),
  ("object", [("item_name", .text), ("object_name", .text)])]

/-- `LoopType` -/
def IsHead (v : Val) : Prop :=
  ∃ t ks d, v = .dict [("type", .str t), ("detail", .dict d)] ∧ (t, ks) ∈ publishedHeads ∧
    List.Forall₂ (fun (k : String × Slot) (p : String × Val) => k.1 = p.1 ∧ k.2.Has p.2) ks d

/-- `Loop` (typing.py:379-382) -/
def IsLoop (v : Val) : Prop :=
  ∃ h c d, v = .dict [("loop_type", h), ("condition", c), ("config", .dict d)] ∧ IsHead h

/-- `DeployCondition` (typing.py:392-394) -/
def IsCondition (v : Val) : Prop := ∃ c d, v = .dict [("condition", c), ("config", .dict d)]

/-- the known decorators (typing.py:404-453): name, literal of `type`, whether there is an argument -/
def publishedDecorators : List (String × String × Bool) := [
  ("allowed", "allowed", true), ("batchSize", "batchSize", true), ("description", "description", true),
  ("export", "export", false), ("minLength", "min_length", true), ("maxLength", "max_length", true),
  ("minValue", "min_value", true), ("maxValue", "max_value", true), ("metadata", "metadata", true),
  ("sealed", "sealed", false), ("secure", "secure", false)]

end Pycep
