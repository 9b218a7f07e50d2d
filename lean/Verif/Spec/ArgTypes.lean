import Verif.Spec.Published
import Verif.Spec.Possible
import Verif.Spec.DecoTable
/-
The types that `pycep/typing.py` publishes for single arguments of functions, operators and
decorators, and the arguments whose values have them.
-/
namespace Pycep

/-- types of arguments -/
inductive ArgTy where
  /-- `PossibleValue` -/
  | value
  /-- `PossibleNoneValue` (typing.py:8) -/
  | valueOrNone
  /-- `str` -/
  | text
  /-- `str | None` -/
  | textOrNone
  /-- `int`; of which `bool` is a subtype -/
  | int
  /-- `bool | str` -/
  | boolOrText
  /-- `list[int | str]` -/
  | atoms
  /-- `dict[str, Any]` -/
  | anyDict

/-- `v` has the type.  Identifiers are reported as `BicepElement`, a subclass of `str` (models.py). -/
inductive ArgTy.Has : ArgTy → Val → Prop where
  | value {v} : v.Possible → Has .value v
  | possible {v} : v.Possible → Has .valueOrNone v
  | noValue : Has .valueOrNone .none
  | str {s} : Has .text (.str s)
  | elem {s} : Has .text (.elem s)
  | someStr {s} : Has .textOrNone (.str s)
  | someElem {s} : Has .textOrNone (.elem s)
  | noText : Has .textOrNone .none
  | int {i} : Has .int (.int i)
  | isBool {b} : Has .int (.bool b)
  | bool {b} : Has .boolOrText (.bool b)
  | orStr {s} : Has .boolOrText (.str s)
  | orElem {s} : Has .boolOrText (.elem s)
  | atoms {l : List Val} : (∀ v ∈ l, v.Atom) → Has .atoms (.list l)
  | anyDict {d} : Has .anyDict (.dict d)

/-- texts and identifiers -/
def Expr.IsText : Expr → Prop
  | .ident _ | .str _ | .multi _ => True
  | _ => False

/-- `true` and `false` -/
def Expr.IsBool : Expr → Prop
  | .tru | .fls => True
  | _ => False

/-- integers, which must not be negative: `-1` is an operator and an integer -/
def Expr.IsInt : Expr → Prop
  | .int _ => True
  | _ => False

/-- the expressions that are reported with the type -/
def ArgTy.Fits (ln : Bool) : ArgTy → Expr → Prop
  | .value, e => e.Fits ln
  | .valueOrNone, e => e = .null ∨ e.Fits ln
  | .text, e => e.IsText
  | .textOrNone, e => e = .null ∨ e.IsText
  | .int, e => e.IsInt ∨ e.IsBool
  | .boolOrText, e => e.IsBool ∨ e.IsText
  | .atoms, e => ∃ es, e = .array es ∧ ∀ x ∈ es, x.Single
  | .anyDict, e => e ≠ .null ∧ ¬ e.Single ∧ ∀ es, e ≠ .array es

/-- the parameters of a function: the types of its keys, and of the further ones where a comment says
`and many more possible` -/
structure ArgRow where
  name : String
  keys : List (String × ArgTy)
  more : Option (String × ArgTy)

/-- the type published for a key -/
def ArgRow.ty (r : ArgRow) (k : String) : ArgTy :=
  (r.keys.lookup k).getD ((r.more.map Prod.snd).getD .value)

/-- the parameters of typing.py:484-1144, with the lines of the classes -/
def publishedArgs : List ArgRow := [
  -- _AnyParameters: 493
  ⟨"any", [("value", .value)], .none⟩,
  -- _ArrayParameters: 509
  ⟨"array", [("convert_to_array", .value)], .none⟩,
  -- _UnionParameters: 615
  ⟨"concat", [("arg_1", .text), ("arg_2", .text), ("arg_3", .text)], some ("arg_", .text)⟩,
  -- _ContainsParameters: 523
  ⟨"contains", [("container", .value), ("item_to_find", .value)], .none⟩,
  -- _EmptyParameters: 533
  ⟨"empty", [("item_to_test", .value)], .none⟩,
  -- _LengthParameters: 566
  ⟨"first", [("arg_1", .value)], .none⟩,
  -- _FlattenParameters: 547
  ⟨"flatten", [("array_to_flattern", .value)], .none⟩,
  -- _UnionParameters: 615
  ⟨"intersection", [("arg_1", .text), ("arg_2", .text), ("arg_3", .text)], some ("arg_", .text)⟩,
  -- _LengthParameters: 566
  ⟨"last", [("arg_1", .value)], .none⟩,
  -- _LengthParameters: 566
  ⟨"length", [("arg_1", .value)], .none⟩,
  -- _UnionParameters: 615
  ⟨"max", [("arg_1", .text), ("arg_2", .text), ("arg_3", .text)], some ("arg_", .text)⟩,
  -- _UnionParameters: 615
  ⟨"min", [("arg_1", .text), ("arg_2", .text), ("arg_3", .text)], some ("arg_", .text)⟩,
  -- _RangeParameters: 585
  ⟨"range", [("start_index", .value), ("count", .value)], .none⟩,
  -- _SkipParameters: 595
  ⟨"skip", [("original_value", .value), ("number_to_skip", .value)], .none⟩,
  -- _TakeParameters: 605
  ⟨"take", [("original_value", .value), ("number_to_take", .value)], .none⟩,
  -- _UnionParameters: 615
  ⟨"union", [("arg_1", .text), ("arg_2", .text), ("arg_3", .text)], some ("arg_", .text)⟩,
  -- _DateTimeAddParameters: 633
  ⟨"dateTimeAdd", [("base", .value), ("duration", .value), ("format", .valueOrNone)], .none⟩,
  -- _DateTimeFromEpochParameters: 644
  ⟨"dateTimeFromEpoch", [("epoch_time", .value)], .none⟩,
  -- _DateTimeToEpochParameters: 653
  ⟨"dateTimeToEpoch", [("date_time", .value)], .none⟩,
  -- _UtcNowParameters: 662
  ⟨"utcNow", [("format", .valueOrNone)], .none⟩,
  -- Deployment: 678, without parameters
  ⟨"deployment", [], .none⟩,
  -- Environment: 682, without parameters
  ⟨"environment", [], .none⟩,
  -- _LoadFileAsBase64Parameters: 693
  ⟨"loadFileAsBase64", [("file_path", .value)], .none⟩,
  -- _LoadJsonContentParameters: 702
  ⟨"loadJsonContent", [("file_path", .value), ("json_path", .valueOrNone), ("encoding", .valueOrNone)], .none⟩,
  -- _LoadTextContentParameters: 724
  ⟨"loadTextContent", [("file_path", .value), ("encoding", .valueOrNone)], .none⟩,
  -- _LoadYamlContentParameters: 713
  ⟨"loadYamlContent", [("file_path", .value), ("path_filter", .valueOrNone),
    ("encoding", .valueOrNone)], .none⟩,
  -- _FilterParameters: 741
  ⟨"filter", [("input_array", .value), ("expression", .value)], .none⟩,
  -- _JsonParameters: 782
  ⟨"bool", [("arg_1", .value)], .none⟩,
  -- _StringParameters: 1071
  ⟨"int", [("value_to_convert", .value)], .none⟩,
  -- _JsonParameters: 782
  ⟨"json", [("arg_1", .value)], .none⟩,
  -- _ExtensionResourceIdParameters: 798
  ⟨"extensionResourceId", [("resource_id", .text), ("resource_type", .text), ("resource_name_1", .text),
    ("resource_name_2", .textOrNone)], .none⟩,
  -- _ListFuncParameters: 810
  ⟨"listKeys", [("func_name", .value), ("resource_identifier", .value), ("api_version", .value)], .none⟩,
  -- _TenantResourceIdParameters: 875
  ⟨"managementGroupResourceId", [("resource_type", .text), ("resource_name_1", .text),
    ("resource_name_2", .textOrNone)], .none⟩,
  -- _PickZonesParameters: 826
  ⟨"pickZones", [("provider_namespace", .value), ("resource_type", .value), ("location", .value),
    ("number_of_zones", .valueOrNone), ("offset", .valueOrNone)], .none⟩,
  -- _ReferenceParameters: 839
  ⟨"reference", [("resource_identifier", .value), ("api_version", .valueOrNone),
    ("full", .valueOrNone)], .none⟩,
  -- _ResourceIdParameters: 850
  ⟨"resourceId", [("resource_type", .text), ("resource_name_1", .text), ("resource_name_2", .textOrNone),
    ("resource_group_name", .textOrNone), ("subscription_id", .textOrNone)], .none⟩,
  -- _SubscriptionResourceIdParameters: 863
  ⟨"subscriptionResourceId", [("resource_type", .text), ("resource_name_1", .text),
    ("resource_name_2", .textOrNone), ("subscription_id", .textOrNone)], .none⟩,
  -- _TenantResourceIdParameters: 875
  ⟨"tenantResourceId", [("resource_type", .text), ("resource_name_1", .text),
    ("resource_name_2", .textOrNone)], .none⟩,
  -- _ManagementGroupParameters: 893
  ⟨"managementGroup", [("identifier", .valueOrNone)], .none⟩,
  -- _ResourceGroupParameters: 902
  ⟨"resourceGroup", [("resource_group_name", .valueOrNone), ("subscription_id", .valueOrNone)], .none⟩,
  -- _SubscriptionParameters: 912
  ⟨"subscription", [("subscription_id", .valueOrNone)], .none⟩,
  -- Tenant: 921, without parameters
  ⟨"tenant", [], .none⟩,
  -- _Base64Parameters: 932
  ⟨"base64", [("input_string", .value)], .none⟩,
  -- _Base64ToJsonParameters: 941
  ⟨"base64ToJson", [("base64_value", .value)], .none⟩,
  -- _Base64ToJsonParameters: 941
  ⟨"base64ToString", [("base64_value", .value)], .none⟩,
  -- _DataUriParameters: 955
  ⟨"dataUri", [("string_to_convert", .value)], .none⟩,
  -- _DataUriToStringParameters: 964
  ⟨"dataUriToString", [("data_uri_to_convert", .value)], .none⟩,
  -- _StartsWithParameters: 1061
  ⟨"endsWith", [("string_to_search", .value), ("string_to_find", .value)], .none⟩,
  -- _FormatParameters: 978
  ⟨"format", [("format_string", .value), ("arg_1", .value), ("arg_2", .value)], some ("arg_", .value)⟩,
  -- _GuidParameters: 989
  ⟨"guid", [("base_string", .text), ("extra_string_1", .text)], some ("extra_string_", .text)⟩,
  -- _IndexOfParameters: 999
  ⟨"indexOf", [("string_to_search", .value), ("string_to_find", .value)], .none⟩,
  -- _JoinParameters: 1051
  ⟨"join", [("input_array", .value), ("delimiter", .value)], .none⟩,
  -- _IndexOfParameters: 999
  ⟨"lastIndexOf", [("string_to_search", .value), ("string_to_find", .value)], .none⟩,
  -- NewGuid: 1014, without parameters
  ⟨"newGuid", [], .none⟩,
  -- _PadLeftParameters: 1018
  ⟨"padLeft", [("value_to_pad", .value), ("total_length", .value), ("padding_character", .valueOrNone)], .none⟩,
  -- _ReplaceParameters: 1029
  ⟨"replace", [("original_string", .value), ("old_string", .value), ("new_string", .value)], .none⟩,
  -- _SplitParameters: 1040
  ⟨"split", [("input_string", .value), ("delimiter", .value)], .none⟩,
  -- _StartsWithParameters: 1061
  ⟨"startsWith", [("string_to_search", .value), ("string_to_find", .value)], .none⟩,
  -- _StringParameters: 1071
  ⟨"string", [("value_to_convert", .value)], .none⟩,
  -- _SubstringParameters: 1080
  ⟨"substring", [("string_to_parse", .value), ("start_index", .value), ("length", .valueOrNone)], .none⟩,
  -- _ToLowerParameters: 1091
  ⟨"toLower", [("string_to_change", .value)], .none⟩,
  -- _ToLowerParameters: 1091
  ⟨"toUpper", [("string_to_change", .value)], .none⟩,
  -- _TrimParameters: 1105
  ⟨"trim", [("string_to_trim", .value)], .none⟩,
  -- _GuidParameters: 989
  ⟨"uniqueString", [("base_string", .text), ("extra_string_1", .text)], some ("extra_string_", .text)⟩,
  -- _UriParameters: 1119
  ⟨"uri", [("base_uri", .value), ("relative_uri", .value)], .none⟩,
  -- _UriComponentParameters: 1129
  ⟨"uriComponent", [("string_to_encode", .value)], .none⟩,
  -- _UriComponentToStringParameters: 1138
  ⟨"uriComponentToString", [("uri_encoded_string", .value)], .none⟩]

/-- `data`, what is reported about a call, has the type published for the function, including the types of
its parameters -/
def ArgRow.Typed (r : ArgRow) (t : FunTy) (data : Val) : Prop :=
  t.Has data ∧ ∀ k v, data.at? [.key "parameters", .key k] = some v → (r.ty k).Has v

/-- Every argument that is reported has the type published for the key under which it is reported. -/
def ArgRow.Fit (ln : Bool) (r : ArgRow) (es : List Expr) : Prop :=
  ∀ args, Expr.vals ln es = .ok args → ∀ s ∈ signatures, s.name = r.name → ∀ ps, s.report args = .params ps →
    ∀ k i, (k, Src.arg i) ∈ ps → ∀ e, es[i]? = some e → (r.ty k).Fits ln e

/-- the arguments of decorators (typing.py:404-443) -/
def publishedDecoArgs : List (String × ArgTy) := [
  ("allowed", .atoms), ("batchSize", .int), ("description", .text), ("minLength", .int), ("maxLength", .int),
  ("minValue", .int), ("maxValue", .int), ("metadata", .anyDict)]

/-- what is written as an integer: `1`, `-1`, and, since `bool` is a subtype of `int`, `true` and `-true` -/
def Expr.Negatable : Expr → Prop
  | .minus e => e.IsInt ∨ e.IsBool
  | e => e.IsInt ∨ e.IsBool

end Pycep
