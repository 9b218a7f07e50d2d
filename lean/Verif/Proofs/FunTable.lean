import Verif.Spec.FunTable
import Verif.Proofs.SemBase
/-
The functions of functions.py report what the table of signatures says.
-/
namespace Pycep
open Functions

/-- `r` is what a function with this signature returns -/
def Agrees (s : Signature) (args : List Val) (r : Except PyErr Val) : Prop :=
  match s.report args with
  | .refused => ∃ e, r = .error e
  | .bare => r = .ok (.dict [("type", .str s.type)])
  | .params ps => r = .ok (.dict [("type", .str s.type),
      ("parameters", .dict (ps.map (fun p => (p.1, p.2.val args))))])

theorem val_arg (args : List Val) (i : Nat) : (Src.arg i).val args = args[i]?.getD .none := rfl
theorem val_absent (args : List Val) : Src.absent.val args = .none := rfl
theorem val_text (args : List Val) (s : String) : (Src.text s).val args = .str s := rfl

theorem rest_val (pre : String) (start : Nat) (before after : List Val) :
    (Signature.rest pre start before.length after.length).map
      (fun p => (p.1, p.2.val (before ++ after))) = numbered pre start after := by
  induction after generalizing before start with
  | nil => rfl
  | cons a after ih =>
    have := ih (start + 1) (before ++ [a])
    rw [List.length_append, List.append_assoc] at this
    simp only [List.length_cons, List.length_nil, List.cons_append, List.nil_append,
      Nat.zero_add] at this
    simp only [List.length_cons, Signature.rest, List.map_cons, numbered]
    rw [this]
    simp [val_arg]

theorem rest_val0 (pre : String) (start : Nat) (args : List Val) :
    (Signature.rest pre start 0 args.length).map (fun p => (p.1, p.2.val args)) =
      numbered pre start args := rest_val pre start [] args

theorem rest_val1 (pre : String) (start : Nat) (a : Val) (args : List Val) :
    (Signature.rest pre start 1 args.length).map (fun p => (p.1, p.2.val (a :: args))) =
      numbered pre start args := rest_val pre start [a] args

theorem rest_val2 (pre : String) (start : Nat) (a b : Val) (args : List Val) :
    (Signature.rest pre start 2 args.length).map (fun p => (p.1, p.2.val (a :: b :: args))) =
      numbered pre start args := rest_val pre start [a, b] args

theorem rest_val3 (pre : String) (start : Nat) (a b c : Val) (args : List Val) :
    (Signature.rest pre start 3 args.length).map (fun p => (p.1, p.2.val (a :: b :: c :: args))) =
      numbered pre start args := rest_val pre start [a, b, c] args


theorem numbered_not_mem {pre k : String} (h : pre.toList.isPrefixOf k.toList = false) (n : Nat)
    (vs : List Val) : k ∉ (numbered pre n vs).map Prod.fst := by
  intro hk
  obtain ⟨m, _, rfl⟩ := numbered_key hk
  have : pre.toList <+: (pre ++ toString m).toList := by
    rw [String.toList_append]; exact List.prefix_append ..
  rw [List.isPrefixOf_iff_prefix.mpr this] at h
  cases h

theorem mkDict_enum_head {pre k : String} (h : pre.toList.isPrefixOf k.toList = false) (a : Val)
    (n : Nat) (vs : List Val) :
    mkDict ((k, a) :: enumKeys pre n vs) = (k, a) :: numbered pre n vs := by
  rw [enumKeys_eq, mkDict_of_nodup]
  rw [List.map_cons, List.nodup_cons]
  exact ⟨numbered_not_mem h n vs, numbered_nodup ..⟩

theorem mkDict_enum_arg1 (a : Val) (vs : List Val) :
    mkDict (("arg_1", a) :: enumKeys "arg_" 2 vs) = ("arg_1", a) :: numbered "arg_" 2 vs := by
  have : ("arg_1", a) :: numbered "arg_" 2 vs = numbered "arg_" 1 (a :: vs) := by
    simp only [numbered]; congr 1
  rw [enumKeys_eq, this, mkDict_of_nodup (numbered_nodup ..)]

theorem mkDict_enum_arg2 (a b : Val) (vs : List Val) :
    mkDict (("arg_1", a) :: ("arg_2", b) :: enumKeys "arg_" 3 vs) =
      ("arg_1", a) :: ("arg_2", b) :: numbered "arg_" 3 vs := by
  have : ("arg_1", a) :: ("arg_2", b) :: numbered "arg_" 3 vs = numbered "arg_" 1 (a :: b :: vs) := by
    simp only [numbered]; congr 1
  rw [enumKeys_eq, this, mkDict_of_nodup (numbered_nodup ..)]

theorem mkDict_enum_resource (a b c : Val) (vs : List Val) :
    mkDict ([("resource_type", c)] ++ enumKeys "resource_name_" 1 vs ++
        [("resource_group_name", b), ("subscription_id", a)]) =
      [("resource_type", c)] ++ numbered "resource_name_" 1 vs ++
        [("resource_group_name", b), ("subscription_id", a)] := by
  rw [enumKeys_eq, mkDict_of_nodup]
  have h1 := numbered_not_mem (pre := "resource_name_") (k := "resource_type") (by decide) 1 vs
  have h2 := numbered_not_mem (pre := "resource_name_") (k := "resource_group_name") (by decide) 1 vs
  have h3 := numbered_not_mem (pre := "resource_name_") (k := "subscription_id") (by decide) 1 vs
  simp only [List.map_append, List.map_cons, List.map_nil, List.cons_append, List.nil_append,
    List.nodup_cons, List.nodup_append, List.mem_append, List.mem_cons, List.not_mem_nil, or_false,
    List.nodup_nil, and_true]
  refine ⟨?_, numbered_nodup .., by decide, ?_⟩
  · rintro (h | h | h)
    · exact h1 h
    · exact absurd h (by decide)
    · exact absurd h (by decide)
  · rintro x hx y (rfl | rfl) rfl
    · exact h2 hx
    · exact h3 hx

theorem nlt2 (n : Nat) : (n + 1 + 1 < 2) = False := by simp
theorem nlt42 (n : Nat) : (n + 1 + 1 + 1 + 1 < 2) = False := by simp only [eq_iff_iff, iff_false]; omega
theorem nlt43 (n : Nat) : (n + 1 + 1 + 1 + 1 < 3) = False := by simp only [eq_iff_iff, iff_false]; omega
theorem nlt63 (n : Nat) : (n + 1 + 1 + 1 + 1 + 1 + 1 < 3) = False := by simp only [eq_iff_iff, iff_false]; omega

open Signature in
/-- unfolds a signature on argument lists of a known shape -/
macro "agree" f:ident : tactic => `(tactic|
  simp [Agrees, $f:ident, atLeast, exactly, someOf, variadic, upToThree, Signature.pickZones,
    Signature.resourceId, Signature.subscriptionResourceId, Signature.resourceGroup,
    Signature.listKeys, Signature.bare, firsts, given, val_arg, val_absent, val_text, fdata, unpackErr,
    mkDict_enum_arg1, mkDict_enum_arg2, rest_val0, rest_val1, rest_val2, rest_val3, nlt2, nlt42, nlt43, nlt63])

open Signature

theorem agrees_any_func (n : String) (args : List Val) :
    Agrees ⟨"sys", "any", "any", atLeast ["value"]⟩ args (any_func n args) := by
  rcases args with _ | ⟨a, r⟩ <;> agree any_func

theorem agrees_array_func (n : String) (args : List Val) :
    Agrees ⟨"sys", "array", "array", atLeast ["convert_to_array"]⟩ args (array_func n args) := by
  rcases args with _ | ⟨a, r⟩ <;> agree array_func

theorem agrees_concat (n : String) (args : List Val) :
    Agrees ⟨"sys", "concat", "concat", variadic ["arg_1"] "arg_" 2⟩ args (concat n args) := by
  rcases args with _ | ⟨a, r⟩ <;> agree concat

theorem agrees_contains (n : String) (args : List Val) :
    Agrees ⟨"sys", "contains", "contains", exactly ["container", "item_to_find"]⟩ args (contains n args) := by
  rcases args with _ | ⟨a, _ | ⟨b, _ | ⟨c, _ | ⟨d, r⟩⟩⟩⟩ <;> agree contains

theorem agrees_empty (n : String) (args : List Val) :
    Agrees ⟨"sys", "empty", "empty", atLeast ["item_to_test"]⟩ args (empty n args) := by
  rcases args with _ | ⟨a, r⟩ <;> agree empty

theorem agrees_first (n : String) (args : List Val) :
    Agrees ⟨"sys", "first", "first", atLeast ["arg_1"]⟩ args (first n args) := by
  rcases args with _ | ⟨a, r⟩ <;> agree first

theorem agrees_flatten (n : String) (args : List Val) :
    Agrees ⟨"sys", "flatten", "flatten", atLeast ["array_to_flattern"]⟩ args (flatten n args) := by
  rcases args with _ | ⟨a, r⟩ <;> agree flatten

theorem agrees_intersection (n : String) (args : List Val) :
    Agrees ⟨"sys", "intersection", "intersection", variadic ["arg_1", "arg_2"] "arg_" 3⟩ args (intersection n args) := by
  rcases args with _ | ⟨a, _ | ⟨b, r⟩⟩ <;> agree intersection

theorem agrees_last (n : String) (args : List Val) :
    Agrees ⟨"sys", "last", "last", atLeast ["arg_1"]⟩ args (last n args) := by
  rcases args with _ | ⟨a, r⟩ <;> agree last

theorem agrees_length (n : String) (args : List Val) :
    Agrees ⟨"sys", "length", "length", atLeast ["arg_1"]⟩ args (length n args) := by
  rcases args with _ | ⟨a, r⟩ <;> agree length

theorem agrees_max_func (n : String) (args : List Val) :
    Agrees ⟨"sys", "max", "max", variadic ["arg_1"] "arg_" 2⟩ args (max_func n args) := by
  rcases args with _ | ⟨a, r⟩ <;> agree max_func

theorem agrees_min_func (n : String) (args : List Val) :
    Agrees ⟨"sys", "min", "min", variadic ["arg_1"] "arg_" 2⟩ args (min_func n args) := by
  rcases args with _ | ⟨a, r⟩ <;> agree min_func

theorem agrees_range_func (n : String) (args : List Val) :
    Agrees ⟨"sys", "range", "range", exactly ["start_index", "count"]⟩ args (range_func n args) := by
  rcases args with _ | ⟨a, _ | ⟨b, _ | ⟨c, _ | ⟨d, r⟩⟩⟩⟩ <;> agree range_func

theorem agrees_skip (n : String) (args : List Val) :
    Agrees ⟨"sys", "skip", "skip", exactly ["original_value", "number_to_skip"]⟩ args (skip n args) := by
  rcases args with _ | ⟨a, _ | ⟨b, _ | ⟨c, _ | ⟨d, r⟩⟩⟩⟩ <;> agree skip

theorem agrees_take (n : String) (args : List Val) :
    Agrees ⟨"sys", "take", "take", exactly ["original_value", "number_to_take"]⟩ args (take n args) := by
  rcases args with _ | ⟨a, _ | ⟨b, _ | ⟨c, _ | ⟨d, r⟩⟩⟩⟩ <;> agree take

theorem agrees_union (n : String) (args : List Val) :
    Agrees ⟨"sys", "union", "union", variadic ["arg_1", "arg_2"] "arg_" 3⟩ args (union n args) := by
  rcases args with _ | ⟨a, _ | ⟨b, r⟩⟩ <;> agree union

theorem agrees_date_time_add (n : String) (args : List Val) :
    Agrees ⟨"sys", "dateTimeAdd", "date_time_add", someOf 2 ["base", "duration", "format"]⟩ args (date_time_add n args) := by
  rcases args with _ | ⟨a, _ | ⟨b, _ | ⟨c, _ | ⟨d, r⟩⟩⟩⟩ <;> agree date_time_add

theorem agrees_date_time_from_epoch (n : String) (args : List Val) :
    Agrees ⟨"sys", "dateTimeFromEpoch", "date_time_from_epoch", atLeast ["epoch_time"]⟩ args (date_time_from_epoch n args) := by
  rcases args with _ | ⟨a, r⟩ <;> agree date_time_from_epoch

theorem agrees_date_time_to_epoch (n : String) (args : List Val) :
    Agrees ⟨"sys", "dateTimeToEpoch", "date_time_to_epoch", atLeast ["date_time"]⟩ args (date_time_to_epoch n args) := by
  rcases args with _ | ⟨a, r⟩ <;> agree date_time_to_epoch

theorem agrees_utc_now (n : String) (args : List Val) :
    Agrees ⟨"sys", "utcNow", "utc_now", someOf 0 ["format"]⟩ args (utc_now n args) := by
  rcases args with _ | ⟨a, _ | ⟨b, _ | ⟨c, _ | ⟨d, r⟩⟩⟩⟩ <;> agree utc_now

theorem agrees_deployment (n : String) (args : List Val) :
    Agrees ⟨"az", "deployment", "deployment", bare⟩ args (deployment n args) := by
  rfl

theorem agrees_environment (n : String) (args : List Val) :
    Agrees ⟨"az", "environment", "environment", bare⟩ args (environment n args) := by
  rfl

theorem agrees_load_file_as_base64 (n : String) (args : List Val) :
    Agrees ⟨"sys", "loadFileAsBase64", "load_file_as_base64", atLeast ["file_path"]⟩ args (load_file_as_base64 n args) := by
  rcases args with _ | ⟨a, r⟩ <;> agree load_file_as_base64

theorem agrees_load_json_content (n : String) (args : List Val) :
    Agrees ⟨"sys", "loadJsonContent", "load_json_content", upToThree ["file_path", "json_path", "encoding"]⟩ args (load_json_content n args) := by
  rcases args with _ | ⟨a, _ | ⟨b, _ | ⟨c, _ | ⟨d, r⟩⟩⟩⟩ <;> agree load_json_content

theorem agrees_load_text_content (n : String) (args : List Val) :
    Agrees ⟨"sys", "loadTextContent", "load_text_content", someOf 1 ["file_path", "encoding"]⟩ args (load_text_content n args) := by
  rcases args with _ | ⟨a, _ | ⟨b, _ | ⟨c, _ | ⟨d, r⟩⟩⟩⟩ <;> agree load_text_content

theorem agrees_load_yaml_content (n : String) (args : List Val) :
    Agrees ⟨"sys", "loadYamlContent", "load_yaml_content", upToThree ["file_path", "path_filter", "encoding"]⟩ args (load_yaml_content n args) := by
  rcases args with _ | ⟨a, _ | ⟨b, _ | ⟨c, _ | ⟨d, r⟩⟩⟩⟩ <;> agree load_yaml_content

theorem agrees_filter_func (n : String) (args : List Val) :
    Agrees ⟨"sys", "filter", "filter", exactly ["input_array", "expression"]⟩ args (filter_func n args) := by
  rcases args with _ | ⟨a, _ | ⟨b, _ | ⟨c, _ | ⟨d, r⟩⟩⟩⟩ <;> agree filter_func

theorem agrees_bool_func (n : String) (args : List Val) :
    Agrees ⟨"sys", "bool", "bool", atLeast ["arg_1"]⟩ args (bool_func n args) := by
  rcases args with _ | ⟨a, r⟩ <;> agree bool_func

theorem agrees_int_func (n : String) (args : List Val) :
    Agrees ⟨"sys", "int", "int", atLeast ["value_to_convert"]⟩ args (int_func n args) := by
  rcases args with _ | ⟨a, r⟩ <;> agree int_func

theorem agrees_json_func (n : String) (args : List Val) :
    Agrees ⟨"sys", "json", "json", atLeast ["arg_1"]⟩ args (json_func n args) := by
  rcases args with _ | ⟨a, r⟩ <;> agree json_func

theorem agrees_extension_resource_id (n : String) (args : List Val) :
    Agrees ⟨"az", "extensionResourceId", "extension_resource_id", someOf 3 ["resource_id", "resource_type", "resource_name_1", "resource_name_2"]⟩ args (extension_resource_id n args) := by
  rcases args with _ | ⟨a, _ | ⟨b, _ | ⟨c, _ | ⟨d, r⟩⟩⟩⟩ <;> agree extension_resource_id

theorem agrees_list_func (n : String) (args : List Val) :
    Agrees ⟨"az", "listKeys", "list_func", listKeys⟩ args (list_func n args) := by
  rcases args with _ | ⟨a, _ | ⟨b, _ | ⟨c, _ | ⟨d, r⟩⟩⟩⟩ <;> agree list_func

theorem agrees_management_group_resource_id (n : String) (args : List Val) :
    Agrees ⟨"az", "managementGroupResourceId", "management_group_resource_id", someOf 2 ["resource_type", "resource_name_1", "resource_name_2"]⟩ args (management_group_resource_id n args) := by
  rcases args with _ | ⟨a, _ | ⟨b, _ | ⟨c, _ | ⟨d, r⟩⟩⟩⟩ <;> agree management_group_resource_id

theorem agrees_pick_zones (n : String) (args : List Val) :
    Agrees ⟨"az", "pickZones", "pick_zones", pickZones⟩ args (pick_zones n args) := by
  rcases args with _ | ⟨a, _ | ⟨b, _ | ⟨c, _ | ⟨d, _ | ⟨e, _ | ⟨f, r⟩⟩⟩⟩⟩⟩ <;> agree pick_zones

theorem agrees_reference (n : String) (args : List Val) :
    Agrees ⟨"az", "reference", "reference", upToThree ["resource_identifier", "api_version", "full"]⟩ args (reference n args) := by
  rcases args with _ | ⟨a, _ | ⟨b, _ | ⟨c, _ | ⟨d, r⟩⟩⟩⟩ <;> agree reference

theorem agrees_resource_id (n : String) (args : List Val) :
    Agrees ⟨"az", "resourceId", "resource_id", resourceId⟩ args (resource_id n args) := by
  rcases args with _ | ⟨a, _ | ⟨b, _ | ⟨c, _ | ⟨d, _ | ⟨e, r⟩⟩⟩⟩⟩
  · agree resource_id
  · agree resource_id
  · agree resource_id
  · agree resource_id
  · agree resource_id
  · have h := rest_val3 "resource_name_" 1 a b c (d :: e :: r)
    have h2 := mkDict_enum_resource a b c (d :: e :: r)
    simp only [List.cons_append, List.nil_append] at h2
    simp only [List.length_cons] at h
    simp [Agrees, resource_id, Signature.resourceId, fdata, h, h2, val_arg]

theorem agrees_subscription_resource_id (n : String) (args : List Val) :
    Agrees ⟨"az", "subscriptionResourceId", "subscription_resource_id", subscriptionResourceId⟩ args (subscription_resource_id n args) := by
  rcases args with _ | ⟨a, _ | ⟨b, _ | ⟨c, _ | ⟨d, r⟩⟩⟩⟩ <;> agree subscription_resource_id

theorem agrees_tenant_resource_id (n : String) (args : List Val) :
    Agrees ⟨"az", "tenantResourceId", "tenant_resource_id", someOf 2 ["resource_type", "resource_name_1", "resource_name_2"]⟩ args (tenant_resource_id n args) := by
  rcases args with _ | ⟨a, _ | ⟨b, _ | ⟨c, _ | ⟨d, r⟩⟩⟩⟩ <;> agree tenant_resource_id

theorem agrees_management_group (n : String) (args : List Val) :
    Agrees ⟨"az", "managementGroup", "management_group", someOf 0 ["identifier"]⟩ args (management_group n args) := by
  rcases args with _ | ⟨a, _ | ⟨b, _ | ⟨c, _ | ⟨d, r⟩⟩⟩⟩ <;> agree management_group

theorem agrees_resource_group (n : String) (args : List Val) :
    Agrees ⟨"az", "resourceGroup", "resource_group", resourceGroup⟩ args (resource_group n args) := by
  rcases args with _ | ⟨a, _ | ⟨b, _ | ⟨c, r⟩⟩⟩
  · agree resource_group
  · agree resource_group; simp [Val.truthy]
  · agree resource_group; by_cases ha : a.truthy = true <;> by_cases hb : b.truthy = true <;> simp [ha, hb, val_arg]
  · agree resource_group

theorem agrees_subscription (n : String) (args : List Val) :
    Agrees ⟨"az", "subscription", "subscription", someOf 0 ["subscription_id"]⟩ args (subscription n args) := by
  rcases args with _ | ⟨a, _ | ⟨b, _ | ⟨c, _ | ⟨d, r⟩⟩⟩⟩ <;> agree subscription

theorem agrees_tenant (n : String) (args : List Val) :
    Agrees ⟨"az", "tenant", "tenant", bare⟩ args (tenant n args) := by
  rfl

theorem agrees_base64_func (n : String) (args : List Val) :
    Agrees ⟨"sys", "base64", "base64", atLeast ["input_string"]⟩ args (base64_func n args) := by
  rcases args with _ | ⟨a, r⟩ <;> agree base64_func

theorem agrees_base64_to_json (n : String) (args : List Val) :
    Agrees ⟨"sys", "base64ToJson", "base64_to_json", atLeast ["base64_value"]⟩ args (base64_to_json n args) := by
  rcases args with _ | ⟨a, r⟩ <;> agree base64_to_json

theorem agrees_base64_to_string (n : String) (args : List Val) :
    Agrees ⟨"sys", "base64ToString", "base64_to_string", atLeast ["base64_value"]⟩ args (base64_to_string n args) := by
  rcases args with _ | ⟨a, r⟩ <;> agree base64_to_string

theorem agrees_data_uri (n : String) (args : List Val) :
    Agrees ⟨"sys", "dataUri", "data_uri", atLeast ["string_to_convert"]⟩ args (data_uri n args) := by
  rcases args with _ | ⟨a, r⟩ <;> agree data_uri

theorem agrees_data_uri_to_string (n : String) (args : List Val) :
    Agrees ⟨"sys", "dataUriToString", "data_uri_to_string", atLeast ["data_uri_to_convert"]⟩ args (data_uri_to_string n args) := by
  rcases args with _ | ⟨a, r⟩ <;> agree data_uri_to_string

theorem agrees_ends_with (n : String) (args : List Val) :
    Agrees ⟨"sys", "endsWith", "ends_with", exactly ["string_to_search", "string_to_find"]⟩ args (ends_with n args) := by
  rcases args with _ | ⟨a, _ | ⟨b, _ | ⟨c, _ | ⟨d, r⟩⟩⟩⟩ <;> agree ends_with

theorem agrees_format_func (n : String) (args : List Val) :
    Agrees ⟨"sys", "format", "format", variadic ["format_string"] "arg_" 1⟩ args (format_func n args) := by
  rcases args with _ | ⟨a, r⟩
  · agree format_func
  · have h := mkDict_enum_head (pre := "arg_") (k := "format_string") (by decide) a 1 r
    simp [Agrees, format_func, variadic, firsts, val_arg, fdata, h, rest_val1]

theorem agrees_guid (n : String) (args : List Val) :
    Agrees ⟨"sys", "guid", "guid", variadic ["base_string"] "extra_string_" 1⟩ args (guid n args) := by
  rcases args with _ | ⟨a, r⟩
  · agree guid
  · have h := mkDict_enum_head (pre := "extra_string_") (k := "base_string") (by decide) a 1 r
    simp [Agrees, guid, variadic, firsts, val_arg, fdata, h, rest_val1]

theorem agrees_index_of (n : String) (args : List Val) :
    Agrees ⟨"sys", "indexOf", "index_of", exactly ["string_to_search", "string_to_find"]⟩ args (index_of n args) := by
  rcases args with _ | ⟨a, _ | ⟨b, _ | ⟨c, _ | ⟨d, r⟩⟩⟩⟩ <;> agree index_of

theorem agrees_join (n : String) (args : List Val) :
    Agrees ⟨"sys", "join", "join", exactly ["input_array", "delimiter"]⟩ args (join n args) := by
  rcases args with _ | ⟨a, _ | ⟨b, _ | ⟨c, _ | ⟨d, r⟩⟩⟩⟩ <;> agree join

theorem agrees_last_index_of (n : String) (args : List Val) :
    Agrees ⟨"sys", "lastIndexOf", "last_index_of", exactly ["string_to_search", "string_to_find"]⟩ args (last_index_of n args) := by
  rcases args with _ | ⟨a, _ | ⟨b, _ | ⟨c, _ | ⟨d, r⟩⟩⟩⟩ <;> agree last_index_of

theorem agrees_new_guid (n : String) (args : List Val) :
    Agrees ⟨"sys", "newGuid", "new_guid", bare⟩ args (new_guid n args) := by
  rfl

theorem agrees_pad_left (n : String) (args : List Val) :
    Agrees ⟨"sys", "padLeft", "pad_left", someOf 2 ["value_to_pad", "total_length", "padding_character"]⟩ args (pad_left n args) := by
  rcases args with _ | ⟨a, _ | ⟨b, _ | ⟨c, _ | ⟨d, r⟩⟩⟩⟩ <;> agree pad_left

theorem agrees_replace (n : String) (args : List Val) :
    Agrees ⟨"sys", "replace", "replace", exactly ["original_string", "old_string", "new_string"]⟩ args (replace n args) := by
  rcases args with _ | ⟨a, _ | ⟨b, _ | ⟨c, _ | ⟨d, r⟩⟩⟩⟩ <;> agree replace

theorem agrees_split (n : String) (args : List Val) :
    Agrees ⟨"sys", "split", "split", exactly ["input_string", "delimiter"]⟩ args (split n args) := by
  rcases args with _ | ⟨a, _ | ⟨b, _ | ⟨c, _ | ⟨d, r⟩⟩⟩⟩ <;> agree split

theorem agrees_starts_with (n : String) (args : List Val) :
    Agrees ⟨"sys", "startsWith", "starts_with", exactly ["string_to_search", "string_to_find"]⟩ args (starts_with n args) := by
  rcases args with _ | ⟨a, _ | ⟨b, _ | ⟨c, _ | ⟨d, r⟩⟩⟩⟩ <;> agree starts_with

theorem agrees_string_func (n : String) (args : List Val) :
    Agrees ⟨"sys", "string", "string", atLeast ["value_to_convert"]⟩ args (string_func n args) := by
  rcases args with _ | ⟨a, r⟩ <;> agree string_func

theorem agrees_substring (n : String) (args : List Val) :
    Agrees ⟨"sys", "substring", "substring", someOf 2 ["string_to_parse", "start_index", "length"]⟩ args (substring n args) := by
  rcases args with _ | ⟨a, _ | ⟨b, _ | ⟨c, _ | ⟨d, r⟩⟩⟩⟩ <;> agree substring

theorem agrees_to_lower (n : String) (args : List Val) :
    Agrees ⟨"sys", "toLower", "to_lower", atLeast ["string_to_change"]⟩ args (to_lower n args) := by
  rcases args with _ | ⟨a, r⟩ <;> agree to_lower

theorem agrees_to_upper (n : String) (args : List Val) :
    Agrees ⟨"sys", "toUpper", "to_upper", atLeast ["string_to_change"]⟩ args (to_upper n args) := by
  rcases args with _ | ⟨a, r⟩ <;> agree to_upper

theorem agrees_trim (n : String) (args : List Val) :
    Agrees ⟨"sys", "trim", "trim", atLeast ["string_to_trim"]⟩ args (trim n args) := by
  rcases args with _ | ⟨a, r⟩ <;> agree trim

theorem agrees_unique_string (n : String) (args : List Val) :
    Agrees ⟨"sys", "uniqueString", "unique_string", variadic ["base_string"] "extra_string_" 1⟩ args (unique_string n args) := by
  rcases args with _ | ⟨a, r⟩
  · agree unique_string
  · have h := mkDict_enum_head (pre := "extra_string_") (k := "base_string") (by decide) a 1 r
    simp [Agrees, unique_string, variadic, firsts, val_arg, fdata, h, rest_val1]

theorem agrees_uri (n : String) (args : List Val) :
    Agrees ⟨"sys", "uri", "uri", exactly ["base_uri", "relative_uri"]⟩ args (uri n args) := by
  rcases args with _ | ⟨a, _ | ⟨b, _ | ⟨c, _ | ⟨d, r⟩⟩⟩⟩ <;> agree uri

theorem agrees_uri_component (n : String) (args : List Val) :
    Agrees ⟨"sys", "uriComponent", "uri_component", atLeast ["string_to_encode"]⟩ args (uri_component n args) := by
  rcases args with _ | ⟨a, r⟩ <;> agree uri_component

theorem agrees_uri_component_to_string (n : String) (args : List Val) :
    Agrees ⟨"sys", "uriComponentToString", "uri_component_to_string", atLeast ["uri_encoded_string"]⟩ args (uri_component_to_string n args) := by
  rcases args with _ | ⟨a, r⟩ <;> agree uri_component_to_string

/-- the table of functions, with their signatures -/
theorem table_agrees : List.Forall₂ (fun (e : String × FuncDef) (s : String × Signature) =>
    e.1 = s.1 ∧ ∀ n args, Agrees s.2 args (e.2 n args)) FUNCTIONS
    (signatures.flatMap (fun s => s.names.map (·, s))) := by
  simp only [signatures, List.flatMap_cons, List.flatMap_nil, Signature.names, List.map_cons,
    List.map_nil, List.cons_append, List.nil_append, FUNCTIONS]
  repeat' first | exact List.Forall₂.nil | refine List.Forall₂.cons ⟨?_, ?_⟩ ?_
  · decide
  · exact agrees_any_func
  · decide
  · exact agrees_any_func
  · decide
  · exact agrees_array_func
  · decide
  · exact agrees_array_func
  · decide
  · exact agrees_concat
  · decide
  · exact agrees_concat
  · decide
  · exact agrees_contains
  · decide
  · exact agrees_contains
  · decide
  · exact agrees_empty
  · decide
  · exact agrees_empty
  · decide
  · exact agrees_first
  · decide
  · exact agrees_first
  · decide
  · exact agrees_flatten
  · decide
  · exact agrees_flatten
  · decide
  · exact agrees_intersection
  · decide
  · exact agrees_intersection
  · decide
  · exact agrees_last
  · decide
  · exact agrees_last
  · decide
  · exact agrees_length
  · decide
  · exact agrees_length
  · decide
  · exact agrees_max_func
  · decide
  · exact agrees_max_func
  · decide
  · exact agrees_min_func
  · decide
  · exact agrees_min_func
  · decide
  · exact agrees_range_func
  · decide
  · exact agrees_range_func
  · decide
  · exact agrees_skip
  · decide
  · exact agrees_skip
  · decide
  · exact agrees_take
  · decide
  · exact agrees_take
  · decide
  · exact agrees_union
  · decide
  · exact agrees_union
  · decide
  · exact agrees_date_time_add
  · decide
  · exact agrees_date_time_add
  · decide
  · exact agrees_date_time_from_epoch
  · decide
  · exact agrees_date_time_from_epoch
  · decide
  · exact agrees_date_time_to_epoch
  · decide
  · exact agrees_date_time_to_epoch
  · decide
  · exact agrees_utc_now
  · decide
  · exact agrees_utc_now
  · decide
  · exact agrees_deployment
  · decide
  · exact agrees_deployment
  · decide
  · exact agrees_environment
  · decide
  · exact agrees_environment
  · decide
  · exact agrees_load_file_as_base64
  · decide
  · exact agrees_load_file_as_base64
  · decide
  · exact agrees_load_json_content
  · decide
  · exact agrees_load_json_content
  · decide
  · exact agrees_load_text_content
  · decide
  · exact agrees_load_text_content
  · decide
  · exact agrees_load_yaml_content
  · decide
  · exact agrees_load_yaml_content
  · decide
  · exact agrees_filter_func
  · decide
  · exact agrees_filter_func
  · decide
  · exact agrees_bool_func
  · decide
  · exact agrees_bool_func
  · decide
  · exact agrees_int_func
  · decide
  · exact agrees_int_func
  · decide
  · exact agrees_json_func
  · decide
  · exact agrees_json_func
  · decide
  · exact agrees_extension_resource_id
  · decide
  · exact agrees_extension_resource_id
  · decide
  · exact agrees_list_func
  · decide
  · exact agrees_list_func
  · decide
  · exact agrees_management_group_resource_id
  · decide
  · exact agrees_management_group_resource_id
  · decide
  · exact agrees_pick_zones
  · decide
  · exact agrees_pick_zones
  · decide
  · exact agrees_reference
  · decide
  · exact agrees_reference
  · decide
  · exact agrees_resource_id
  · decide
  · exact agrees_resource_id
  · decide
  · exact agrees_subscription_resource_id
  · decide
  · exact agrees_subscription_resource_id
  · decide
  · exact agrees_tenant_resource_id
  · decide
  · exact agrees_tenant_resource_id
  · decide
  · exact agrees_management_group
  · decide
  · exact agrees_management_group
  · decide
  · exact agrees_resource_group
  · decide
  · exact agrees_resource_group
  · decide
  · exact agrees_subscription
  · decide
  · exact agrees_subscription
  · decide
  · exact agrees_tenant
  · decide
  · exact agrees_tenant
  · decide
  · exact agrees_base64_func
  · decide
  · exact agrees_base64_func
  · decide
  · exact agrees_base64_to_json
  · decide
  · exact agrees_base64_to_json
  · decide
  · exact agrees_base64_to_string
  · decide
  · exact agrees_base64_to_string
  · decide
  · exact agrees_data_uri
  · decide
  · exact agrees_data_uri
  · decide
  · exact agrees_data_uri_to_string
  · decide
  · exact agrees_data_uri_to_string
  · decide
  · exact agrees_ends_with
  · decide
  · exact agrees_ends_with
  · decide
  · exact agrees_format_func
  · decide
  · exact agrees_format_func
  · decide
  · exact agrees_guid
  · decide
  · exact agrees_guid
  · decide
  · exact agrees_index_of
  · decide
  · exact agrees_index_of
  · decide
  · exact agrees_join
  · decide
  · exact agrees_join
  · decide
  · exact agrees_last_index_of
  · decide
  · exact agrees_last_index_of
  · decide
  · exact agrees_new_guid
  · decide
  · exact agrees_new_guid
  · decide
  · exact agrees_pad_left
  · decide
  · exact agrees_pad_left
  · decide
  · exact agrees_replace
  · decide
  · exact agrees_replace
  · decide
  · exact agrees_split
  · decide
  · exact agrees_split
  · decide
  · exact agrees_starts_with
  · decide
  · exact agrees_starts_with
  · decide
  · exact agrees_string_func
  · decide
  · exact agrees_string_func
  · decide
  · exact agrees_substring
  · decide
  · exact agrees_substring
  · decide
  · exact agrees_to_lower
  · decide
  · exact agrees_to_lower
  · decide
  · exact agrees_to_upper
  · decide
  · exact agrees_to_upper
  · decide
  · exact agrees_trim
  · decide
  · exact agrees_trim
  · decide
  · exact agrees_unique_string
  · decide
  · exact agrees_unique_string
  · decide
  · exact agrees_uri
  · decide
  · exact agrees_uri
  · decide
  · exact agrees_uri_component
  · decide
  · exact agrees_uri_component
  · decide
  · exact agrees_uri_component_to_string
  · decide
  · exact agrees_uri_component_to_string

end Pycep
