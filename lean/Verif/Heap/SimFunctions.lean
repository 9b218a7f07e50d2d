import Verif.Heap.Sim
/-
The functions of rules/functions.py and rules/decorators.py on values with identity follow those on
plain values.
-/
namespace Pycep.Mem

/-- `g` follows `f` -/
def SimF (f : String → List Val → Except PyErr Val) (g : Heap → String → List HV → Except PyErr HV) : Prop :=
  ∀ (h : Heap) (name : String) (xs : List HV) (vs : List Val) (F : List Nat), RepL h false xs vs F → F.Nodup →
    Out h F (f name vs) (g h name xs)

/-- functions that place their arguments in a display -/
macro "sim_fun" : tactic => `(tactic|
  (intro h name xs vs F hr hn
   rcases hr with _ | ⟨h1, _ | ⟨h2, _ | ⟨h3, _ | ⟨h4, _ | ⟨h5, _ | ⟨h6, hr⟩⟩⟩⟩⟩⟩ <;> out_tac))

theorem out_var {h : Heap} {F G : List Nat} {t : String} {ps : List (String × HV)} {ps' : List (String × Val)}
    (hp : RepI h true ps ps' G) (hs : Sub G F) :
    Out h F (.ok (Functions.fdata t (mkDict ps'))) (.ok (HFunctions.fdata t (hDict ps))) := by
  obtain ⟨K, hK, hs'⟩ := hp.mkDict
  have hs'' := hs'.trans hs
  exact .ok (.dict (.cons (.str _) (.cons (.dict hK) .nil)))
    (by intro a; have := hs'' a; simp only [List.count_append, List.count_nil] at *; omega)

theorem sim_any_func : SimF Functions.any_func HFunctions.any_func := by
  sim_fun

theorem sim_array_func : SimF Functions.array_func HFunctions.array_func := by
  sim_fun

theorem sim_concat : SimF Functions.concat HFunctions.concat := by
  intro h name xs vs F hr hn
  rcases hr with _ | ⟨h1, hr⟩
  · exact .error _
  · exact out_var (.cons h1.weaken (hr.enum _ _).weaken) (by sub_tac)

theorem sim_contains : SimF Functions.contains HFunctions.contains := by
  sim_fun

theorem sim_empty : SimF Functions.empty HFunctions.empty := by
  sim_fun

theorem sim_first : SimF Functions.first HFunctions.first := by
  sim_fun

theorem sim_flatten : SimF Functions.flatten HFunctions.flatten := by
  sim_fun

theorem sim_intersection : SimF Functions.intersection HFunctions.intersection := by
  intro h name xs vs F hr hn
  rcases hr with _ | ⟨h1, _ | ⟨h2, hr⟩⟩
  · exact .error _
  · exact .error _
  · exact out_var (.cons h1.weaken (.cons h2.weaken (hr.enum _ _).weaken)) (by sub_tac)

theorem sim_last : SimF Functions.last HFunctions.last := by
  sim_fun

theorem sim_length : SimF Functions.length HFunctions.length := by
  sim_fun

theorem sim_max_func : SimF Functions.max_func HFunctions.max_func := by
  intro h name xs vs F hr hn
  rcases hr with _ | ⟨h1, hr⟩
  · exact .error _
  · exact out_var (.cons h1.weaken (hr.enum _ _).weaken) (by sub_tac)

theorem sim_min_func : SimF Functions.min_func HFunctions.min_func := by
  intro h name xs vs F hr hn
  rcases hr with _ | ⟨h1, hr⟩
  · exact .error _
  · exact out_var (.cons h1.weaken (hr.enum _ _).weaken) (by sub_tac)

theorem sim_range_func : SimF Functions.range_func HFunctions.range_func := by
  sim_fun

theorem sim_skip : SimF Functions.skip HFunctions.skip := by
  sim_fun

theorem sim_take : SimF Functions.take HFunctions.take := by
  sim_fun

theorem sim_union : SimF Functions.union HFunctions.union := by
  intro h name xs vs F hr hn
  rcases hr with _ | ⟨h1, _ | ⟨h2, hr⟩⟩
  · exact .error _
  · exact .error _
  · exact out_var (.cons h1.weaken (.cons h2.weaken (hr.enum _ _).weaken)) (by sub_tac)

theorem sim_date_time_add : SimF Functions.date_time_add HFunctions.date_time_add := by
  sim_fun

theorem sim_date_time_from_epoch : SimF Functions.date_time_from_epoch HFunctions.date_time_from_epoch := by
  sim_fun

theorem sim_date_time_to_epoch : SimF Functions.date_time_to_epoch HFunctions.date_time_to_epoch := by
  sim_fun

theorem sim_utc_now : SimF Functions.utc_now HFunctions.utc_now := by
  sim_fun

theorem sim_deployment : SimF Functions.deployment HFunctions.deployment := by
  sim_fun

theorem sim_environment : SimF Functions.environment HFunctions.environment := by
  sim_fun

theorem sim_load_text_content : SimF Functions.load_text_content HFunctions.load_text_content := by
  sim_fun

theorem sim_load_json_content : SimF Functions.load_json_content HFunctions.load_json_content := by
  sim_fun

theorem sim_load_yaml_content : SimF Functions.load_yaml_content HFunctions.load_yaml_content := by
  sim_fun

theorem sim_load_file_as_base64 : SimF Functions.load_file_as_base64 HFunctions.load_file_as_base64 := by
  sim_fun

theorem sim_filter_func : SimF Functions.filter_func HFunctions.filter_func := by
  sim_fun

theorem sim_bool_func : SimF Functions.bool_func HFunctions.bool_func := by
  sim_fun

theorem sim_int_func : SimF Functions.int_func HFunctions.int_func := by
  sim_fun

theorem sim_json_func : SimF Functions.json_func HFunctions.json_func := by
  sim_fun

theorem sim_extension_resource_id : SimF Functions.extension_resource_id HFunctions.extension_resource_id := by
  sim_fun

theorem sim_list_func : SimF Functions.list_func HFunctions.list_func := by
  sim_fun

theorem sim_management_group_resource_id : SimF Functions.management_group_resource_id HFunctions.management_group_resource_id := by
  sim_fun

theorem sim_pick_zones : SimF Functions.pick_zones HFunctions.pick_zones := by
  sim_fun

theorem sim_reference : SimF Functions.reference HFunctions.reference := by
  sim_fun

theorem sim_resource_id : SimF Functions.resource_id HFunctions.resource_id := by
  intro h name xs vs F hr hn
  rcases hr with _ | ⟨h1, _ | ⟨h2, _ | ⟨h3, _ | ⟨h4, _ | ⟨h5, hr⟩⟩⟩⟩⟩
  · out_tac
  · out_tac
  · out_tac
  · out_tac
  · out_tac
  · exact out_var (.append (.cons h2.weaken (.cons h1.weaken .nil)) (.cons h3.weaken
      ((RepL.cons h4 (.cons h5 hr)).enum _ _).weaken)) (by sub_tac)

theorem sim_subscription_resource_id : SimF Functions.subscription_resource_id HFunctions.subscription_resource_id := by
  sim_fun

theorem sim_tenant_resource_id : SimF Functions.tenant_resource_id HFunctions.tenant_resource_id := by
  sim_fun

theorem sim_management_group : SimF Functions.management_group HFunctions.management_group := by
  sim_fun

theorem none_truthy (h : Heap) : HV.none.truthy h = false :=
  Rep.truthy (b := false) .none List.nodup_nil

theorem sim_resource_group : SimF Functions.resource_group HFunctions.resource_group := by
  intro h name xs vs F hr hn
  have e0 := none_truthy h
  have e0' : Val.none.truthy = false := rfl
  rcases hr with _ | ⟨h1, _ | ⟨h2, _ | ⟨h3, hr⟩⟩⟩
  · simp only [Functions.resource_group, HFunctions.resource_group, e0, e0', Bool.and_false, Bool.false_eq_true, if_false]
    out_tac
  · simp only [Functions.resource_group, HFunctions.resource_group, e0, e0', Bool.and_false, Bool.false_eq_true, if_false]
    out_tac
  · have hn' := List.nodup_append.mp hn
    have e1 := h1.truthy hn'.1
    have e2 := h2.truthy (by simpa using hn'.2.1)
    simp only [Functions.resource_group, HFunctions.resource_group, e1, e2]
    split <;> out_tac
  · simp only [Functions.resource_group, HFunctions.resource_group, e0, e0', Bool.and_false, Bool.false_eq_true, if_false]
    out_tac

theorem sim_subscription : SimF Functions.subscription HFunctions.subscription := by
  sim_fun

theorem sim_tenant : SimF Functions.tenant HFunctions.tenant := by
  sim_fun

theorem sim_base64_func : SimF Functions.base64_func HFunctions.base64_func := by
  sim_fun

theorem sim_base64_to_json : SimF Functions.base64_to_json HFunctions.base64_to_json := by
  sim_fun

theorem sim_base64_to_string : SimF Functions.base64_to_string HFunctions.base64_to_string := by
  sim_fun

theorem sim_data_uri : SimF Functions.data_uri HFunctions.data_uri := by
  sim_fun

theorem sim_data_uri_to_string : SimF Functions.data_uri_to_string HFunctions.data_uri_to_string := by
  sim_fun

theorem sim_ends_with : SimF Functions.ends_with HFunctions.ends_with := by
  sim_fun

theorem sim_format_func : SimF Functions.format_func HFunctions.format_func := by
  intro h name xs vs F hr hn
  rcases hr with _ | ⟨h1, hr⟩
  · exact .error _
  · exact out_var (.cons h1.weaken (hr.enum _ _).weaken) (by sub_tac)

theorem sim_guid : SimF Functions.guid HFunctions.guid := by
  intro h name xs vs F hr hn
  rcases hr with _ | ⟨h1, hr⟩
  · exact .error _
  · exact out_var (.cons h1.weaken (hr.enum _ _).weaken) (by sub_tac)

theorem sim_index_of : SimF Functions.index_of HFunctions.index_of := by
  sim_fun

theorem sim_last_index_of : SimF Functions.last_index_of HFunctions.last_index_of := by
  sim_fun

theorem sim_new_guid : SimF Functions.new_guid HFunctions.new_guid := by
  sim_fun

theorem sim_pad_left : SimF Functions.pad_left HFunctions.pad_left := by
  sim_fun

theorem sim_replace : SimF Functions.replace HFunctions.replace := by
  sim_fun

theorem sim_split : SimF Functions.split HFunctions.split := by
  sim_fun

theorem sim_join : SimF Functions.join HFunctions.join := by
  sim_fun

theorem sim_starts_with : SimF Functions.starts_with HFunctions.starts_with := by
  sim_fun

theorem sim_string_func : SimF Functions.string_func HFunctions.string_func := by
  sim_fun

theorem sim_substring : SimF Functions.substring HFunctions.substring := by
  sim_fun

theorem sim_to_lower : SimF Functions.to_lower HFunctions.to_lower := by
  sim_fun

theorem sim_to_upper : SimF Functions.to_upper HFunctions.to_upper := by
  sim_fun

theorem sim_trim : SimF Functions.trim HFunctions.trim := by
  sim_fun

theorem sim_unique_string : SimF Functions.unique_string HFunctions.unique_string := by
  intro h name xs vs F hr hn
  rcases hr with _ | ⟨h1, hr⟩
  · exact .error _
  · exact out_var (.cons h1.weaken (hr.enum _ _).weaken) (by sub_tac)

theorem sim_uri : SimF Functions.uri HFunctions.uri := by
  sim_fun

theorem sim_uri_component : SimF Functions.uri_component HFunctions.uri_component := by
  sim_fun

theorem sim_uri_component_to_string : SimF Functions.uri_component_to_string HFunctions.uri_component_to_string := by
  sim_fun

theorem sim_unknown_func : SimF Functions.unknown_func HFunctions.unknown_func := by
  intro h name xs vs F hr hn
  exact out_var (hr.enum _ _).weaken (.refl _)

theorem sim_deco_allowed : SimF Decorators.deco_allowed HDecorators.deco_allowed := by
  sim_fun

theorem sim_deco_batch : SimF Decorators.deco_batch HDecorators.deco_batch := by
  sim_fun

theorem sim_deco_description : SimF Decorators.deco_description HDecorators.deco_description := by
  sim_fun

theorem sim_deco_export : SimF Decorators.deco_export HDecorators.deco_export := by
  sim_fun

theorem sim_deco_min_len : SimF Decorators.deco_min_len HDecorators.deco_min_len := by
  sim_fun

theorem sim_deco_max_len : SimF Decorators.deco_max_len HDecorators.deco_max_len := by
  sim_fun

theorem sim_minValArg {h : Heap} {x : HV} {v : Val} {F : List Nat} (hr : Rep h false x v F) (hn : F.Nodup) :
    Out h F (Decorators.minValArg v) (HDecorators.minValArg h x) := by
  by_cases hv : ∃ d, v = .dict d
  · obtain ⟨d', rfl⟩ := hv
    obtain ⟨d, G, e, hd, hs⟩ := hr.obj_dict
    simp only [Decorators.minValArg, HDecorators.minValArg, e]
    refine (hr.getOrEmpty "operator").bind fun x1 v1 G1 r1 s1 _ => ?_
    refine ((r1.get "type").mono s1).bind fun x2 v2 G2 r2 s2 _ => ?_
    rw [r2.eqStr (s2.nodup hn)]
    split
    · refine ((r1.item "operands").mono s1).bind fun x3 v3 G3 r3 s3 _ => ?_
      refine ((r3.item "integer_value").mono s3).bind fun x4 v4 G4 r4 s4 _ => ?_
      exact r4.mulNegOne.mono s4
    · exact .ok hr.weaken (.refl _)
  · have hd := hr.obj_not_dict (fun d e => hv ⟨d, e⟩)
    have e1 : Decorators.minValArg v = .ok v := by
      cases v with
      | dict d => exact absurd ⟨d, rfl⟩ hv
      | _ => rfl
    have e2 : HDecorators.minValArg h x = .ok x := by
      unfold HDecorators.minValArg
      split
      · rename_i d e; exact absurd e (hd d)
      · rfl
    rw [e1, e2]; exact .ok hr.weaken (.refl _)

theorem rep_ddata {h : Heap} {x : HV} {v : Val} {G : List Nat} (t : String) (hx : Rep h true x v G) :
    Rep h true (HDecorators.ddata t x) (Decorators.ddata t v) G := by
  have h1 : RepI h true [("argument", x)] [("argument", v)] (G ++ []) := .cons hx .nil
  rw [List.append_nil] at h1
  exact .dict (.cons (.str t) h1)

theorem sim_deco_min_val : SimF Decorators.deco_min_val HDecorators.deco_min_val := by
  intro h name xs vs F hr hn
  rcases hr with _ | ⟨h1, hr⟩
  · exact .error _
  · refine ((sim_minValArg h1 (List.nodup_append.mp hn).1).map fun x v G hx => ?_).mono (by sub_tac)
    exact rep_ddata "min_value" hx

theorem sim_deco_max_val : SimF Decorators.deco_max_val HDecorators.deco_max_val := by
  intro h name xs vs F hr hn
  rcases hr with _ | ⟨h1, hr⟩
  · exact .error _
  · refine ((h1.pyInt (List.nodup_append.mp hn).1).map fun x v G hx => ?_).mono (by sub_tac)
    exact rep_ddata "max_value" hx

theorem sim_deco_metadata : SimF Decorators.deco_metadata HDecorators.deco_metadata := by
  sim_fun

theorem sim_deco_sealed : SimF Decorators.deco_sealed HDecorators.deco_sealed := by
  sim_fun

theorem sim_deco_secure : SimF Decorators.deco_secure HDecorators.deco_secure := by
  sim_fun

theorem sim_unknown_deco : SimF Decorators.unknown_deco HDecorators.unknown_deco := by
  sim_fun

/-! ### the tables -/

theorem lookup_sim {α β : Type} {R : α → β → Prop} {l : List (String × α)} {l' : List (String × β)}
    (hl : List.Forall₂ (fun p q => p.1 = q.1 ∧ R p.2 q.2) l l') (k : String) :
    (l.lookup k = none ∧ l'.lookup k = none) ∨ ∃ x y, l.lookup k = some x ∧ l'.lookup k = some y ∧ R x y := by
  induction hl with
  | nil => exact .inl ⟨rfl, rfl⟩
  | @cons p q l l' h1 h2 ih =>
    obtain ⟨k1, x⟩ := p
    obtain ⟨k2, y⟩ := q
    obtain ⟨rfl, hxy⟩ := h1
    simp only [List.lookup]
    split
    · exact .inr ⟨x, y, rfl, rfl, hxy⟩
    · exact ih

theorem sim_FUNCTIONS : List.Forall₂ (fun p q => p.1 = q.1 ∧ SimF p.2 q.2) Functions.FUNCTIONS HFunctions.FUNCTIONS := by
  unfold Functions.FUNCTIONS HFunctions.FUNCTIONS
  repeat' first
    | exact List.Forall₂.nil
    | refine List.Forall₂.cons ⟨rfl, ?_⟩ ?_
    | exact sim_any_func
    | exact sim_array_func
    | exact sim_concat
    | exact sim_contains
    | exact sim_empty
    | exact sim_first
    | exact sim_flatten
    | exact sim_intersection
    | exact sim_last
    | exact sim_length
    | exact sim_max_func
    | exact sim_min_func
    | exact sim_range_func
    | exact sim_skip
    | exact sim_take
    | exact sim_union
    | exact sim_date_time_add
    | exact sim_date_time_from_epoch
    | exact sim_date_time_to_epoch
    | exact sim_utc_now
    | exact sim_deployment
    | exact sim_environment
    | exact sim_load_text_content
    | exact sim_load_json_content
    | exact sim_load_yaml_content
    | exact sim_load_file_as_base64
    | exact sim_filter_func
    | exact sim_bool_func
    | exact sim_int_func
    | exact sim_json_func
    | exact sim_extension_resource_id
    | exact sim_list_func
    | exact sim_management_group_resource_id
    | exact sim_pick_zones
    | exact sim_reference
    | exact sim_resource_id
    | exact sim_subscription_resource_id
    | exact sim_tenant_resource_id
    | exact sim_management_group
    | exact sim_resource_group
    | exact sim_subscription
    | exact sim_tenant
    | exact sim_base64_func
    | exact sim_base64_to_json
    | exact sim_base64_to_string
    | exact sim_data_uri
    | exact sim_data_uri_to_string
    | exact sim_ends_with
    | exact sim_format_func
    | exact sim_guid
    | exact sim_index_of
    | exact sim_last_index_of
    | exact sim_new_guid
    | exact sim_pad_left
    | exact sim_replace
    | exact sim_split
    | exact sim_join
    | exact sim_starts_with
    | exact sim_string_func
    | exact sim_substring
    | exact sim_to_lower
    | exact sim_to_upper
    | exact sim_trim
    | exact sim_unique_string
    | exact sim_uri
    | exact sim_uri_component
    | exact sim_uri_component_to_string

theorem sim_DECORATORS : List.Forall₂ (fun p q => p.1 = q.1 ∧ SimF p.2 q.2) Decorators.DECORATORS HDecorators.DECORATORS := by
  unfold Decorators.DECORATORS HDecorators.DECORATORS
  repeat' first
    | exact List.Forall₂.nil
    | refine List.Forall₂.cons ⟨rfl, ?_⟩ ?_
    | exact sim_deco_allowed
    | exact sim_deco_batch
    | exact sim_deco_description
    | exact sim_deco_export
    | exact sim_deco_min_len
    | exact sim_deco_max_len
    | exact sim_deco_min_val
    | exact sim_deco_max_val
    | exact sim_deco_metadata
    | exact sim_deco_sealed
    | exact sim_deco_secure

theorem sim_getFunction (name : String) : SimF (Functions.getFunction name) (HFunctions.getFunction name) := by
  unfold Functions.getFunction HFunctions.getFunction
  rcases lookup_sim sim_FUNCTIONS name with ⟨e1, e2⟩ | ⟨f, g, e1, e2, hfg⟩
  · rw [e1, e2]; exact sim_unknown_func
  · rw [e1, e2]; exact hfg

theorem sim_getDecorator (name : String) : SimF (Decorators.getDecorator name) (HDecorators.getDecorator name) := by
  unfold Decorators.getDecorator HDecorators.getDecorator
  rcases lookup_sim sim_DECORATORS name with ⟨e1, e2⟩ | ⟨f, g, e1, e2, hfg⟩
  · rw [e1, e2]; exact sim_unknown_deco
  · rw [e1, e2]; exact hfg

end Pycep.Mem
