import Verif.Props.Additive
/-
C55: what line numbers change, for every program.

C12 is about programs that nest resources only where they are extracted.  Here programs are
arbitrary: nested resources may occur anywhere in expressions, and their line entries show up
wherever the code leaves them, even in printed texts.
-/
namespace Pycep

/-- the keys under which a text is found that is printed from values: the source of a loop over an
object, the variables of a lambda, the alternatives of a type -/
def PrintedKey (k : String) : Prop := k = "object_name" ∨ k = "value" ∨ ∃ n : Nat, k = "var_" ++ toString n

/-- the text printed from values -/
def printed (vs : List Val) : String := " | ".intercalate (vs.map Val.pyStr)

mutual
/-- `Lined v v'`: the value `v'` is `v` in which some nested resources got line entries. -/
inductive Lined : Val → Val → Prop where
  | none : Lined .none .none
  | bool {b} : Lined (.bool b) (.bool b)
  | int {i} : Lined (.int i) (.int i)
  | str {s} : Lined (.str s) (.str s)
  | elem {s} : Lined (.elem s) (.elem s)
  | list {l l'} : LinedL l l' → Lined (.list l) (.list l')
  | dict {d d'} : LinedD d d' → Lined (.dict d) (.dict d')
/-- the same for lists, one by one -/
inductive LinedL : List Val → List Val → Prop where
  | nil : LinedL [] []
  | cons {v v' l l'} : Lined v v' → LinedL l l' → LinedL (v :: l) (v' :: l')
/-- The same for dictionaries: the same keys in the same order, each with the same value up to line
entries; line entries are found behind the entry `config`, and texts may have been printed from
values with line entries. -/
inductive LinedD : List (String × Val) → List (String × Val) → Prop where
  | nil : LinedD [] []
  | cons {k v v' d d'} : Lined v v' → LinedD d d' → LinedD ((k, v) :: d) ((k, v') :: d')
  | text {k vs vs' d d'} : PrintedKey k → LinedL vs vs' → LinedD d d' →
      LinedD ((k, .str (printed vs)) :: d) ((k, .str (printed vs')) :: d')
  | lines {v v' d d'} {s e : Nat} : Lined v v' → LinedD d d' → LinedD (("config", v) :: d)
      (("config", v') :: ("__start_line__", .int s) :: ("__end_line__", .int e) :: d')
end

theorem printed_one (v : Val) : printed [v] = v.pyStr := rfl

theorem Lined.truthy {v v' : Val} (h : Lined v v') : v.truthy = v'.truthy := by
  cases h with
  | list h => cases h <;> rfl
  | dict h => cases h <;> rfl
  | _ => rfl

theorem Lined.eqStr {v v' : Val} (h : Lined v v') (s : String) : v.eqStr s = v'.eqStr s := by
  cases h <;> rfl

theorem LinedL.append {a a' b b' : List Val} (h : LinedL a a') (h' : LinedL b b') : LinedL (a ++ b) (a' ++ b') := by
  induction a generalizing a' with
  | nil => cases h; exact h'
  | cons v a ih => cases h with | cons h1 h2 => exact .cons h1 (ih h2)

/-- the keys the transformer looks up -/
def Looked (k : String) : Prop := k ≠ "__start_line__" ∧ k ≠ "__end_line__" ∧ ¬ PrintedKey k

/-- entries that are found in both or in none -/
inductive Both : Option Val → Option Val → Prop where
  | none : Both .none .none
  | some {v v'} : Lined v v' → Both (some v) (some v')

theorem LinedD.get {k : String} (hk : Looked k) : ∀ {d d' : List (String × Val)}, LinedD d d' →
    Both (dGet k d) (dGet k d')
  | _, _, .nil => .none
  | _, _, .cons (k := k') h1 h2 => by
    rw [dGet, dGet]
    split
    · exact .some h1
    · exact LinedD.get hk h2
  | _, _, .text (k := k') h1 _ h2 => by
    rw [dGet, dGet, if_neg (by rintro rfl; exact hk.2.2 h1), if_neg (by rintro rfl; exact hk.2.2 h1)]
    exact LinedD.get hk h2
  | _, _, .lines h1 h2 => by
    rw [dGet, dGet]
    split
    · exact .some h1
    · rw [dGet, if_neg (Ne.symm hk.1), dGet, if_neg (Ne.symm hk.2.1)]
      exact LinedD.get hk h2

theorem LinedD.erase {k : String} (hk : Looked k) (hc : k ≠ "config") : ∀ {d d' : List (String × Val)}, LinedD d d' →
    LinedD (dErase k d) (dErase k d')
  | _, _, .nil => .nil
  | _, _, .cons (k := k') h1 h2 => by
    rw [dErase, dErase]
    split
    · exact h2
    · exact .cons h1 (LinedD.erase hk hc h2)
  | _, _, .text (k := k') h1 h3 h2 => by
    rw [dErase, dErase, if_neg (by rintro rfl; exact hk.2.2 h1), if_neg (by rintro rfl; exact hk.2.2 h1)]
    exact .text h1 h3 (LinedD.erase hk hc h2)
  | _, _, .lines h1 h2 => by
    rw [dErase, dErase, if_neg hc.symm, if_neg hc.symm, dErase, if_neg (Ne.symm hk.1), dErase, if_neg (Ne.symm hk.2.1)]
    exact .lines h1 (LinedD.erase hk hc h2)

theorem LinedD.set {k : String} (hk : Looked k) {x x' : Val} (hx : Lined x x') : ∀ {d d' : List (String × Val)},
    LinedD d d' → LinedD (dSet k x d) (dSet k x' d')
  | _, _, .nil => .cons hx .nil
  | _, _, .cons (k := k') h1 h2 => by
    rw [dSet, dSet]
    split
    · exact .cons hx h2
    · exact .cons h1 (LinedD.set hk hx h2)
  | _, _, .text (k := k') h1 h3 h2 => by
    rw [dSet, dSet, if_neg (by rintro rfl; exact hk.2.2 h1), if_neg (by rintro rfl; exact hk.2.2 h1)]
    exact .text h1 h3 (LinedD.set hk hx h2)
  | _, _, .lines h1 h2 => by
    rw [dSet, dSet]
    split
    · rename_i h; subst h; exact .lines hx h2
    · rw [dSet, if_neg (Ne.symm hk.1), dSet, if_neg (Ne.symm hk.2.1)]
      exact .lines h1 (LinedD.set hk hx h2)

theorem LinedD.append {a a' b b' : List (String × Val)} (h : LinedD a a') (h' : LinedD b b') :
    LinedD (a ++ b) (a' ++ b') := by
  match h with
  | .nil => exact h'
  | .cons h1 h2 => exact .cons h1 (h2.append h')
  | .text h1 h3 h2 => exact .text h1 h3 (h2.append h')
  | .lines h1 h2 => exact .lines h1 (h2.append h')

theorem linedL_refl {l : List Val} (h : ∀ v ∈ l, Lined v v) : LinedL l l := by
  induction l with
  | nil => exact .nil
  | cons v l ih => exact .cons (h v (by simp)) (ih fun w hw => h w (by simp [hw]))

theorem linedD_refl {d : List (String × Val)} (h : ∀ p ∈ d, Lined p.2 p.2) : LinedD d d := by
  induction d with
  | nil => exact .nil
  | cons p d ih => exact .cons (h p (by simp)) (ih fun w hw => h w (by simp [hw]))

theorem Lined.refl {K : String → Prop} {v : Val} (h : Json K v) : Lined v v := by
  induction h with
  | list _ ih => exact .list (linedL_refl ih)
  | dict _ _ _ ih => exact .dict (linedD_refl ih)
  | none => exact .none
  | bool => exact .bool
  | int => exact .int
  | str => exact .str
  | elem => exact .elem

/-! ### functions and decorators -/

/-- pairs with the same keys and related values -/
def LinedP (p q : String × Val) : Prop := p.1 = q.1 ∧ Lined p.2 q.2

theorem LinedD.of_pairs {d d' : List (String × Val)} (h : List.Forall₂ LinedP d d') : LinedD d d' := by
  induction h with
  | nil => exact .nil
  | @cons p q d d' h _ ih =>
    obtain ⟨k, v⟩ := p
    obtain ⟨k', v'⟩ := q
    obtain ⟨h1, h2⟩ := h
    simp only at h1 h2
    subst h1
    exact .cons h2 ih

theorem dSet_pairs {k : String} {x x' : Val} (hx : Lined x x') {d d' : List (String × Val)}
    (h : List.Forall₂ LinedP d d') : List.Forall₂ LinedP (dSet k x d) (dSet k x' d') := by
  induction h with
  | nil => exact .cons ⟨rfl, hx⟩ .nil
  | @cons p q d d' h hd ih =>
    obtain ⟨k, v⟩ := p
    obtain ⟨k', v'⟩ := q
    obtain ⟨h1, h2⟩ := h
    simp only at h1 h2
    subst h1
    rw [dSet, dSet]
    split
    · exact .cons ⟨rfl, hx⟩ hd
    · exact .cons ⟨rfl, h2⟩ ih

theorem mkDict_pairs {ps ps' : List (String × Val)} (h : List.Forall₂ LinedP ps ps') :
    List.Forall₂ LinedP (mkDict ps) (mkDict ps') := by
  unfold mkDict
  have key : ∀ {d d' : List (String × Val)}, List.Forall₂ LinedP d d' →
      List.Forall₂ LinedP (ps.foldl (fun d p => dSet p.1 p.2 d) d) (ps'.foldl (fun d p => dSet p.1 p.2 d) d') := by
    induction h with
    | nil => intro d d' h; exact h
    | @cons p q ps ps' h _ ih =>
      intro d d' hd
      rw [List.foldl_cons, List.foldl_cons]
      refine ih ?_
      rw [h.1]
      exact dSet_pairs h.2 hd
  exact key .nil

theorem enumKeys_pairs (pre : String) : ∀ (n : Nat) {vs vs' : List Val}, LinedL vs vs' →
    List.Forall₂ LinedP (enumKeys pre n vs) (enumKeys pre n vs')
  | _, _, _, .nil => .nil
  | n, _, _, .cons h1 h2 => .cons ⟨rfl, h1⟩ (enumKeys_pairs pre (n + 1) h2)

open Functions

/-- a function that does not look at what line entries change -/
def Natural (g : FuncDef) : Prop :=
  ∀ n {args args'}, LinedL args args' → Agree Lined (g n args) (g n args')

theorem fdata_lined {t : String} {ps ps' : List (String × Val)} (h : List.Forall₂ LinedP ps ps') :
    Agree (ε := PyErr) Lined (.ok (fdata t ps)) (.ok (fdata t ps')) :=
  .ok (.dict (.cons .str (.cons (.dict (.of_pairs h)) .nil)))

/-- splits related argument lists and compares what is reported -/
macro "natural" f:ident : tactic => `(tactic| (
  intro n args args' h
  unfold $f:ident
  rcases h with _ | ⟨h1, _ | ⟨h2, _ | ⟨h3, _ | ⟨h4, _ | ⟨h5, _ | ⟨h6, h7⟩⟩⟩⟩⟩⟩ <;>
  first
  | exact .err
  | exact .ok (.dict (.cons .str .nil))
  | (refine fdata_lined ?_
     repeat' first
       | assumption
       | exact List.Forall₂.nil
       | exact Lined.none
       | exact Lined.str
       | exact LinedL.nil
       | refine LinedL.cons ?_ ?_
       | refine mkDict_pairs ?_
       | refine enumKeys_pairs _ _ ?_
       | refine List.Forall₂.cons ⟨rfl, ?_⟩ ?_
       | refine List.rel_append ?_ ?_)))

theorem natural_resource_group : Natural resource_group := by
  intro n args args' h
  unfold resource_group
  have key : ∀ {a a' b b' : Val}, Lined a a' → Lined b b' → Agree (ε := PyErr) Lined
      (match (if a.truthy && b.truthy then (b, a) else (a, b) : Val × Val) with
        | (rg, sub) => .ok (fdata "resource_group" [("resource_group_name", rg), ("subscription_id", sub)]))
      (match (if a'.truthy && b'.truthy then (b', a') else (a', b') : Val × Val) with
        | (rg, sub) => .ok (fdata "resource_group" [("resource_group_name", rg), ("subscription_id", sub)])) := by
    intro a a' b b' ha hb
    rw [ha.truthy, hb.truthy]
    by_cases hc : (a'.truthy && b'.truthy) = true
    · rw [if_pos hc, if_pos hc]
      exact fdata_lined (.cons ⟨rfl, hb⟩ (.cons ⟨rfl, ha⟩ .nil))
    · rw [if_neg hc, if_neg hc]
      exact fdata_lined (.cons ⟨rfl, ha⟩ (.cons ⟨rfl, hb⟩ .nil))
  rcases h with _ | ⟨h1, _ | ⟨h2, _ | ⟨h3, h4⟩⟩⟩
  · exact key .none .none
  · exact key h1 .none
  · exact key h1 h2
  · exact key .none .none

theorem natural_unknown : Natural unknown_func := by
  intro n args args' h
  exact .ok (.dict (.cons .str (.cons (.dict (.of_pairs (mkDict_pairs (enumKeys_pairs _ _ h)))) .nil)))

theorem natural_any_func : Natural any_func := by natural any_func
theorem natural_array_func : Natural array_func := by natural array_func
theorem natural_concat : Natural concat := by natural concat
theorem natural_contains : Natural contains := by natural contains
theorem natural_empty : Natural empty := by natural empty
theorem natural_first : Natural first := by natural first
theorem natural_flatten : Natural flatten := by natural flatten
theorem natural_intersection : Natural intersection := by natural intersection
theorem natural_last : Natural last := by natural last
theorem natural_length : Natural length := by natural length
theorem natural_max_func : Natural max_func := by natural max_func
theorem natural_min_func : Natural min_func := by natural min_func
theorem natural_range_func : Natural range_func := by natural range_func
theorem natural_skip : Natural skip := by natural skip
theorem natural_take : Natural take := by natural take
theorem natural_union : Natural union := by natural union
theorem natural_date_time_add : Natural date_time_add := by natural date_time_add
theorem natural_date_time_from_epoch : Natural date_time_from_epoch := by natural date_time_from_epoch
theorem natural_date_time_to_epoch : Natural date_time_to_epoch := by natural date_time_to_epoch
theorem natural_utc_now : Natural utc_now := by natural utc_now
theorem natural_deployment : Natural deployment := by natural deployment
theorem natural_environment : Natural environment := by natural environment
theorem natural_load_text_content : Natural load_text_content := by natural load_text_content
theorem natural_load_json_content : Natural load_json_content := by natural load_json_content
theorem natural_load_yaml_content : Natural load_yaml_content := by natural load_yaml_content
theorem natural_load_file_as_base64 : Natural load_file_as_base64 := by natural load_file_as_base64
theorem natural_filter_func : Natural filter_func := by natural filter_func
theorem natural_bool_func : Natural bool_func := by natural bool_func
theorem natural_int_func : Natural int_func := by natural int_func
theorem natural_json_func : Natural json_func := by natural json_func
theorem natural_extension_resource_id : Natural extension_resource_id := by natural extension_resource_id
theorem natural_list_func : Natural list_func := by natural list_func
theorem natural_management_group_resource_id : Natural management_group_resource_id := by natural management_group_resource_id
theorem natural_pick_zones : Natural pick_zones := by natural pick_zones
theorem natural_reference : Natural reference := by natural reference
theorem natural_resource_id : Natural resource_id := by natural resource_id
theorem natural_subscription_resource_id : Natural subscription_resource_id := by natural subscription_resource_id
theorem natural_tenant_resource_id : Natural tenant_resource_id := by natural tenant_resource_id
theorem natural_management_group : Natural management_group := by natural management_group
theorem natural_subscription : Natural subscription := by natural subscription
theorem natural_tenant : Natural tenant := by natural tenant
theorem natural_base64_func : Natural base64_func := by natural base64_func
theorem natural_base64_to_json : Natural base64_to_json := by natural base64_to_json
theorem natural_base64_to_string : Natural base64_to_string := by natural base64_to_string
theorem natural_data_uri : Natural data_uri := by natural data_uri
theorem natural_data_uri_to_string : Natural data_uri_to_string := by natural data_uri_to_string
theorem natural_ends_with : Natural ends_with := by natural ends_with
theorem natural_format_func : Natural format_func := by natural format_func
theorem natural_guid : Natural guid := by natural guid
theorem natural_index_of : Natural index_of := by natural index_of
theorem natural_last_index_of : Natural last_index_of := by natural last_index_of
theorem natural_new_guid : Natural new_guid := by natural new_guid
theorem natural_pad_left : Natural pad_left := by natural pad_left
theorem natural_replace : Natural replace := by natural replace
theorem natural_split : Natural split := by natural split
theorem natural_join : Natural join := by natural join
theorem natural_starts_with : Natural starts_with := by natural starts_with
theorem natural_string_func : Natural string_func := by natural string_func
theorem natural_substring : Natural substring := by natural substring
theorem natural_to_lower : Natural to_lower := by natural to_lower
theorem natural_to_upper : Natural to_upper := by natural to_upper
theorem natural_trim : Natural trim := by natural trim
theorem natural_unique_string : Natural unique_string := by natural unique_string
theorem natural_uri : Natural uri := by natural uri
theorem natural_uri_component : Natural uri_component := by natural uri_component
theorem natural_uri_component_to_string : Natural uri_component_to_string := by natural uri_component_to_string

theorem natural_table : ∀ e ∈ FUNCTIONS, Natural e.2 := by
  unfold FUNCTIONS
  simp only [List.forall_mem_cons]
  exact ⟨natural_any_func,
    natural_any_func,
    natural_array_func,
    natural_array_func,
    natural_concat,
    natural_concat,
    natural_contains,
    natural_contains,
    natural_empty,
    natural_empty,
    natural_first,
    natural_first,
    natural_flatten,
    natural_flatten,
    natural_intersection,
    natural_intersection,
    natural_last,
    natural_last,
    natural_length,
    natural_length,
    natural_max_func,
    natural_max_func,
    natural_min_func,
    natural_min_func,
    natural_range_func,
    natural_range_func,
    natural_skip,
    natural_skip,
    natural_take,
    natural_take,
    natural_union,
    natural_union,
    natural_date_time_add,
    natural_date_time_add,
    natural_date_time_from_epoch,
    natural_date_time_from_epoch,
    natural_date_time_to_epoch,
    natural_date_time_to_epoch,
    natural_utc_now,
    natural_utc_now,
    natural_deployment,
    natural_deployment,
    natural_environment,
    natural_environment,
    natural_load_file_as_base64,
    natural_load_file_as_base64,
    natural_load_json_content,
    natural_load_json_content,
    natural_load_text_content,
    natural_load_text_content,
    natural_load_yaml_content,
    natural_load_yaml_content,
    natural_filter_func,
    natural_filter_func,
    natural_bool_func,
    natural_bool_func,
    natural_int_func,
    natural_int_func,
    natural_json_func,
    natural_json_func,
    natural_extension_resource_id,
    natural_extension_resource_id,
    natural_list_func,
    natural_list_func,
    natural_management_group_resource_id,
    natural_management_group_resource_id,
    natural_pick_zones,
    natural_pick_zones,
    natural_reference,
    natural_reference,
    natural_resource_id,
    natural_resource_id,
    natural_subscription_resource_id,
    natural_subscription_resource_id,
    natural_tenant_resource_id,
    natural_tenant_resource_id,
    natural_management_group,
    natural_management_group,
    natural_resource_group,
    natural_resource_group,
    natural_subscription,
    natural_subscription,
    natural_tenant,
    natural_tenant,
    natural_base64_func,
    natural_base64_func,
    natural_base64_to_json,
    natural_base64_to_json,
    natural_base64_to_string,
    natural_base64_to_string,
    natural_data_uri,
    natural_data_uri,
    natural_data_uri_to_string,
    natural_data_uri_to_string,
    natural_ends_with,
    natural_ends_with,
    natural_format_func,
    natural_format_func,
    natural_guid,
    natural_guid,
    natural_index_of,
    natural_index_of,
    natural_join,
    natural_join,
    natural_last_index_of,
    natural_last_index_of,
    natural_new_guid,
    natural_new_guid,
    natural_pad_left,
    natural_pad_left,
    natural_replace,
    natural_replace,
    natural_split,
    natural_split,
    natural_starts_with,
    natural_starts_with,
    natural_string_func,
    natural_string_func,
    natural_substring,
    natural_substring,
    natural_to_lower,
    natural_to_lower,
    natural_to_upper,
    natural_to_upper,
    natural_trim,
    natural_trim,
    natural_unique_string,
    natural_unique_string,
    natural_uri,
    natural_uri,
    natural_uri_component,
    natural_uri_component,
    natural_uri_component_to_string,
    natural_uri_component_to_string, by simp⟩

theorem mem_of_lookup {α : Type} {k : String} {a : α} : ∀ {l : List (String × α)}, l.lookup k = some a → (k, a) ∈ l
  | [], h => by simp at h
  | (k', b) :: l, h => by
    rw [List.lookup_cons] at h
    cases hb : k == k' with
    | true => rw [hb] at h; cases h; rw [beq_iff_eq.mp hb]; exact List.mem_cons_self ..
    | false => rw [hb] at h; exact List.mem_cons_of_mem _ (mem_of_lookup h)

theorem natural_getFunction (f : String) : Natural (getFunction f) := by
  unfold getFunction
  split
  · rename_i g hg
    exact natural_table _ (mem_of_lookup hg)
  · exact natural_unknown

/-! ### looking things up -/

theorem Lined.item {v v' : Val} (h : Lined v v') {k : String} (hk : Looked k) : Agree Lined (v.item k) (v'.item k) := by
  cases h with
  | dict h =>
    unfold Val.item
    simp only
    have := h.get hk
    generalize dGet k _ = x at this
    generalize dGet k _ = y at this
    cases this with
    | none => exact .err
    | some h => exact .ok h
  | _ => exact .err

theorem Lined.get {v v' : Val} (h : Lined v v') {k : String} (hk : Looked k) : Agree Lined (v.get k) (v'.get k) := by
  cases h with
  | dict h =>
    unfold Val.get
    simp only
    have := h.get hk
    generalize dGet k _ = x at this
    generalize dGet k _ = y at this
    cases this with
    | none => exact .ok .none
    | some h => exact .ok h
  | _ => exact .err

theorem Lined.getOrEmpty {v v' : Val} (h : Lined v v') {k : String} (hk : Looked k) :
    Agree Lined (v.getOrEmpty k) (v'.getOrEmpty k) := by
  cases h with
  | dict h =>
    unfold Val.getOrEmpty
    simp only
    have := h.get hk
    generalize dGet k _ = x at this
    generalize dGet k _ = y at this
    cases this with
    | none => exact .ok (.dict .nil)
    | some h => exact .ok h
  | _ => exact .err

/-- a key that does not start like the name of a variable of a lambda is not one of the printed keys -/
theorem looked_of {k : String} (h1 : k ≠ "__start_line__") (h2 : k ≠ "__end_line__") (h3 : k ≠ "object_name")
    (h4 : k ≠ "value") (h5 : "var_".toList.isPrefixOf k.toList = false) : Looked k := by
  refine ⟨h1, h2, ?_⟩
  rintro (h | h | ⟨n, rfl⟩)
  · exact h3 h
  · exact h4 h
  · have : "var_".toList <+: ("var_" ++ toString n).toList := by
      rw [String.toList_append]; exact List.prefix_append ..
    rw [List.isPrefixOf_iff_prefix.mpr this] at h5
    cases h5

macro "looked" : term => `(looked_of (by decide) (by decide) (by decide) (by decide) (by decide))

theorem lined_loopCondition {v v' : Val} (h : Lined v v') : Agree Lined (loopCondition v) (loopCondition v') := by
  have hv := h
  cases h with
  | dict h =>
    unfold loopCondition
    simp only
    refine (hv.getOrEmpty looked).bind fun f f' hf => ?_
    refine (hf.get looked).bind fun t t' ht => ?_
    rw [ht.eqStr]
    split
    · exact (hf.item looked).bind fun p p' hp => hp.item looked
    · exact .ok hv
  | _ => exact .ok hv

theorem lined_mulNegOne {v v' : Val} (h : Lined v v') : Agree Lined (mulNegOne v) (mulNegOne v') := by
  cases h with
  | dict h => exact .err
  | none => exact .err
  | bool => exact .ok .int
  | int => exact .ok .int
  | str => exact .ok .str
  | elem => exact .ok .str
  | list => exact .ok (.list .nil)

theorem lined_minValArg {v v' : Val} (h : Lined v v') :
    Agree Lined (Decorators.minValArg v) (Decorators.minValArg v') := by
  have hv := h
  cases h with
  | dict h =>
    unfold Decorators.minValArg
    simp only
    refine (hv.getOrEmpty looked).bind fun f f' hf => ?_
    refine (hf.get looked).bind fun t t' ht => ?_
    rw [ht.eqStr]
    split
    · exact (hf.item looked).bind fun p p' hp => (hp.item looked).bind fun n n' hn => lined_mulNegOne hn
    · exact .ok hv
  | _ => exact .ok hv

theorem lined_pyInt {v v' : Val} (h : Lined v v') : Agree Lined (pyInt v) (pyInt v') := by
  have key : ∀ s, Agree Lined ((intOfStr s).map Val.int) ((intOfStr s).map Val.int) := by
    intro s
    generalize intOfStr s = x
    cases x with
    | error => exact .err
    | ok => exact .ok .int
  cases h with
  | dict h => exact .err
  | none => exact .err
  | bool => exact .ok .int
  | int => exact .ok .int
  | str => exact key _
  | elem => exact key _
  | list => exact .err

theorem lined_ddata {t : String} {v v' : Val} (h : Lined v v') :
    Lined (Decorators.ddata t v) (Decorators.ddata t v') := .dict (.cons .str (.cons h .nil))

open Decorators in
theorem natural_getDecorator (f n : String) {args args' : List Val} (h : LinedL args args') :
    Agree Lined (getDecorator f n args) (getDecorator f n args') := by
  have hflag : ∀ t : String, Agree (ε := PyErr) Lined (.ok (.dict [("type", .str t)])) (.ok (.dict [("type", .str t)])) :=
    fun t => .ok (.dict (.cons .str .nil))
  have hmap : ∀ {t : String} {x y : Except PyErr Val}, Agree Lined x y → Agree Lined (x.map (ddata t)) (y.map (ddata t)) := by
    intro t x y h
    cases h with
    | err => exact .err
    | ok h => exact .ok (lined_ddata h)
  have table : ∀ e ∈ DECORATORS, Agree Lined (e.2 n args) (e.2 n args') := by
    unfold DECORATORS
    simp only [List.forall_mem_cons]
    refine ⟨?_, ?_, ?_, ?_, ?_, ?_, ?_, ?_, ?_, ?_, ?_, ?_, ?_, ?_, ?_, ?_, ?_, ?_, ?_, ?_, ?_, ?_, by simp⟩
    all_goals first
      | exact hflag _
      | (cases h with
         | nil => exact .err
         | cons h _ => first | exact .ok (lined_ddata h) | exact hmap (lined_minValArg h) | exact hmap (lined_pyInt h))
  unfold getDecorator
  cases hg : DECORATORS.lookup f with
  | some g => exact table _ (mem_of_lookup hg)
  | none =>
    cases h with
    | nil => exact hflag _
    | cons h _ => exact .ok (lined_ddata h)

/-! ### expressions -/

theorem lined_op {t : String} {d d' : List (String × Val)} (h : LinedD d d') : Lined (opVal t d) (opVal t d') :=
  .dict (.cons (.dict (.cons .str (.cons (.dict h) .nil))) .nil)

theorem numbered_pairs (pre : String) : ∀ (n : Nat) {vs vs' : List Val}, LinedL vs vs' →
    List.Forall₂ LinedP (numbered pre n vs) (numbered pre n vs')
  | _, _, _, .nil => .nil
  | n, _, _, .cons h1 h2 => .cons ⟨rfl, h1⟩ (numbered_pairs pre (n + 1) h2)

theorem filter_pairs {ps ps' : List (String × Val)} (h : List.Forall₂ LinedP ps ps') :
    List.Forall₂ LinedP (ps.filter (fun p => p.2.truthy)) (ps'.filter (fun p => p.2.truthy)) := by
  induction h with
  | nil => exact .nil
  | cons h _ ih =>
    rw [List.filter_cons, List.filter_cons, h.2.truthy]
    split
    · exact .cons h ih
    · exact ih

theorem numbered_texts : ∀ (n : Nat) {vs vs' : List Val} {d d' : List (String × Val)}, LinedL vs vs' → LinedD d d' →
    LinedD (numbered "var_" n (vs.map (fun x => .str x.pyStr)) ++ d)
      (numbered "var_" n (vs'.map (fun x => .str x.pyStr)) ++ d')
  | _, _, _, _, _, .nil, hd => hd
  | n, _, _, _, _, .cons h1 h2, hd => by
    simp only [List.map_cons, numbered, List.cons_append]
    rw [← printed_one, ← printed_one]
    exact .text (.inr (.inr ⟨n, rfl⟩)) (.cons h1 .nil) (numbered_texts (n + 1) h2 hd)

theorem Agree.self {ε α : Type} {R : α → α → Prop} {x : Except ε α} (h : ∀ a, x = .ok a → R a a) : Agree R x x := by
  cases x with
  | error => exact .err
  | ok a => exact .ok (h a rfl)

mutual
theorem lined_expr : (e : Expr) → Agree Lined (e.val false) (e.val true)
  | .null => by rw [Expr.val, Expr.val]; exact .ok .none
  | .tru => by rw [Expr.val, Expr.val]; exact .ok .bool
  | .fls => by rw [Expr.val, Expr.val]; exact .ok .bool
  | .int d => by
    rw [Expr.val, Expr.val]
    split
    · exact .ok .int
    · exact .err
  | .ident _ => by rw [Expr.val, Expr.val]; exact .ok .elem
  | .str _ => by rw [Expr.val, Expr.val]; exact .ok .str
  | .multi _ => by rw [Expr.val, Expr.val]; exact .ok .str
  | .array es => by
    rw [Expr.val, Expr.val]
    exact (lined_exprs es).bind fun _ _ h => .ok (.list h)
  | .object is => by
    rw [Expr.val, Expr.val]
    exact (lined_items is).bind fun _ _ h => .ok (.dict (.of_pairs (lastWins_forall₂ h)))
  | .call f es => by
    rw [Expr.val, Expr.val]
    exact (lined_exprs es).bind fun _ _ h => ((natural_getFunction _ _ h).inRule).bind fun _ _ h =>
      .ok (.dict (.cons h .nil))
  | .bin _ a b => by
    rw [Expr.val, Expr.val]
    exact (lined_expr a).bind fun _ _ h1 => (lined_expr b).bind fun _ _ h2 =>
      .ok (lined_op (.cons h1 (.cons h2 .nil)))
  | .not a => by
    rw [Expr.val, Expr.val]
    exact (lined_expr a).bind fun _ _ h1 => .ok (lined_op (.cons h1 .nil))
  | .minus a => by
    rw [Expr.val, Expr.val]
    exact (lined_expr a).bind fun _ _ h1 => .ok (lined_op (.cons h1 .nil))
  | .cond c t f => by
    rw [Expr.val, Expr.val]
    exact (lined_expr c).bind fun _ _ h1 => (lined_expr t).bind fun _ _ h2 => (lined_expr f).bind fun _ _ h3 =>
      .ok (lined_op (.cons h1 (.cons h2 (.cons h3 .nil))))
  | .method a f args => by
    rw [Expr.val, Expr.val]
    exact (lined_expr a).bind fun _ _ h1 => (lined_optExprs args).bind fun _ _ h2 =>
      .ok (lined_op (.cons h1 (.cons .str (.of_pairs (filter_pairs (numbered_pairs _ _ h2))))))
  | .lambda v e => by
    rw [Expr.val, Expr.val]
    exact (lined_expr v).bind fun _ _ h1 => (lined_expr e).bind fun _ _ h2 =>
      .ok (.dict (.cons .str (.cons (.dict (.text (vs := [_]) (vs' := [_]) (.inr (.inr ⟨1, rfl⟩)) (.cons h1 .nil)
        (.cons h2 .nil))) .nil)))
  | .lambdaN v1 v2 v3 vs e => by
    rw [Expr.val, Expr.val]
    exact (lined_expr v1).bind fun _ _ h1 => (lined_expr v2).bind fun _ _ h2 => (lined_expr v3).bind fun _ _ h3 =>
      (lined_exprs vs).bind fun _ _ h4 => (lined_expr e).bind fun _ _ h5 =>
      .ok (.dict (.cons .str (.cons (.dict (numbered_texts 1 (.cons h1 (.cons h2 (.cons h3 h4)))
        (.cons h5 .nil))) .nil)))
theorem lined_exprs : (es : List Expr) → Agree LinedL (Expr.vals false es) (Expr.vals true es)
  | [] => by rw [Expr.vals, Expr.vals]; exact .ok .nil
  | e :: es => by
    rw [Expr.vals, Expr.vals]
    exact (lined_expr e).bind fun _ _ h1 => (lined_exprs es).bind fun _ _ h2 => .ok (.cons h1 h2)
theorem lined_optExpr : (e : Option Expr) → Agree Lined (Expr.optVal false e) (Expr.optVal true e)
  | .none => by rw [Expr.optVal, Expr.optVal]; exact .ok .none
  | some e => by rw [Expr.optVal, Expr.optVal]; exact lined_expr e
theorem lined_optExprs : (es : List (Option Expr)) → Agree LinedL (Expr.optVals false es) (Expr.optVals true es)
  | [] => by rw [Expr.optVals, Expr.optVals]; exact .ok .nil
  | e :: es => by
    rw [Expr.optVals, Expr.optVals]
    exact (lined_optExpr e).bind fun _ _ h1 => (lined_optExprs es).bind fun _ _ h2 => .ok (.cons h1 h2)
theorem lined_item : (i : Item) → Agree LinedP (i.val false) (i.val true)
  | .pair k e => by
    rw [Item.val, Item.val]
    exact (lined_expr e).bind fun _ _ h => .ok ⟨rfl, h⟩
  | .pairLoop k l => by
    rw [Item.val, Item.val]
    exact (lined_loop l).bind fun _ _ h => .ok ⟨rfl, h⟩
  | .child l x t ex c => by
    rw [Item.val, Item.val]
    exact (lined_config c).bind fun _ _ h => .ok ⟨rfl, .dict (.cons .str (.cons (.dict (.cons (.list .nil) (.cons .str
      (.cons .str (.cons .bool (.lines h .nil)))))) .nil))⟩
theorem lined_items : (is : List Item) → Agree (List.Forall₂ LinedP) (Item.vals false is) (Item.vals true is)
  | [] => by rw [Item.vals, Item.vals]; exact .ok .nil
  | i :: is => by
    rw [Item.vals, Item.vals]
    exact (lined_item i).bind fun _ _ h1 => (lined_items is).bind fun _ _ h2 => .ok (.cons h1 h2)
theorem lined_loop : (l : Loop) → Agree Lined (l.val false) (l.val true)
  | .mk h c b => by
    rw [Loop.val, Loop.val]
    exact (lined_head h).bind fun _ _ h1 => (lined_optExpr c).bind fun _ _ h2 => (lined_expr b).bind fun _ _ h3 =>
      ((lined_loopCondition h2).inRule).bind fun _ _ h4 => .ok (.dict (.cons h1 (.cons h4 (.cons h3 .nil))))
theorem lined_head : (h : LoopHead) → Agree Lined (h.val false) (h.val true)
  | .arr x e => by
    rw [LoopHead.val, LoopHead.val]
    exact (lined_expr e).bind fun _ _ h => .ok (.dict (.cons .str (.cons (.dict (.cons .str (.cons h .nil))) .nil)))
  | .arrIdx x i e => by
    rw [LoopHead.val, LoopHead.val]
    exact (lined_expr e).bind fun _ _ h =>
      .ok (.dict (.cons .str (.cons (.dict (.cons .str (.cons .str (.cons h .nil)))) .nil)))
  | .obj x e => by
    rw [LoopHead.val, LoopHead.val]
    exact (lined_expr e).bind fun _ _ h => .ok (.dict (.cons .str (.cons (.dict (.cons .str
      (.text (vs := [_]) (vs' := [_]) (.inl rfl) (.cons h .nil) .nil))) .nil)))
theorem lined_config : (c : Config) → Agree Lined (c.val false) (c.val true)
  | .obj is => by
    rw [Config.val, Config.val]
    exact (lined_items is).bind fun _ _ h => .ok (.dict (.of_pairs (lastWins_forall₂ h)))
  | .loop l => by rw [Config.val, Config.val]; exact lined_loop l
  | .cond c e => by
    rw [Config.val, Config.val]
    exact (lined_expr c).bind fun _ _ h1 => (lined_expr e).bind fun _ _ h2 =>
      .ok (.dict (.cons h1 (.cons h2 .nil)))
end

/-! ### declarations -/

/-- entries that differ at most in line entries -/
def LinedEntry (e e' : Entry) : Prop :=
  e.sec = e'.sec ∧ e.name = e'.name ∧ ∃ b, LinedD e.attrs b ∧ AddedLines b e'.attrs

theorem lined_lineItems {s n : String} {a a' : List (String × Val)} (h : LinedD a a') (l : Lines) :
    LinedEntry ⟨s, n, a ++ lineItems false l⟩ ⟨s, n, a' ++ lineItems true l⟩ := by
  refine ⟨rfl, rfl, a', ?_, .inr ⟨l.1, l.2, rfl⟩⟩
  simpa [lineItems] using h

theorem lined_processChild {api : String} {c : Config} {rs : List Nested} (hc : Chain c rs)
    {n n' : Nat} {N T : String} {cfg cfg' d d' : List (String × Val)} (hn : rs.length < n) (hn' : rs.length < n')
    (hd : c.val false = .ok (.dict d)) (hd' : c.val true = .ok (.dict d'))
    (hg : dGet marker cfg = dGet marker d) (hg' : dGet marker cfg' = dGet marker d')
    (he : LinedD cfg cfg') :
    Agree (fun a b => LinedD a.1 b.1 ∧ List.Forall₂ LinedEntry (a.2.map childEntry) (b.2.map childEntry))
      (processChild n (.str N) (.str T) (.str api) cfg) (processChild n' (.str N) (.str T) (.str api) cfg') := by
  induction hc generalizing n n' N T cfg cfg' d d' with
  | nil hno =>
    obtain ⟨n, rfl⟩ := Nat.exists_eq_succ_of_ne_zero (Nat.ne_zero_of_lt hn)
    obtain ⟨n', rfl⟩ := Nat.exists_eq_succ_of_ne_zero (Nat.ne_zero_of_lt hn')
    rw [show marker = "__child_resource__" from rfl, noChild_get hno hd] at hg
    rw [show marker = "__child_resource__" from rfl, noChild_get hno hd'] at hg'
    rw [processChild, processChild, hg, hg']
    exact .ok ⟨he, .nil⟩
  | @cons c r rs hch _ ih =>
    obtain ⟨n, rfl⟩ := Nat.exists_eq_succ_of_ne_zero (Nat.ne_zero_of_lt hn)
    obtain ⟨n', rfl⟩ := Nat.exists_eq_succ_of_ne_zero (Nat.ne_zero_of_lt hn')
    obtain ⟨v1, h1, g1⟩ := childOf_get hch hd
    obtain ⟨d1, rfl⟩ := config_isDict h1
    obtain ⟨v2, h2, g2⟩ := childOf_get hch hd'
    obtain ⟨d2, rfl⟩ := config_isDict h2
    have hsame : LinedD d1 d2 := by
      have := lined_config r.config
      rw [h1, h2] at this
      cases this with
      | ok h => cases h with | dict h => exact h
    rw [show marker = "__child_resource__" from rfl, g1] at hg
    rw [show marker = "__child_resource__" from rfl, g2] at hg'
    have hdep : Both (dGet "depends_on" d1) (dGet "depends_on" d2) := hsame.get looked
    rw [processChild, processChild, hg, hg']
    simp only
    have a1 := adopt_eq N T api false r d1
    have a2 := adopt_eq N T api true r d2
    unfold childVal at a1 a2
    rw [a1, a2]
    have step : ∀ deps deps' : List Val, LinedL deps deps' → _ := fun deps deps' hl =>
      ih (N := N ++ "__" ++ txt r.name.1) (T := T ++ "/" ++ txt r.type) (n := n) (n' := n')
        (cfg := dSet "depends_on" (.list (deps ++ [.elem N])) d1)
        (cfg' := dSet "depends_on" (.list (deps' ++ [.elem N])) d2)
        (by simpa using hn) (by simpa using hn') h1 h2
        (dGet_dSet_ne (by decide) _ _) (dGet_dSet_ne (by decide) _ _)
        (hsame.set looked (.list (hl.append (.cons .elem .nil))))
    have hdep' : Lined ((dGet "depends_on" d1).getD (.list [])) ((dGet "depends_on" d2).getD (.list [])) := by
      revert hdep
      generalize dGet "depends_on" d1 = x
      generalize dGet "depends_on" d2 = y
      intro hdep
      cases hdep with
      | none => exact .list .nil
      | some h => exact h
    generalize (dGet "depends_on" d1).getD (.list []) = x at hdep'
    generalize (dGet "depends_on" d2).getD (.list []) = y at hdep'
    cases hdep' with
    | @list deps deps' hl =>
      simp only [bind, Except.bind]
      simp only [Val.item, dGet, List.cons_append, if_true, List.nil_append, String.reduceEq, if_false]
      have := step deps deps' hl
      generalize processChild n (.str (N ++ "__" ++ txt r.name.1)) (.str (T ++ "/" ++ txt r.type)) (.str api)
        (dSet "depends_on" (.list (deps ++ [.elem N])) d1) = x at this ⊢
      generalize processChild n' (.str (N ++ "__" ++ txt r.name.1)) (.str (T ++ "/" ++ txt r.type)) (.str api)
        (dSet "depends_on" (.list (deps' ++ [.elem N])) d2) = y at this ⊢
      cases this with
      | err => exact .err
      | @ok a b h =>
        obtain ⟨c1, m1⟩ := a
        obtain ⟨c2, m2⟩ := b
        obtain ⟨hc, h⟩ := h
        simp only [Val.setItem, dSet, String.reduceEq, if_false, if_true]
        refine .ok ⟨he.erase looked (by decide), ?_⟩
        simp only [List.map_cons]
        refine .cons ?_ h
        simp only [childEntry, D, dGet, String.reduceEq, if_true, if_false]
        exact lined_lineItems (a := [("decorators", .list []), ("type", .str (T ++ "/" ++ txt r.type)),
          ("api_version", .str api), ("existing", .bool r.existing), ("config", .dict c1)])
          (.cons (.list .nil) (.cons .str (.cons .str (.cons .bool (.cons (.dict hc) .nil)))))
          (r.lines.1, r.lines.2 - 1)
    | _ => exact .err

theorem lined_decos : (ds : List Deco) → Agree LinedL (decoVals false ds) (decoVals true ds)
  | [] => .ok .nil
  | d :: ds => by
    rw [decoVals, decoVals]
    refine Agree.bind (R := Lined) ?_ fun _ _ h1 => (lined_decos ds).bind fun _ _ h2 => .ok (.cons h1 h2)
    unfold Deco.val
    cases d.arg with
    | none => exact (natural_getDecorator _ _ .nil).inRule
    | some e => exact (lined_expr e).bind fun _ _ h => (natural_getDecorator _ _ (.cons h .nil)).inRule

theorem lined_value (e : LoopOrExpr) : Agree Lined (e.val false) (e.val true) := by
  cases e with
  | expr e => exact lined_expr e
  | loop l => exact lined_loop l

/-- contributions that differ at most in line entries -/
def LinedOut (o o' : Out) : Prop :=
  List.Forall₂ LinedEntry o.own o'.own ∧ List.Forall₂ LinedEntry o.imports o'.imports ∧
    List.Forall₂ LinedEntry o.children o'.children

theorem lined_own {s n : String} {a a' : List (String × Val)} (h : LinedD a a') (l : Lines) :
    LinedOut { own := [⟨s, n, a ++ lineItems false l⟩] } { own := [⟨s, n, a' ++ lineItems true l⟩] } :=
  ⟨.cons (lined_lineItems h l) .nil, .nil, .nil⟩

theorem lined_type (t : DataType) : Lined t.val t.val := .refl (json_type (K := fun _ => True) (fun _ _ => trivial) t)

/-- Nobody uses the internal key for nested resources as a key in the body of a resource (or it is
followed by a nested resource in that body). -/
def Decl.NoInternalKey : Decl → Prop
  | .resource _ _ _ _ c => ∃ rs, Chain c rs
  | _ => True

theorem lined_decl {l : Lines} {d : Decl} (h : d.NoInternalKey) :
    Agree LinedOut (d.out false l) (d.out true l) := by
  cases d with
  | scope b =>
    rw [Decl.out, Decl.out]
    split
    · exact .ok (lined_own (a := [_]) (.cons .str .nil) l)
    · exact .err
  | importNs b => exact .ok ⟨.nil, .cons ⟨rfl, rfl, _, .nil, .inl rfl⟩ .nil, .nil⟩
  | importFrom i is b =>
    rw [Decl.out, Decl.out]
    refine .ok ⟨.nil, ?_, .nil⟩
    simp only [List.forall₂_map_left_iff, List.forall₂_map_right_iff]
    refine List.forall₂_same.mpr fun j _ => ?_
    refine lined_lineItems (a := ("file_path", .str (txt b)) :: aliasItem j.alias) (.cons .str ?_) l
    cases j.alias with
    | none => exact .nil
    | some x => exact .cons .str .nil
  | extension x is al =>
    rw [Decl.out, Decl.out]
    refine Agree.bind (R := LinedD) ?_ fun a b hab => ?_
    · cases is with
      | none => exact .ok .nil
      | some is =>
        rw [configItem, configItem]
        refine (lined_items is).bind fun ps qs h => ?_
        have hh := lastWins_forall₂ h
        cases h with
        | nil => exact .ok .nil
        | cons _ _ => exact .ok (.cons (.dict (.of_pairs hh)) .nil)
    · rw [← List.append_assoc, ← List.append_assoc]
      refine .ok (lined_own (hab.append ?_) l)
      cases al with
      | none => exact .nil
      | some x => exact .cons .str .nil
  | metadata x b => exact .ok (lined_own (a := [_]) (.cons .str .nil) l)
  | param ds x t e =>
    rw [Decl.out, Decl.out]
    exact (lined_decos ds).bind fun _ _ h1 => (lined_optExpr e).bind fun _ _ h2 =>
      .ok (lined_own (.cons (.list h1) (.cons (lined_type t) (.cons h2 .nil))) l)
  | var ds x t e =>
    rw [Decl.out, Decl.out]
    refine (lined_decos ds).bind fun _ _ h1 => (lined_value e).bind fun _ _ h2 => ?_
    rw [← List.append_assoc, ← List.append_assoc]
    refine .ok (lined_own (.cons (.list h1) (.cons h2 ?_)) l)
    cases t with
    | none => exact .nil
    | some t => exact .cons (lined_type t) .nil
  | output ds x t e =>
    rw [Decl.out, Decl.out]
    exact (lined_decos ds).bind fun _ _ h1 => (lined_value e).bind fun _ _ h2 =>
      .ok (lined_own (.cons (.list h1) (.cons (lined_type t) (.cons h2 .nil))) l)
  | resource ds x b ex c =>
    obtain ⟨rs, hrs⟩ := h
    rw [Decl.out, Decl.out]
    refine (lined_decos ds).bind fun _ _ h1 => ?_
    refine (Agree.refl _).bind ?_
    rintro ⟨t, api⟩ _ rfl
    have hc := lined_config c
    cases hv : c.val false with
    | error e =>
      rw [hv] at hc
      generalize c.val true = v' at hc
      cases hc
      exact .err
    | ok v =>
      cases hv' : c.val true with
      | error e => rw [hv, hv'] at hc; cases hc
      | ok v' =>
        rw [hv, hv'] at hc
        obtain ⟨d, rfl⟩ := config_isDict hv
        obtain ⟨d', rfl⟩ := config_isDict hv'
        cases hc with
        | ok h3 =>
          cases h3 with
          | dict h3 =>
            have := lined_processChild (api := api) (N := txt x.1) (T := t) hrs (chain_depth hrs hv)
              (chain_depth hrs hv') hv hv' rfl rfl h3
            simp only [bind, Except.bind]
            unfold resourceVal
            refine (this.inRule (r := "resource")).bind ?_
            rintro ⟨c1, m1⟩ ⟨c2, m2⟩ ⟨h2, h4⟩
            exact .ok ⟨.cons (lined_lineItems (a := [_, _, _, _, _]) (.cons (.list h1) (.cons .str (.cons .str (.cons .bool
              (.cons (.dict h2) .nil))))) l) .nil, .nil, h4⟩
  | module ds x b c =>
    rw [Decl.out, Decl.out]
    refine (lined_decos ds).bind fun _ _ h1 => ?_
    have hp : Agree Lined (inRule "module_path" (classifyModulePath (txt b)))
        (inRule "module_path" (classifyModulePath (txt b))) :=
      (Agree.self fun v hv => .refl (json_module (K := fun _ => True) (fun _ _ => trivial) hv)).inRule
    exact hp.bind fun _ _ h2 => (lined_config c).bind fun _ _ h3 => (h2.item looked).inRule.bind fun _ _ h4 =>
      (h2.item looked).inRule.bind fun _ _ h5 =>
      .ok (lined_own (.cons (.list h1) (.cons h4 (.cons h5 (.cons h3 .nil)))) l)
  | typ ds x e es =>
    rw [Decl.out, Decl.out]
    refine (lined_decos ds).bind fun vs vs' h1 => ?_
    unfold typeVal
    split
    · exact (lined_expr e).bind fun _ _ h2 => .ok (lined_own (.cons (.list h1) (.cons h2 .nil)) l)
    · have : Agree (fun (v v' : Val) => ∃ xs xs', v = .str (printed xs) ∧ v' = .str (printed xs') ∧ LinedL xs xs')
          (do let x ← e.val false; let xs ← Expr.vals false es; .ok (Val.str (" | ".intercalate ((x :: xs).map Val.pyStr))))
          (do let x ← e.val true; let xs ← Expr.vals true es; .ok (Val.str (" | ".intercalate ((x :: xs).map Val.pyStr)))) :=
        (lined_expr e).bind fun _ _ h2 => (lined_exprs es).bind fun _ _ h3 =>
          .ok ⟨_, _, rfl, rfl, .cons h2 h3⟩
      refine this.bind ?_
      rintro _ _ ⟨xs, xs', rfl, rfl, h⟩
      exact .ok (lined_own (.cons (.list h1) (.text (.inr (.inl rfl)) h .nil)) l)
  | func ds x ps t e =>
    rw [Decl.out, Decl.out]
    refine (lined_decos ds).bind fun _ _ h1 => (lined_expr e).bind fun _ _ h2 => ?_
    refine .ok (lined_own (.cons (.list h1) (.cons (.dict (.of_pairs (lastWins_forall₂ ?_)))
      (.cons (lined_type t) (.cons h2 .nil)))) l)
    simp only [List.forall₂_map_left_iff, List.forall₂_map_right_iff]
    exact List.forall₂_same.mpr fun p _ => ⟨rfl, lined_type p.2⟩

/-! ### the whole result -/

theorem lined_outs {p : Program} (h : ∀ q ∈ p, q.2.NoInternalKey) :
    Agree (List.Forall₂ LinedOut) (p.outs false) (p.outs true) := by
  induction p with
  | nil => rw [Program.outs, Program.outs]; exact .ok .nil
  | cons q p ih =>
    obtain ⟨l, d⟩ := q
    rw [Program.outs, Program.outs]
    exact (lined_decl (h (l, d) (List.mem_cons_self ..))).bind fun a b hab =>
      (ih (fun q hq => h q (List.mem_cons_of_mem _ hq))).bind fun as bs hs => .ok (.cons hab hs)

/-- The result `v'` is the result `v` in which some entries and some nested resources got line
entries: the same sections in the same order, in each the same names in the same order, and
attributes that differ as `LinedD` says. -/
def AddedInside (v v' : Val) : Prop :=
  ∃ secs secs', v = .dict secs ∧ v' = .dict secs' ∧
    List.Forall₂ (fun s s' => s.1 = s'.1 ∧ ∃ es es', s.2 = .dict es ∧ s'.2 = .dict es' ∧
      List.Forall₂ (fun e e' => e.1 = e'.1 ∧ ∃ a b a', e.2 = .dict a ∧ e'.2 = .dict a' ∧ LinedD a b ∧
        AddedLines b a') es es') secs secs'

theorem collect_lined {es es' : List Entry} (h : List.Forall₂ LinedEntry es es') :
    AddedInside (.dict (collect es)) (.dict (collect es')) := by
  refine ⟨_, _, rfl, rfl, ?_⟩
  have hsec : es.map Entry.sec = es'.map Entry.sec := by
    induction h with
    | nil => rfl
    | cons h _ ih => rw [List.map_cons, List.map_cons, h.1, ih]
  unfold collect
  rw [hsec]
  simp only [List.forall₂_map_left_iff, List.forall₂_map_right_iff]
  refine List.forall₂_same.mpr fun s hs => ⟨rfl, _, _, rfl, rfl, ?_⟩
  refine lastWins_forall₂ (R := fun x y => ∃ a b a', x = .dict a ∧ y = .dict a' ∧ LinedD a b ∧ AddedLines b a') ?_
  clear hsec hs
  induction h with
  | nil => exact .nil
  | @cons e e' es es' h _ ih =>
    rw [List.filter_cons, List.filter_cons, h.1]
    split
    · rw [List.map_cons, List.map_cons]
      obtain ⟨_, h1, b, h2, h3⟩ := h
      exact .cons ⟨h1, _, b, _, rfl, rfl, h2, h3⟩ ih
    · exact ih

theorem lined_program {p : Program} (h : ∀ q ∈ p, q.2.NoInternalKey) :
    Agree AddedInside (p.val false) (p.val true) := by
  rw [Program.val, Program.val]
  refine (lined_outs h).bind fun os os' ho => .ok (collect_lined ?_)
  unfold entries
  refine .cons (lined_lineItems (a := [("value", .str "resourceGroup")]) (.cons .str .nil) (0, 0)) ?_
  exact List.rel_append (List.rel_append (flatMap_forall₂ ho fun a b h => h.1)
    (flatMap_forall₂ ho fun a b h => h.2.1)) (flatMap_forall₂ ho fun a b h => h.2.2)

/-- **C55.**  With and without line numbers, `parse` fails in the same way, or succeeds both times
and the results differ only by line entries: those of the entries of the sections, those of nested
resources that were left inside values, and the latter where such values are printed.  The only
programs left out are those that use the internal key `__child_resource__` in the body of a
resource. -/
theorem C55_line_entries (text : Option String) (path : Option PathArg) :
    (∃ e, Parser.parse ⟨false⟩ text path = .error e ∧ Parser.parse ⟨true⟩ text path = .error e) ∨
    ∃ t p, chosenText text path = .ok t ∧ Spells t p ∧ ((∀ q ∈ p, q.2.NoInternalKey) →
      (∃ e, Parser.parse ⟨false⟩ text path = .error e ∧ Parser.parse ⟨true⟩ text path = .error e) ∨
      ∃ v v', Parser.parse ⟨false⟩ text path = .ok v ∧ Parser.parse ⟨true⟩ text path = .ok v' ∧
        AddedInside v v') := by
  simp only [parse_eq]
  rcases createTree'_cases text path with ⟨e, h1, h2⟩ | ⟨t, m, h1, h2, h3, h4⟩ | ⟨t, h1, h2, _, h3⟩ |
    ⟨t, tree, p, h1, h2, h3, h4, h5, h6⟩
  · left; rw [h2]; exact ⟨e, rfl, rfl⟩
  · left; rw [h3]; exact ⟨_, rfl, rfl⟩
  · left; rw [h3]; exact ⟨_, rfl, rfl⟩
  · right
    refine ⟨t, p, h1, h4, fun ht => ?_⟩
    rw [h6]
    simp only [Except.bind, bicepToJson_program h5]
    have := lined_program ht
    generalize p.val false = x at this
    generalize p.val true = y at this
    cases this with
    | @err e => left; cases e <;> exact ⟨_, rfl, rfl⟩
    | @ok a b h => right; exact ⟨a, b, rfl, rfl, h⟩

/-- a resource nested where it is not extracted: its line entries are found inside the body -/
example : Parser.parse ⟨false⟩ (some "resource a 'T@1' = if (x) {\n  resource b 'u' = {\n  }\n}\n") .none =
    .ok (.dict [("globals", .dict [("scope", .dict [("value", .str "resourceGroup")])]),
      ("resources", .dict [("a", .dict [("decorators", .list []), ("type", .str "T"), ("api_version", .str "1"),
        ("existing", .bool false), ("config", .dict [("condition", .elem "x"), ("config", .dict
          [("__child_resource__", .dict [("__name__", .str "b"), ("__attrs__", .dict [("decorators", .list []),
            ("type", .str "u"), ("api_version", .str ""), ("existing", .bool false),
            ("config", .dict [])])])])])])])]) ∧
  Parser.parse ⟨true⟩ (some "resource a 'T@1' = if (x) {\n  resource b 'u' = {\n  }\n}\n") .none =
    .ok (.dict [("globals", .dict [("scope", .dict [("value", .str "resourceGroup"),
        ("__start_line__", .int 0), ("__end_line__", .int 0)])]),
      ("resources", .dict [("a", .dict [("decorators", .list []), ("type", .str "T"), ("api_version", .str "1"),
        ("existing", .bool false), ("config", .dict [("condition", .elem "x"), ("config", .dict
          [("__child_resource__", .dict [("__name__", .str "b"), ("__attrs__", .dict [("decorators", .list []),
            ("type", .str "u"), ("api_version", .str ""), ("existing", .bool false),
            ("config", .dict []), ("__start_line__", .int 2), ("__end_line__", .int 3)])])])]),
        ("__start_line__", .int 1), ("__end_line__", .int 4)])])]) :=
  ⟨eq_of_outIs (by decide +kernel), eq_of_outIs (by decide +kernel)⟩

end Pycep
