import Verif.Spec.Published
import Verif.Props.Methods
import Verif.Props.Typed
/-
C64: expressions have the published types.
-/
namespace Pycep

/-! ### Keys -/

theorem Keys.covers_self (ks : List String) : Keys.Covers { req := ks } ks :=
  ⟨fun _ h => h, fun _ h => .inl h⟩

/-- numbered keys -/
theorem numbered_has {pre : String} (n m i : Nat) :
    pre ++ toString i ∈ (numbered pre n (List.replicate m Val.none)).map Prod.fst ↔ n ≤ i ∧ i < n + m := by
  induction m generalizing n with
  | zero => simp [numbered]
  | succ m ih =>
    rw [List.replicate_succ, numbered, List.map_cons, List.mem_cons, ih]
    constructor
    · rintro (h | h)
      · have := pre_toString_inj h; omega
      · omega
    · intro h
      by_cases e : i = n
      · subst e; exact .inl rfl
      · exact .inr (by omega)

namespace Signature

/-- the reports of a signature have these keys, unless their number deviates -/
def Fits (r : List Val → Report) (k : Keys) (dev : Nat → Prop) : Prop :=
  ∀ args, r args ≠ .bare ∧ ∀ ps, r args = .params ps → (k.Covers (ps.map Prod.fst) ↔ ¬ dev args.length)

theorem fits_of_keys {r : List Val → Report} {ks : List String} {dev : Nat → Prop} (hd : ∀ n, ¬ dev n)
    (h : ∀ args, r args = .refused ∨ ∃ ps, r args = .params ps ∧ ps.map Prod.fst = ks) :
    Fits r { req := ks } dev := by
  intro args
  rcases h args with h | ⟨ps, h, hk⟩
  · rw [h]; exact ⟨nofun, nofun⟩
  · rw [h]
    refine ⟨nofun, fun ps' e => ?_⟩
    cases e
    rw [hk]
    exact ⟨fun _ => hd _, fun _ => Keys.covers_self ks⟩

theorem fits_exactly {ks : List String} {dev : Nat → Prop} (hd : ∀ n, ¬ dev n) :
    Fits (exactly ks) { req := ks } dev := by
  refine fits_of_keys hd fun args => ?_
  unfold exactly
  split
  · exact .inr ⟨_, rfl, firsts_keys ..⟩
  · exact .inl rfl

theorem fits_atLeast {ks : List String} {dev : Nat → Prop} (hd : ∀ n, ¬ dev n) :
    Fits (atLeast ks) { req := ks } dev := by
  refine fits_of_keys hd fun args => ?_
  unfold atLeast
  split
  · exact .inl rfl
  · exact .inr ⟨_, rfl, firsts_keys ..⟩

theorem fits_someOf {r : Nat} {ks : List String} {dev : Nat → Prop} (hd : ∀ n, ¬ dev n) :
    Fits (someOf r ks) { req := ks } dev := by
  refine fits_of_keys hd fun args => ?_
  unfold someOf
  split
  · exact .inl rfl
  · exact .inr ⟨_, rfl, given_keys ..⟩

theorem fits_upToThree {ks : List String} {dev : Nat → Prop} (hd : ∀ n, ¬ dev n) :
    Fits (upToThree ks) { req := ks } dev := by
  refine fits_of_keys hd fun args => ?_
  unfold upToThree
  split
  · exact .inl rfl
  · exact .inr ⟨_, rfl, given_keys ..⟩

theorem fits_pickZones {dev : Nat → Prop} (hd : ∀ n, ¬ dev n) : Fits pickZones
    { req := ["provider_namespace", "resource_type", "location", "number_of_zones", "offset"] } dev := by
  refine fits_of_keys hd fun args => ?_
  unfold pickZones
  split
  · exact .inl rfl
  · exact .inr ⟨_, rfl, given_keys ..⟩

theorem fits_listKeys {dev : Nat → Prop} (hd : ∀ n, ¬ dev n) : Fits listKeys
    { req := ["func_name", "resource_identifier", "api_version"] } dev := by
  refine fits_of_keys hd fun args => ?_
  unfold listKeys
  split
  · exact .inr ⟨_, rfl, rfl⟩
  · exact .inl rfl

theorem fits_subscriptionResourceId {dev : Nat → Prop} (hd : ∀ n, ¬ dev n) : Fits subscriptionResourceId
    { req := ["resource_type", "resource_name_1", "resource_name_2", "subscription_id"] } dev := by
  refine fits_of_keys hd fun args => ?_
  unfold subscriptionResourceId
  split
  · exact .inl rfl
  · exact .inl rfl
  · exact .inr ⟨_, rfl, rfl⟩
  · exact .inr ⟨_, rfl, rfl⟩
  · exact .inr ⟨_, rfl, rfl⟩

theorem fits_resourceGroup {dev : Nat → Prop} (hd : ∀ n, ¬ dev n) : Fits resourceGroup
    { req := ["resource_group_name", "subscription_id"] } dev := by
  refine fits_of_keys hd fun args => ?_
  unfold resourceGroup
  split
  · exact .inr ⟨_, rfl, rfl⟩
  · split
    · exact .inr ⟨_, rfl, rfl⟩
    · exact .inr ⟨_, rfl, rfl⟩
  · exact .inr ⟨_, rfl, rfl⟩

/-- the keys of a function with any number of arguments -/
theorem variadic_params {ks : List String} {pre : String} {s : Nat} (args : List Val) :
    (args.length < ks.length ∧ variadic ks pre s args = .refused) ∨ (ks.length ≤ args.length ∧
      ∃ ps, variadic ks pre s args = .params ps ∧ ps.map Prod.fst = ks ++
        (numbered pre s (List.replicate (args.length - ks.length) Val.none)).map Prod.fst) := by
  unfold variadic
  split
  · rename_i h; exact .inl ⟨h, rfl⟩
  · rename_i h
    exact .inr ⟨by omega, _, rfl, by rw [List.map_append, firsts_keys, rest_keys']⟩

/-- `arg_1`, `arg_2`, ...: two of them are required, one is accepted -/
theorem fits_args1 {dev : Nat → Prop} (hd : ∀ n, dev n ↔ n = 1) : Fits (variadic ["arg_1"] "arg_" 2)
    { req := ["arg_1", "arg_2"], opt := ["arg_3"], more := some "arg_" } dev := by
  intro args
  rcases variadic_params (ks := ["arg_1"]) (pre := "arg_") (s := 2) args with ⟨_, h⟩ | ⟨hl, ps, h, hk⟩
  · rw [h]; exact ⟨nofun, nofun⟩
  · rw [h]
    refine ⟨nofun, fun ps' e => ?_⟩
    cases e
    have hm := numbered_has (pre := "arg_") 2 (args.length - 1) 2
    rw [hk, hd]
    simp only [List.length_singleton] at hl ⊢
    constructor
    · rintro ⟨h1, _⟩
      have := h1 ("arg_" ++ toString 2) (by simp; decide)
      rcases List.mem_append.mp this with h | h
      · exact absurd h (by decide)
      · have := hm.mp h; omega
    · intro hn
      refine ⟨fun x hx => ?_, fun x hx => ?_⟩
      · simp only [List.mem_cons, List.not_mem_nil, or_false] at hx
        rcases hx with rfl | rfl
        · simp
        · exact List.mem_append_right _ (hm.mpr ⟨Nat.le_refl _, by omega⟩)
      · rcases List.mem_append.mp hx with h | h
        · rw [List.mem_singleton] at h; subst h; exact .inl (by simp)
        · obtain ⟨m, _, rfl⟩ := numbered_key h
          exact .inr (.inr ⟨_, m, rfl, rfl⟩)

/-- any number of arguments that all have keys -/
theorem fits_variadic {ks opt : List String} {pre : String} {s : Nat} {dev : Nat → Prop} (hd : ∀ n, ¬ dev n) :
    Fits (variadic ks pre s) { req := ks, opt := opt, more := some pre } dev := by
  intro args
  rcases variadic_params (ks := ks) (pre := pre) (s := s) args with ⟨_, h⟩ | ⟨hl, ps, h, hk⟩
  · rw [h]; exact ⟨nofun, nofun⟩
  · rw [h]
    refine ⟨nofun, fun ps' e => ?_⟩
    cases e
    rw [hk]
    refine ⟨fun _ => hd _, fun _ => ⟨fun x hx => List.mem_append_left _ hx, fun x hx => ?_⟩⟩
    rcases List.mem_append.mp hx with h | h
    · exact .inl h
    · obtain ⟨m, _, rfl⟩ := numbered_key h
      exact .inr (.inr ⟨_, m, rfl, rfl⟩)

/-- `format`: an argument behind the format is required, but may be missing -/
theorem fits_format {dev : Nat → Prop} (hd : ∀ n, dev n ↔ n = 1) : Fits (variadic ["format_string"] "arg_" 1)
    { req := ["format_string", "arg_1"], opt := ["arg_2"], more := some "arg_" } dev := by
  intro args
  rcases variadic_params (ks := ["format_string"]) (pre := "arg_") (s := 1) args with ⟨_, h⟩ | ⟨hl, ps, h, hk⟩
  · rw [h]; exact ⟨nofun, nofun⟩
  · rw [h]
    refine ⟨nofun, fun ps' e => ?_⟩
    cases e
    have hm := numbered_has (pre := "arg_") 1 (args.length - 1) 1
    rw [hk, hd]
    simp only [List.length_singleton] at hl ⊢
    constructor
    · rintro ⟨h1, _⟩
      have := h1 ("arg_" ++ toString 1) (by simp; decide)
      rcases List.mem_append.mp this with h | h
      · exact absurd h (by decide)
      · have := hm.mp h; omega
    · intro hn
      refine ⟨fun x hx => ?_, fun x hx => ?_⟩
      · simp only [List.mem_cons, List.not_mem_nil, or_false] at hx
        rcases hx with rfl | rfl
        · simp
        · exact List.mem_append_right _ (hm.mpr ⟨Nat.le_refl _, by omega⟩)
      · rcases List.mem_append.mp hx with h | h
        · rw [List.mem_singleton] at h; subst h; exact .inl (by simp)
        · obtain ⟨m, _, rfl⟩ := numbered_key h
          exact .inr (.inr ⟨_, m, rfl, rfl⟩)

/-- `resourceId` with more than two names does not fit -/
theorem fits_resourceId {dev : Nat → Prop} (hd : ∀ n, dev n ↔ 6 ≤ n) : Fits resourceId
    { req := ["resource_type", "resource_name_1", "resource_name_2", "resource_group_name", "subscription_id"] }
    dev := by
  intro args
  unfold resourceId
  split
  · exact ⟨nofun, nofun⟩
  · exact ⟨nofun, nofun⟩
  · rename_i h
    refine ⟨nofun, fun ps e => ?_⟩
    cases e
    rw [hd, h]
    exact ⟨fun _ => by omega, fun _ => Keys.covers_self _⟩
  · rename_i h
    refine ⟨nofun, fun ps e => ?_⟩
    cases e
    rw [hd, h]
    exact ⟨fun _ => by omega, fun _ => Keys.covers_self _⟩
  · rename_i h
    refine ⟨nofun, fun ps e => ?_⟩
    cases e
    rw [hd, h]
    refine ⟨fun _ => by omega, fun _ => ?_⟩
    exact Keys.covers_self
      ["resource_type", "resource_name_1", "resource_name_2", "resource_group_name", "subscription_id"]
  · rename_i n h
    refine ⟨nofun, fun ps e => ?_⟩
    cases e
    rw [hd, h, List.map_append, List.map_cons, rest_keys']
    have hm := fun i => numbered_has (pre := "resource_name_") 1 (n + 2) i
    constructor
    · rintro ⟨_, h2⟩ hn
      have h3 : "resource_name_" ++ toString 3 ∈ (numbered "resource_name_" 1
          (List.replicate (n + 2) Val.none)).map Prod.fst := (hm 3).mpr ⟨by omega, by omega⟩
      rcases h2 _ (List.mem_append_left _ (List.mem_cons_of_mem _ h3)) with h | h | ⟨_, _, h, _⟩
      · revert h; decide
      · cases h
      · cases h
    · intro hn
      obtain rfl : n = 0 := by omega
      have e : (numbered "resource_name_" 1 (List.replicate (0 + 2) Val.none)).map Prod.fst =
          ["resource_name_1", "resource_name_2"] := by decide
      rw [e]
      exact Keys.covers_self
        ["resource_type", "resource_name_1", "resource_name_2", "resource_group_name", "subscription_id"]

end Signature

/-- signature and published type of a function -/
def Published (s : Signature) (t : FunTy) : Prop :=
  s.ns = t.ns ∧ s.name = t.name ∧ s.type = t.type ∧
    ((t.params = .none ∧ ∀ args, s.report args = .bare) ∨
      ∃ k, t.params = some k ∧ Signature.Fits s.report k (Deviates t.name))

open Signature in
theorem published_table : List.Forall₂ Published signatures publishedFunctions := by
  unfold signatures publishedFunctions
  repeat' apply List.Forall₂.cons
  all_goals first
    | exact .nil
    | exact ⟨rfl, rfl, rfl, .inl ⟨rfl, fun _ => rfl⟩⟩
    | exact ⟨rfl, rfl, rfl, .inr ⟨_, rfl, fits_atLeast (by simp [Deviates])⟩⟩
    | exact ⟨rfl, rfl, rfl, .inr ⟨_, rfl, fits_exactly (by simp [Deviates])⟩⟩
    | exact ⟨rfl, rfl, rfl, .inr ⟨_, rfl, fits_someOf (by simp [Deviates])⟩⟩
    | exact ⟨rfl, rfl, rfl, .inr ⟨_, rfl, fits_someOf (r := 0) (by simp [Deviates])⟩⟩
    | exact ⟨rfl, rfl, rfl, .inr ⟨_, rfl, fits_args1 (by simp [Deviates])⟩⟩
    | exact ⟨rfl, rfl, rfl, .inr ⟨_, rfl, fits_variadic (by simp [Deviates])⟩⟩
    | exact ⟨rfl, rfl, rfl, .inr ⟨_, rfl, fits_upToThree (by simp [Deviates])⟩⟩
    | exact ⟨rfl, rfl, rfl, .inr ⟨_, rfl, fits_format (by simp [Deviates])⟩⟩
    | exact ⟨rfl, rfl, rfl, .inr ⟨_, rfl, fits_listKeys (by simp [Deviates])⟩⟩
    | exact ⟨rfl, rfl, rfl, .inr ⟨_, rfl, fits_pickZones (by simp [Deviates])⟩⟩
    | exact ⟨rfl, rfl, rfl, .inr ⟨_, rfl, fits_resourceId (by simp [Deviates])⟩⟩
    | exact ⟨rfl, rfl, rfl, .inr ⟨_, rfl, fits_subscriptionResourceId (by simp [Deviates])⟩⟩
    | exact ⟨rfl, rfl, rfl, .inr ⟨_, rfl, fits_resourceGroup (by simp [Deviates])⟩⟩

theorem forall₂_left {α β} {R : α → β → Prop} {l : List α} {m : List β} (h : List.Forall₂ R l m) :
    ∀ a ∈ l, ∃ b ∈ m, R a b := by
  induction h with
  | nil => nofun
  | cons hr _ ih =>
    intro a ha
    rcases List.mem_cons.mp ha with rfl | ha
    · exact ⟨_, List.mem_cons_self, hr⟩
    · obtain ⟨b, hb, hab⟩ := ih a ha
      exact ⟨b, List.mem_cons_of_mem _ hb, hab⟩

theorem Published.names {s : Signature} {t : FunTy} (h : Published s t) : s.names = t.names := by
  unfold Signature.names FunTy.names
  rw [h.1, h.2.1]

theorem signature_of {t : FunTy} (ht : t ∈ publishedFunctions) : ∃ s ∈ signatures, Published s t :=
  forall₂_left (R := fun t s => Published s t) published_table.flip t ht

/-- what is reported about a call of a published function -/
theorem has_iff {t : FunTy} (ht : t ∈ publishedFunctions) {f : String} (hf : f ∈ t.names) {args : List Val}
    {data : Val} (h : FunVal f args data) : t.Has data ↔ ¬ Deviates t.name args.length := by
  obtain ⟨s, hs, hp⟩ := signature_of ht
  have hfs : f ∈ s.names := hp.names ▸ hf
  obtain ⟨_, _, hty, hr⟩ := hp
  cases h with
  | @known s' ps hs' hf' hrep =>
    obtain rfl := signature_unique hs' hf' hs hfs
    rcases hr with ⟨_, hb⟩ | ⟨k, hk, hfit⟩
    · rw [hb] at hrep; cases hrep
    · rw [← (hfit args).2 ps hrep, hty]
      have e : ((ps.map (fun p => (p.1, p.2.val args))).map Prod.fst) = ps.map Prod.fst := by simp
      constructor
      · intro h
        generalize hd : ps.map (fun p => (p.1, p.2.val args)) = d at h e
        cases h with
        | params hk' _ hc =>
          rw [hk] at hk'; cases hk'
          rwa [e] at hc
      · intro h
        exact .params hk (by rw [e]; exact report_distinct _ hs args ps hrep) (by rw [e]; exact h)
  | @bare s' hs' hf' hrep =>
    obtain rfl := signature_unique hs' hf' hs hfs
    rcases hr with ⟨hn, _⟩ | ⟨k, hk, hfit⟩
    · rw [hty]
      refine ⟨fun _ => ?_, fun _ => .bare hn⟩
      have key : ∀ t ∈ publishedFunctions, t.params = .none → ∀ n, ¬ Deviates t.name n := by
        simp only [publishedFunctions, List.forall_mem_cons, List.not_mem_nil, false_implies, implies_true, and_true]
        simp [Deviates]
      exact key t ht hn _
    · exact absurd hrep (hfit args).1
  | unknown hu => exact absurd hfs (hu s hs)

/-! ### Operators -/

/-- expressions written with an operator -/
def Expr.isOperator : Expr → Bool
  | .bin .. | .not .. | .minus .. | .cond .. | .method .. => true
  | _ => false

theorem two_operands (op : BinOp) : ∃ k, (op.label, k) ∈ publishedOperators ∧
    k.Covers ["operand_1", "operand_2"] := by
  have h : ∀ opt more, Keys.Covers ⟨["operand_1", "operand_2"], opt, more⟩ ["operand_1", "operand_2"] :=
    fun _ _ => ⟨fun _ h => h, fun _ h => .inl h⟩
  cases op <;> first
    | (refine ⟨⟨["operand_1", "operand_2"], [], .none⟩, ?_, h _ _⟩
       simp [publishedOperators, BinOp.label]
       done)
    | (refine ⟨⟨["operand_1", "operand_2"], ["operand_3"], some "operand_"⟩, ?_, h _ _⟩
       simp [publishedOperators, BinOp.label])

theorem isOperator_opVal {l : String} {k : Keys} {d : List (String × Val)} (h1 : (l, k) ∈ publishedOperators)
    (h2 : (d.map Prod.fst).Nodup) (h3 : k.Covers (d.map Prod.fst)) : IsOperator (opVal l d) :=
  ⟨l, k, d, rfl, h1, h2, h3⟩

theorem operator_val {e : Expr} (he : e.isOperator = true) {ln : Bool} {y : Val} (h : e.val ln = .ok y) :
    IsOperator y := by
  cases e with
  | bin op a b =>
    rw [Expr.val] at h
    obtain ⟨x, _, h⟩ := bind_ok' h; obtain ⟨z, _, h⟩ := bind_ok' h; cases h
    obtain ⟨k, hk, hc⟩ := two_operands op
    exact isOperator_opVal hk (by simp) hc
  | not a =>
    rw [Expr.val] at h
    obtain ⟨x, _, h⟩ := bind_ok' h; cases h
    exact isOperator_opVal (k := { req := ["bool_value"] }) (by simp [publishedOperators]) (by simp) (Keys.covers_self _)
  | minus a =>
    rw [Expr.val] at h
    obtain ⟨x, _, h⟩ := bind_ok' h; cases h
    exact isOperator_opVal (k := { req := ["integer_value"] }) (by simp [publishedOperators]) (by simp)
      (Keys.covers_self _)
  | cond a b c =>
    rw [Expr.val] at h
    obtain ⟨x, _, h⟩ := bind_ok' h; obtain ⟨z, _, h⟩ := bind_ok' h; obtain ⟨w, _, h⟩ := bind_ok' h; cases h
    exact isOperator_opVal (k := { req := ["condition", "true_value", "false_value"] })
      (by simp [publishedOperators]) (by simp) (Keys.covers_self _)
  | method a f args =>
    rw [Expr.val] at h
    obtain ⟨x, _, h⟩ := bind_ok' h; obtain ⟨vs, _, h⟩ := bind_ok' h; cases h
    have hsub : (((numbered "operand_" 2 vs).filter (fun p => p.2.truthy)).map Prod.fst).Sublist
        ((numbered "operand_" 2 vs).map Prod.fst) := List.filter_sublist.map _
    have hkey : ∀ k ∈ ((numbered "operand_" 2 vs).filter (fun p => p.2.truthy)).map Prod.fst,
        ∃ m, 2 ≤ m ∧ k = "operand_" ++ toString m := fun k hk => numbered_key (hsub.subset hk)
    refine isOperator_opVal
      (k := { req := ["operand_1", "func_name"], opt := ["operand_2"], more := some "operand_" })
      (by simp [publishedOperators]) ?_ ⟨?_, ?_⟩
    · simp only [List.map_cons, List.nodup_cons, List.mem_cons, not_or]
      refine ⟨⟨by decide, fun hm => ?_⟩, fun hm => ?_, hsub.nodup (numbered_nodup ..)⟩
      · obtain ⟨m, hm, e⟩ := hkey _ hm
        have := pre_toString_inj (pre := "operand_") (a := 1) (b := m) e
        omega
      · exact numbered_not_mem (by decide) _ _ (hsub.subset hm)
    · intro k hk
      simp only [List.mem_cons, List.not_mem_nil, or_false] at hk
      rcases hk with rfl | rfl <;> simp
    · intro k hk
      simp only [List.map_cons, List.mem_cons] at hk
      rcases hk with rfl | rfl | hk
      · exact .inl (by simp)
      · exact .inl (by simp)
      · obtain ⟨m, _, rfl⟩ := hkey _ hk
        exact .inr (.inr ⟨_, m, rfl, rfl⟩)
  | _ => cases he

/-! ### The property -/

/-- **C64.** A call of a published function has the published keys, except for the listed deviations;
every other call has the form of an unknown function. -/
theorem C64_functions {P : Parser} {text path v} (h : P.parse text path = .ok v) :
    ∃ t p, chosenText text path = .ok t ∧ Spells t p ∧
      (∀ {s n π f es ty}, p.At s n π (.expr (.call f es)) → ty ∈ publishedFunctions →
        String.ofList f.1 ∈ ty.names → ∃ data, v.at? (.key s :: .key n :: π) = some (.dict [("function", data)]) ∧
          (ty.Has data ↔ ¬ Deviates ty.name es.length)) ∧
      (∀ {s n π f es}, p.At s n π (.expr (.call f es)) → (∀ ty ∈ publishedFunctions, String.ofList f.1 ∉ ty.names) →
        ∃ d, v.at? (.key s :: .key n :: π) = some (.dict [("function", .dict
          [("type", .str (String.ofList f.1)), ("parameters", .dict d)])]) ∧
          (d.map Prod.fst).Nodup ∧ unknownFunctionKeys.Covers (d.map Prod.fst)) := by
  obtain ⟨t, p, h1, h2, h3⟩ := parse_at h
  refine ⟨t, p, h1, h2, fun {s n π f es ty} ha ht hf => ?_, fun {s n π f es} ha hf => ?_⟩
  · obtain ⟨y, hy, hat⟩ := h3 ha
    obtain ⟨vs, data, hvs, hd, rfl⟩ := call_at hy
    refine ⟨data, hat, ?_⟩
    rw [has_iff ht hf hd, (vals_getElem hvs).1]
  · obtain ⟨y, hy, hat⟩ := h3 ha
    obtain ⟨vs, data, hvs, hd, rfl⟩ := call_at hy
    have hu : ∀ s ∈ signatures, String.ofList f.1 ∉ s.names := fun s hs hm => by
      obtain ⟨ty, hty, hp⟩ := forall₂_left published_table s hs
      exact hf ty hty (hp.names ▸ hm)
    cases hd with
    | known hs hf' _ => exact absurd hf' (hu _ hs)
    | bare hs hf' _ => exact absurd hf' (hu _ hs)
    | unknown _ =>
      refine ⟨_, hat, numbered_nodup .., nofun, fun x hx => ?_⟩
      obtain ⟨m, _, rfl⟩ := numbered_key hx
      exact .inr (.inr ⟨_, m, rfl, rfl⟩)

/-- **C64.** An expression written with an operator has one of the published operator types. -/
theorem C64_operators {P : Parser} {text path v} (h : P.parse text path = .ok v) :
    ∃ t p, chosenText text path = .ok t ∧ Spells t p ∧
      ∀ {s n π e}, p.At s n π (.expr e) → e.isOperator = true →
        ∃ y, v.at? (.key s :: .key n :: π) = some y ∧ IsOperator y := by
  obtain ⟨t, p, h1, h2, h3⟩ := parse_at h
  refine ⟨t, p, h1, h2, fun {s n π e} ha he => ?_⟩
  obtain ⟨y, hy, hat⟩ := h3 ha
  exact ⟨y, hat, operator_val he hy⟩

/-- **C64.** A lambda expression has the published type if and only if it has at most three variables. -/
theorem C64_lambdas {P : Parser} {text path v} (h : P.parse text path = .ok v) :
    ∃ t p, chosenText text path = .ok t ∧ Spells t p ∧
      (∀ {s n π x e}, p.At s n π (.expr (.lambda x e)) →
        ∃ y, v.at? (.key s :: .key n :: π) = some y ∧ IsLambda y) ∧
      (∀ {s n π x1 x2 x3 xs e}, p.At s n π (.expr (.lambdaN x1 x2 x3 xs e)) →
        ∃ y, v.at? (.key s :: .key n :: π) = some y ∧ (IsLambda y ↔ xs = [])) := by
  obtain ⟨t, p, h1, h2, h3⟩ := parse_at h
  refine ⟨t, p, h1, h2, fun {s n π x e} ha => ?_, fun {s n π x1 x2 x3 xs e} ha => ?_⟩
  · obtain ⟨y, hy, hat⟩ := h3 ha
    refine ⟨y, hat, ?_⟩
    rw [Node.val, Expr.val] at hy
    obtain ⟨z, _, hy⟩ := bind_ok' hy; obtain ⟨b, _, hy⟩ := bind_ok' hy; cases hy
    refine ⟨[("var_1", .str z.pyStr)], b, rfl, by simp, ⟨fun _ h => h, fun _ h => .inl h⟩, ?_⟩
    simp
  · obtain ⟨y, hy, hat⟩ := h3 ha
    refine ⟨y, hat, ?_⟩
    rw [Node.val, Expr.val] at hy
    obtain ⟨z1, _, hy⟩ := bind_ok' hy; obtain ⟨z2, _, hy⟩ := bind_ok' hy; obtain ⟨z3, _, hy⟩ := bind_ok' hy
    obtain ⟨zs, hzs, hy⟩ := bind_ok' hy; obtain ⟨b, _, hy⟩ := bind_ok' hy; cases hy
    have hl := (vals_getElem hzs).1
    constructor
    · rintro ⟨d, b', hv, _, ⟨_, hc⟩, _⟩
      cases xs with
      | nil => rfl
      | cons x xs =>
        cases zs with
        | nil => simp at hl
        | cons w ws =>
          exfalso
          simp only [Val.dict.injEq, List.cons.injEq, Prod.mk.injEq, true_and, and_true] at hv
          have : "var_4" ∈ (d ++ [("expression", b')]).map Prod.fst := by
            rw [← hv]
            simp only [List.map_cons, numbered, List.cons_append]
            exact .tail _ (.tail _ (.tail _ (.head _)))
          rcases hc _ this with h | h | ⟨_, _, h, _⟩
          · exact absurd h (by decide)
          · exact absurd h (by decide)
          · cases h
    · rintro rfl
      cases zs with
      | cons _ _ => simp at hl
      | nil =>
        have e : ∀ a b c : Val, numbered "var_" 1 [a, b, c] = [("var_1", a), ("var_2", b), ("var_3", c)] := by
          intro a b c
          simp only [numbered]
          rfl
        simp only [List.map_cons, List.map_nil, e]
        refine ⟨[("var_1", .str z1.pyStr), ("var_2", .str z2.pyStr), ("var_3", .str z3.pyStr)], b, rfl, by simp,
          ⟨?_, ?_⟩, ?_⟩
        · simp
        · simp only [List.map_cons, List.map_nil, List.cons_append, List.nil_append]
          intro k hk
          simp only [List.mem_cons, List.not_mem_nil, or_false] at hk ⊢
          rcases hk with rfl | rfl | rfl | rfl <;> simp
        · simp

/-- **C64.** Loops, their heads and conditional bodies have the published types; the body of a loop or
condition is published as a dictionary, which it is not always. -/
theorem C64_loops {P : Parser} {text path v} (h : P.parse text path = .ok v) :
    ∃ t p, chosenText text path = .ok t ∧ Spells t p ∧
      (∀ {s n π hd c b}, p.At s n π (.loop (.mk hd c b)) → ∃ y x, v.at? (.key s :: .key n :: π) = some y ∧
        b.val P.addLineNumbers = .ok x ∧ (IsLoop y ↔ ∃ d, x = .dict d)) ∧
      (∀ {s n π hd}, p.At s n π (.head hd) → ∃ y, v.at? (.key s :: .key n :: π) = some y ∧ IsHead y) ∧
      (∀ {s n π c b}, p.At s n π (.config (.cond c b)) → ∃ y x, v.at? (.key s :: .key n :: π) = some y ∧
        b.val P.addLineNumbers = .ok x ∧ (IsCondition y ↔ ∃ d, x = .dict d)) := by
  have hhead : ∀ {ln hd y}, LoopHead.val ln hd = .ok y → IsHead y := by
    intro ln hd y hy
    cases hd with
    | arr x e =>
      rw [LoopHead.val] at hy
      obtain ⟨z, _, hy⟩ := bind_ok' hy; cases hy
      exact ⟨_, _, _, rfl, by exact .tail _ (.head _),
        .cons ⟨rfl, .text⟩ (.cons ⟨rfl, .value⟩ .nil)⟩
    | arrIdx x i e =>
      rw [LoopHead.val] at hy
      obtain ⟨z, _, hy⟩ := bind_ok' hy; cases hy
      exact ⟨_, _, _, rfl, by exact .tail _ (.tail _ (.head _)),
        .cons ⟨rfl, .text⟩ (.cons ⟨rfl, .text⟩ (.cons ⟨rfl, .value⟩ .nil))⟩
    | obj x e =>
      rw [LoopHead.val] at hy
      obtain ⟨z, _, hy⟩ := bind_ok' hy; cases hy
      exact ⟨_, _, _, rfl, by exact .tail _ (.tail _ (.tail _ (.head _))),
        .cons ⟨rfl, .text⟩ (.cons ⟨rfl, .text⟩ .nil)⟩
  obtain ⟨t, p, h1, h2, h3⟩ := parse_at h
  refine ⟨t, p, h1, h2, fun {s n π hd c b} ha => ?_, fun {s n π hd} ha => ?_, fun {s n π c b} ha => ?_⟩
  · obtain ⟨y, hy, hat⟩ := h3 ha
    rw [Node.val, Loop.val] at hy
    obtain ⟨z, hz, hy⟩ := bind_ok' hy; obtain ⟨w, _, hy⟩ := bind_ok' hy; obtain ⟨x, hx, hy⟩ := bind_ok' hy
    obtain ⟨w', _, hy⟩ := bind_ok' hy; cases hy
    refine ⟨_, x, hat, hx, ?_, ?_⟩
    · rintro ⟨_, _, d, e, _⟩
      cases e; exact ⟨d, rfl⟩
    · rintro ⟨d, rfl⟩
      exact ⟨_, _, d, rfl, hhead hz⟩
  · obtain ⟨y, hy, hat⟩ := h3 ha
    exact ⟨y, hat, hhead hy⟩
  · obtain ⟨y, hy, hat⟩ := h3 ha
    rw [Node.val, Config.val] at hy
    obtain ⟨z, hz, hy⟩ := bind_ok' hy; obtain ⟨x, hx, hy⟩ := bind_ok' hy; cases hy
    refine ⟨_, x, hat, hx, ?_, ?_⟩
    · rintro ⟨_, d, e⟩
      cases e; exact ⟨d, rfl⟩
    · rintro ⟨d, rfl⟩
      exact ⟨_, d, rfl⟩

/-- what is reported about a known decorator: its type and, unless it has none, the argument -/
theorem decorator_form : ∀ p ∈ publishedDecorators, ∀ d ∈ decoNames p.1, ∀ args v,
    Decorators.getDecorator d d args = .ok v →
      if p.2.2 then ∃ a, v = .dict [("type", .str p.2.1), ("argument", a)] else v = .dict [("type", .str p.2.1)] := by
  have hmap : ∀ {x : Except PyErr Val} {t : String} {v : Val}, x.map (Decorators.ddata t) = .ok v →
      ∃ a, v = .dict [("type", .str t), ("argument", a)] := by
    intro x t v h
    cases x with
    | error e => cases h
    | ok a => cases h; exact ⟨a, rfl⟩
  simp only [publishedDecorators, List.forall_mem_cons, List.not_mem_nil, false_implies, implies_true, and_true,
    decoNames, if_true, Bool.false_eq_true, if_false]
  repeat' apply And.intro
  all_goals
    intro args v h
    cases args with
    | nil => first | (cases h; rfl) | cases h
    | cons a l => first | (cases h; exact ⟨a, rfl⟩) | (cases h; rfl) | exact hmap (x := Decorators.minValArg a) h | exact hmap (x := pyInt a) h

/-- **C64.** A known decorator has its published type. -/
theorem C64_decorators {P : Parser} {text path v} (h : P.parse text path = .ok v) :
    ∃ t p, chosenText text path = .ok t ∧ Spells t p ∧
      ∀ {s n π d k ty arg}, p.At s n π (.deco d) → (k, ty, arg) ∈ publishedDecorators →
        String.ofList d.name.1 ∈ decoNames k →
        if arg then ∃ a, v.at? (.key s :: .key n :: π) = some (.dict [("type", .str ty), ("argument", a)])
        else v.at? (.key s :: .key n :: π) = some (.dict [("type", .str ty)]) := by
  obtain ⟨t, p, h1, h2, h3⟩ := parse_at h
  refine ⟨t, p, h1, h2, fun {s n π d k ty arg} ha hk hd => ?_⟩
  obtain ⟨y, hy, hat⟩ := h3 ha
  have hy : ∃ args, Decorators.getDecorator (String.ofList d.name.1) (String.ofList d.name.1) args = .ok y := by
    obtain ⟨name, e⟩ := d
    rw [Node.val] at hy
    unfold Deco.val at hy
    cases e with
    | none => exact ⟨[], inRule_ok hy⟩
    | some e =>
      simp only at hy
      obtain ⟨a, _, hy⟩ := bind_ok' hy
      exact ⟨[a], inRule_ok hy⟩
  obtain ⟨args, hy⟩ := hy
  have := decorator_form _ hk _ hd args y hy
  cases arg with
  | true =>
    obtain ⟨a, rfl⟩ := this
    exact ⟨a, hat⟩
  | false =>
    obtain rfl := this
    exact hat

/-! ### Concrete cases -/

/-- two arguments have the published type -/
example : ∃ d : List (String × Val), Parser.parse ⟨false⟩ (some "var v = concat('a', 'b')\n") .none =
    .ok (.dict [("globals", .dict [("scope", .dict [("value", .str "resourceGroup")])]),
      ("variables", .dict [("v", .dict [("decorators", .list []), ("value", .dict [("function", .dict
        [("type", .str "concat"), ("parameters", .dict d)])])])])]) ∧ d.map Prod.fst = ["arg_1", "arg_2"] :=
  ⟨[("arg_1", .str "a"), ("arg_2", .str "b")], eq_of_outIs (by decide +kernel), rfl⟩

/-- one argument is accepted, although two are required -/
example : Parser.parse ⟨false⟩ (some "var v = concat('a')\n") .none =
    .ok (.dict [("globals", .dict [("scope", .dict [("value", .str "resourceGroup")])]),
      ("variables", .dict [("v", .dict [("decorators", .list []), ("value", .dict [("function", .dict
        [("type", .str "concat"), ("parameters", .dict [("arg_1", .str "a")])])])])])]) :=
  eq_of_outIs (by decide +kernel)

/-- `resourceId` with three names -/
example : Parser.parse ⟨false⟩ (some "var v = resourceId(s, g, 't', a, b, c)\n") .none =
    .ok (.dict [("globals", .dict [("scope", .dict [("value", .str "resourceGroup")])]),
      ("variables", .dict [("v", .dict [("decorators", .list []), ("value", .dict [("function", .dict
        [("type", .str "resource_id"), ("parameters", .dict [("resource_type", .str "t"),
          ("resource_name_1", .elem "a"), ("resource_name_2", .elem "b"), ("resource_name_3", .elem "c"),
          ("resource_group_name", .elem "g"), ("subscription_id", .elem "s")])])])])])]) :=
  eq_of_outIs (by decide +kernel)

/-- a lambda expression with four variables, a loop whose body is not a dictionary, a decorator -/
example : Parser.parse ⟨false⟩ (some "var f = (a, b, c, d) => a\n@secure()\nparam p string\nvar l = [for x in xs: x]\n")
    .none = .ok (.dict [("globals", .dict [("scope", .dict [("value", .str "resourceGroup")])]),
      ("variables", .dict [
        ("f", .dict [("decorators", .list []), ("value", .dict [("type", .str "lambda_expression"),
          ("detail", .dict [("var_1", .str "a"), ("var_2", .str "b"), ("var_3", .str "c"), ("var_4", .str "d"),
            ("expression", .elem "a")])])]),
        ("l", .dict [("decorators", .list []), ("value", .dict [("loop_type", .dict [("type", .str "array"),
          ("detail", .dict [("item_name", .str "x"), ("array_name", .elem "xs")])]), ("condition", .none),
          ("config", .elem "x")])])]),
      ("parameters", .dict [("p", .dict [("decorators", .list [.dict [("type", .str "secure")]]),
        ("type", .str "string"), ("default", .none)])])]) :=
  eq_of_outIs (by decide +kernel)

end Pycep
