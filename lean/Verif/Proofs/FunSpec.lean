import Verif.Proofs.FunTable
/-
Calls of functions, through the table of signatures.
-/
namespace Pycep
open Functions

/-- no name is known twice -/
theorem names_nodup : ((signatures.flatMap (fun s => s.names.map (·, s))).map Prod.fst).Nodup := by
  have h : (signatures.flatMap (fun s => s.names.map (·, s))).map Prod.fst =
      signatures.flatMap Signature.names := by
    rw [List.map_flatMap]
    congr 1
  rw [h]
  decide +kernel

theorem lookup_forall₂ {α β} {R : α → β → Prop} {l : List (String × α)} {m : List (String × β)}
    (h : List.Forall₂ (fun a b => a.1 = b.1 ∧ R a.2 b.2) l m) (k : String) :
    (l.lookup k = .none ∧ ∀ b, (k, b) ∉ m) ∨ ∃ a b, l.lookup k = some a ∧ (k, b) ∈ m ∧ R a b := by
  induction h with
  | nil => exact .inl ⟨rfl, by simp⟩
  | @cons x y l m hxy _ ih =>
    obtain ⟨i, a⟩ := x
    obtain ⟨j, b⟩ := y
    obtain ⟨hk, hr⟩ := hxy
    simp only at hk hr
    subst hk
    rw [List.lookup_cons]
    by_cases hki : k = i
    · subst hki
      exact .inr ⟨a, b, by simp, by simp, hr⟩
    · rw [beq_eq_false_iff_ne.mpr hki]
      rcases ih with ⟨h1, h2⟩ | ⟨a', b', h1, h2, h3⟩
      · refine .inl ⟨h1, fun c hc => ?_⟩
        rcases List.mem_cons.mp hc with e | e
        · exact hki (congrArg Prod.fst e)
        · exact h2 c e
      · exact .inr ⟨a', b', h1, List.mem_cons_of_mem _ h2, h3⟩

theorem mem_pairs {f : String} {s : Signature} :
    (f, s) ∈ signatures.flatMap (fun s => s.names.map (·, s)) ↔ s ∈ signatures ∧ f ∈ s.names := by
  simp only [List.mem_flatMap, List.mem_map, Prod.mk.injEq]
  constructor
  · rintro ⟨a, ha, b, hb, rfl, rfl⟩; exact ⟨ha, hb⟩
  · rintro ⟨h1, h2⟩; exact ⟨s, h1, f, h2, rfl, rfl⟩

theorem fst_unique {α} {f : String} : ∀ {l : List (String × α)}, (l.map Prod.fst).Nodup → ∀ {a b},
    (f, a) ∈ l → (f, b) ∈ l → a = b := by
  intro l
  induction l with
  | nil => simp
  | cons x l ih =>
    intro hl a b ha hb
    simp only [List.map_cons, List.nodup_cons] at hl
    rcases List.mem_cons.mp ha with ea | ea <;> rcases List.mem_cons.mp hb with eb | eb
    · rw [ea.symm] at eb; exact (congrArg Prod.snd eb).symm
    · exfalso; apply hl.1; rw [ea.symm]; exact List.mem_map.mpr ⟨_, eb, rfl⟩
    · exfalso; apply hl.1; rw [eb.symm]; exact List.mem_map.mpr ⟨_, ea, rfl⟩
    · exact ih hl.2 ea eb

/-- a name belongs to one signature -/
theorem signature_unique {f : String} {s s' : Signature} (hs : s ∈ signatures) (hf : f ∈ s.names)
    (hs' : s' ∈ signatures) (hf' : f ∈ s'.names) : s = s' :=
  fst_unique names_nodup (mem_pairs.mpr ⟨hs, hf⟩) (mem_pairs.mpr ⟨hs', hf'⟩)

/-- a known function reports what its signature says -/
theorem getFunction_known {f : String} {s : Signature} (hs : s ∈ signatures) (hf : f ∈ s.names)
    (n : String) (args : List Val) : Agrees s args (getFunction f n args) := by
  rcases lookup_forall₂ (R := fun (g : FuncDef) (s : Signature) => ∀ n args, Agrees s args (g n args)) table_agrees f with ⟨_, h⟩ | ⟨g, s', h1, h2, h3⟩
  · exact absurd (mem_pairs.mpr ⟨hs, hf⟩) (h s)
  · have : s' = s := signature_unique (mem_pairs.mp h2).1 (mem_pairs.mp h2).2 hs hf
    subst this
    unfold getFunction
    rw [h1]
    exact h3 n args

/-- every other function is kept as it is -/
theorem getFunction_unknown {f : String} (h : ∀ s ∈ signatures, f ∉ s.names) (n : String)
    (args : List Val) : getFunction f n args =
      .ok (.dict [("type", .str n), ("parameters", .dict (numbered "arg_" 1 args))]) := by
  rcases lookup_forall₂ (R := fun (g : FuncDef) (s : Signature) => ∀ n args, Agrees s args (g n args)) table_agrees f with ⟨h1, _⟩ | ⟨g, s', h1, h2, _⟩
  · unfold getFunction
    rw [h1]
    simp only [unknown_func]
    rw [enumKeys_eq, mkDict_of_nodup (numbered_nodup ..)]
  · have := mem_pairs.mp h2
    exact absurd this.2 (h _ this.1)

/-- **What calls are represented by.** -/
theorem funVal_iff {f : String} {args : List Val} {v : Val} :
    getFunction f f args = .ok v ↔ FunVal f args v := by
  by_cases h : ∃ s ∈ signatures, f ∈ s.names
  · obtain ⟨s, hs, hf⟩ := h
    have ha := getFunction_known hs hf f args
    unfold Agrees at ha
    constructor
    · intro hv
      split at ha
      · obtain ⟨e, he⟩ := ha; rw [he] at hv; cases hv
      · rename_i hr
        rw [hv] at ha; cases ha; exact .bare hs hf hr
      · rename_i ps hr
        rw [hv] at ha; cases ha; exact .known hs hf hr
    · intro hv
      cases hv with
      | known hs' hf' hr =>
        have e := signature_unique hs' hf' hs hf
        subst e
        rw [hr] at ha
        exact ha
      | bare hs' hf' hr =>
        have e := signature_unique hs' hf' hs hf
        subst e
        rw [hr] at ha
        exact ha
      | unknown hu => exact absurd hf (hu s hs)
  · have hu : ∀ s ∈ signatures, f ∉ s.names := fun s hs hf => h ⟨s, hs, hf⟩
    rw [getFunction_unknown hu]
    constructor
    · intro hv; cases hv; exact .unknown hu
    · intro hv
      cases hv with
      | known hs' hf' _ => exact absurd hf' (hu _ hs')
      | bare hs' hf' _ => exact absurd hf' (hu _ hs')
      | unknown _ => rfl

/-- a call fails exactly if the table refuses its arguments -/
theorem funErr_iff {f : String} {args : List Val} :
    (∃ e, getFunction f f args = .error e) ↔
      ∃ s ∈ signatures, f ∈ s.names ∧ s.report args = .refused := by
  by_cases h : ∃ s ∈ signatures, f ∈ s.names
  · obtain ⟨s, hs, hf⟩ := h
    have ha := getFunction_known hs hf f args
    unfold Agrees at ha
    constructor
    · rintro ⟨e, he⟩
      refine ⟨s, hs, hf, ?_⟩
      split at ha
      · assumption
      · rw [he] at ha; cases ha
      · rw [he] at ha; cases ha
    · rintro ⟨s', hs', hf', hr⟩
      have ha' := getFunction_known hs' hf' f args
      unfold Agrees at ha'
      rw [hr] at ha'
      exact ha'
  · have hu : ∀ s ∈ signatures, f ∉ s.names := fun s hs hf => h ⟨s, hs, hf⟩
    rw [getFunction_unknown hu]
    constructor
    · rintro ⟨e, he⟩; cases he
    · rintro ⟨s, hs, hf, _⟩; exact absurd hf (hu s hs)

open Signature in
theorem firsts_keys (i : Nat) (ks : List String) : (firsts i ks).map Prod.fst = ks := by
  induction ks generalizing i with
  | nil => rfl
  | cons k ks ih => simp [firsts, ih]

open Signature in
theorem given_keys (n i : Nat) (ks : List String) : (given n i ks).map Prod.fst = ks := by
  induction ks generalizing i with
  | nil => rfl
  | cons k ks ih => simp [given, ih]

open Signature in
theorem rest_keys (pre : String) (s i : Nat) (vs : List Val) :
    (rest pre s i vs.length).map Prod.fst = (numbered pre s vs).map Prod.fst := by
  induction vs generalizing s i with
  | nil => rfl
  | cons v vs ih => simp [rest, numbered, ih]

open Signature in
theorem rest_keys' (pre : String) (s i n : Nat) :
    (rest pre s i n).map Prod.fst = (numbered pre s (List.replicate n Val.none)).map Prod.fst := by
  have := rest_keys pre s i (List.replicate n Val.none)
  rwa [List.length_replicate] at this

namespace Signature

/-- reported names are distinct -/
def Distinct (r : List Val → Report) : Prop :=
  ∀ args ps, r args = .params ps → (ps.map Prod.fst).Nodup

theorem distinct_exactly {ks : List String} (h : ks.Nodup) : Distinct (exactly ks) := by
  intro args ps hr
  unfold exactly at hr
  split at hr <;> cases hr
  rw [firsts_keys]; exact h

theorem distinct_atLeast {ks : List String} (h : ks.Nodup) : Distinct (atLeast ks) := by
  intro args ps hr
  unfold atLeast at hr
  split at hr <;> cases hr
  rw [firsts_keys]; exact h

theorem distinct_someOf {r : Nat} {ks : List String} (h : ks.Nodup) : Distinct (someOf r ks) := by
  intro args ps hr
  unfold someOf at hr
  split at hr <;> cases hr
  rw [given_keys]; exact h

theorem distinct_upToThree {ks : List String} (h : ks.Nodup) : Distinct (upToThree ks) := by
  intro args ps hr
  unfold upToThree at hr
  split at hr <;> cases hr
  rw [given_keys]; exact h

theorem distinct_bare : Distinct bare := by intro args ps hr; cases hr

theorem distinct_variadic1 {k pre : String} {s : Nat} (h : pre.toList.isPrefixOf k.toList = false) :
    Distinct (variadic [k] pre s) := by
  intro args ps hr
  unfold variadic at hr
  split at hr <;> cases hr
  rw [List.map_append, firsts_keys, rest_keys', List.singleton_append, List.nodup_cons]
  exact ⟨numbered_not_mem h _ _, numbered_nodup ..⟩

theorem distinct_args1 : Distinct (variadic ["arg_1"] "arg_" 2) := by
  intro args ps hr
  unfold variadic at hr
  split at hr <;> cases hr
  rw [List.map_append, firsts_keys, rest_keys']
  exact numbered_nodup "arg_" 1 (Val.none :: _)

theorem distinct_args2 : Distinct (variadic ["arg_1", "arg_2"] "arg_" 3) := by
  intro args ps hr
  unfold variadic at hr
  split at hr <;> cases hr
  rw [List.map_append, firsts_keys, rest_keys']
  exact numbered_nodup "arg_" 1 (Val.none :: Val.none :: _)

theorem distinct_listKeys : Distinct Signature.listKeys := by
  intro args ps hr
  unfold Signature.listKeys at hr
  split at hr <;> cases hr
  decide

theorem distinct_pickZones : Distinct Signature.pickZones := by
  intro args ps hr
  unfold Signature.pickZones at hr
  split at hr <;> cases hr
  rw [given_keys]; decide

theorem distinct_resourceGroup : Distinct Signature.resourceGroup := by
  intro args ps hr
  unfold Signature.resourceGroup at hr
  split at hr
  · cases hr; decide
  · split at hr <;> cases hr <;> decide
  · cases hr; decide

theorem distinct_subscriptionResourceId : Distinct Signature.subscriptionResourceId := by
  intro args ps hr
  unfold Signature.subscriptionResourceId at hr
  split at hr <;> cases hr <;> decide

theorem distinct_resourceId : Distinct Signature.resourceId := by
  intro args ps hr
  unfold Signature.resourceId at hr
  split at hr <;> cases hr
  · decide
  · decide
  · decide
  · rename_i n _
    have h1 := numbered_not_mem (pre := "resource_name_") (k := "resource_type") (by decide) 1
      (List.replicate (n + 2) Val.none)
    have h2 := numbered_not_mem (pre := "resource_name_") (k := "resource_group_name") (by decide) 1
      (List.replicate (n + 2) Val.none)
    have h3 := numbered_not_mem (pre := "resource_name_") (k := "subscription_id") (by decide) 1
      (List.replicate (n + 2) Val.none)
    simp only [List.map_append, List.map_cons, List.map_nil, List.cons_append, rest_keys',
      List.nodup_cons, List.nodup_append, List.mem_append, List.mem_cons, List.not_mem_nil,
      or_false, List.nodup_nil, and_true]
    refine ⟨?_, numbered_nodup .., by decide, ?_⟩
    · rintro (h | h | h)
      · exact h1 h
      · exact absurd h (by decide)
      · exact absurd h (by decide)
    · rintro x hx y (rfl | rfl) rfl
      · exact h2 hx
      · exact h3 hx

end Signature

open Signature in
/-- no signature reports two parameters under one name -/
theorem report_distinct : ∀ s ∈ signatures, Distinct s.report := by
  simp only [signatures, List.forall_mem_cons, List.not_mem_nil, false_implies, implies_true, and_true]
  refine ⟨distinct_atLeast (by decide), distinct_atLeast (by decide), distinct_args1,
    distinct_exactly (by decide), distinct_atLeast (by decide), distinct_atLeast (by decide),
    distinct_atLeast (by decide), distinct_args2, distinct_atLeast (by decide),
    distinct_atLeast (by decide), distinct_args1, distinct_args1, distinct_exactly (by
    decide), distinct_exactly (by decide), distinct_exactly (by decide), distinct_args2,
    distinct_someOf (by decide), distinct_atLeast (by decide), distinct_atLeast (by decide),
    distinct_someOf (by decide), distinct_bare, distinct_bare, distinct_atLeast (by decide),
    distinct_upToThree (by decide), distinct_someOf (by decide), distinct_upToThree (by
    decide), distinct_exactly (by decide), distinct_atLeast (by decide), distinct_atLeast (by
    decide), distinct_atLeast (by decide), distinct_someOf (by decide), distinct_listKeys,
    distinct_someOf (by decide), distinct_pickZones, distinct_upToThree (by decide),
    distinct_resourceId, distinct_subscriptionResourceId, distinct_someOf (by decide),
    distinct_someOf (by decide), distinct_resourceGroup, distinct_someOf (by decide),
    distinct_bare, distinct_atLeast (by decide), distinct_atLeast (by decide),
    distinct_atLeast (by decide), distinct_atLeast (by decide), distinct_atLeast (by decide),
    distinct_exactly (by decide), distinct_variadic1 (by decide), distinct_variadic1 (by
    decide), distinct_exactly (by decide), distinct_exactly (by decide), distinct_exactly (by
    decide), distinct_bare, distinct_someOf (by decide), distinct_exactly (by decide),
    distinct_exactly (by decide), distinct_exactly (by decide), distinct_atLeast (by decide),
    distinct_someOf (by decide), distinct_atLeast (by decide), distinct_atLeast (by decide),
    distinct_atLeast (by decide), distinct_variadic1 (by decide), distinct_exactly (by
    decide), distinct_atLeast (by decide), distinct_atLeast (by decide)⟩

end Pycep
