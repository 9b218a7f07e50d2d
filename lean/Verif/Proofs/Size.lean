import Verif.Spec.Size
import Verif.Spec.Syntax
import Verif.Proofs.FunSpec
import Verif.Proofs.SemDecl
import Verif.Proofs.ModuleRef
/-
How large a value can be, in terms of the tokens it was made from.  `cost` is the number of values plus
a surcharge for nested resources, from which the dependency added when they are extracted is paid.
-/
namespace Pycep

/-- the surcharge of a key -/
def keyCost (k : String) : Nat := if k = "__child_resource__" then 5 else 0

mutual
/-- number of values with surcharges -/
def Val.cost : Val → Nat
  | .dict d => 1 + costItems d
  | .list l => 1 + costOf l
  | .tup2 a b => 1 + (a.cost + b.cost)
  | _ => 1
/-- `cost` of the entries of a dictionary -/
def costItems : List (String × Val) → Nat
  | [] => 0
  | (k, v) :: d => v.cost + keyCost k + costItems d
/-- `cost` of several values -/
def costOf : List Val → Nat
  | [] => 0
  | v :: l => v.cost + costOf l
end

mutual
theorem nodes_le : ∀ v : Val, v.nodes ≤ v.cost
  | .dict d => by rw [Val.nodes, Val.cost]; have := nodesOfItems_le d; omega
  | .list l => by rw [Val.nodes, Val.cost]; have := nodesOf_le l; omega
  | .tup2 a b => by rw [Val.nodes, Val.cost]; have := nodes_le a; have := nodes_le b; omega
  | .none => by simp [Val.nodes, Val.cost]
  | .bool _ => by simp [Val.nodes, Val.cost]
  | .int _ => by simp [Val.nodes, Val.cost]
  | .str _ => by simp [Val.nodes, Val.cost]
  | .elem _ => by simp [Val.nodes, Val.cost]
  | .tok _ _ => by simp [Val.nodes, Val.cost]
theorem nodesOfItems_le : ∀ d : List (String × Val), nodesOfItems d ≤ costItems d
  | [] => by simp [nodesOfItems]
  | (k, v) :: d => by
    rw [nodesOfItems, costItems]
    have := nodes_le v
    have := nodesOfItems_le d
    omega
theorem nodesOf_le : ∀ l : List Val, nodesOf l ≤ costOf l
  | [] => by simp [nodesOf]
  | v :: l => by
    rw [nodesOf, costOf]
    have := nodes_le v
    have := nodesOf_le l
    omega
end

theorem cost_pos (v : Val) : 1 ≤ v.cost := by
  cases v <;> simp [Val.cost]

/-! ### Dictionaries -/

theorem costItems_append (d e : List (String × Val)) : costItems (d ++ e) = costItems d + costItems e := by
  induction d with
  | nil => simp [costItems]
  | cons p d ih => obtain ⟨k, v⟩ := p; simp only [List.cons_append, costItems, ih]; omega

theorem costOf_append (d e : List Val) : costOf (d ++ e) = costOf d + costOf e := by
  induction d with
  | nil => simp [costOf]
  | cons p d ih => simp only [List.cons_append, costOf, ih]; omega

/-- the entry that is overwritten -/
def oldCost (k : String) (d : List (String × Val)) : Nat :=
  match dGet k d with
  | some v => v.cost + keyCost k
  | .none => 0

theorem cost_dSet (k : String) (x : Val) (d : List (String × Val)) :
    costItems (dSet k x d) + oldCost k d = costItems d + (x.cost + keyCost k) := by
  induction d with
  | nil => simp [dSet, oldCost, dGet, costItems]
  | cons p d ih =>
    obtain ⟨k', v⟩ := p
    unfold oldCost at ih ⊢
    rw [dSet, dGet]
    by_cases h : k' = k
    · subst h
      simp only [if_true, costItems]; omega
    · simp only [if_neg h, costItems]; omega

theorem cost_dErase (k : String) (d : List (String × Val)) :
    costItems (dErase k d) + oldCost k d = costItems d := by
  induction d with
  | nil => simp [dErase, oldCost, dGet, costItems]
  | cons p d ih =>
    obtain ⟨k', v⟩ := p
    unfold oldCost at ih ⊢
    rw [dErase, dGet]
    by_cases h : k' = k
    · subst h
      simp only [if_true, costItems]; omega
    · simp only [if_neg h, costItems]; omega

theorem cost_dGet {k : String} {d : List (String × Val)} {v : Val} (h : dGet k d = some v) :
    v.cost + keyCost k ≤ costItems d := by
  have := cost_dErase k d
  unfold oldCost at this
  rw [h] at this
  simp only at this
  omega

theorem cost_lastWins (ps : List (String × Val)) : costItems (lastWins ps) ≤ costItems ps := by
  induction ps using List.reverseRecOn with
  | nil => simp [lastWins, costItems]
  | append_singleton ps p ih =>
    rw [lastWins_concat, costItems_append]
    have := cost_dSet p.1 p.2 (lastWins ps)
    simp only [costItems]
    omega

/-! ### Keys -/

/-- the key does not start with `_` -/
def plainKey (k : String) : Bool := match k.toList with | '_' :: _ => false | _ => true

theorem keyCost_plain {k : String} (h : plainKey k = true) : keyCost k = 0 := by
  unfold keyCost
  split
  · rename_i e; subst e; revert h; decide
  · rfl

theorem plainKey_append {k s : String} (h : k ≠ "") (hk : plainKey k = true) : plainKey (k ++ s) = true := by
  unfold plainKey at *
  rw [String.toList_append]
  cases hc : k.toList with
  | nil => exact absurd (by rw [← String.ofList_toList (s := k), hc]) h
  | cons c cs =>
    rw [hc] at hk
    by_cases h : c = '_'
    · subst h; exact absurd hk (by simp)
    · rw [List.cons_append]
      split
      · rename_i e; exact absurd (List.cons.inj e).1 h
      · rfl

theorem cost_numbered {pre : String} (h : pre ≠ "") (hp : plainKey pre = true) : ∀ (vs : List Val) (n : Nat),
    costItems (numbered pre n vs) = costOf vs
  | [], _ => by simp [numbered, costItems, costOf]
  | v :: vs, n => by
    rw [numbered, costItems, costOf, cost_numbered h hp vs, keyCost_plain (plainKey_append h hp)]
    rfl

theorem cost_filter (p : String × Val → Bool) : ∀ d : List (String × Val), costItems (d.filter p) ≤ costItems d
  | [] => by simp
  | (k, v) :: d => by
    have := cost_filter p d
    rw [List.filter_cons]
    split
    · simp only [costItems]; omega
    · simp only [costItems]; omega

/-! ### Functions -/

/-- `cost` of the reported parameters -/
def reportCost (args : List Val) (ps : List (String × Src)) : Nat :=
  costItems (ps.map (fun p => (p.1, p.2.val args)))

theorem reportCost_append (args : List Val) (ps qs : List (String × Src)) :
    reportCost args (ps ++ qs) = reportCost args ps + reportCost args qs := by
  unfold reportCost; rw [List.map_append, costItems_append]

theorem drop_cost {args : List Val} {i : Nat} (h : i < args.length) :
    costOf (args.drop i) = (args[i]?.getD .none).cost + costOf (args.drop (i + 1)) := by
  rw [List.drop_eq_getElem_cons h, costOf, List.getElem?_eq_getElem h]; rfl

theorem cost_firsts (args : List Val) : ∀ (ks : List String) (i : Nat), ks.all plainKey = true →
    i + ks.length ≤ args.length →
    reportCost args (Signature.firsts i ks) + costOf (args.drop (i + ks.length)) = costOf (args.drop i)
  | [], i, _, _ => by simp [Signature.firsts, reportCost, costItems]
  | k :: ks, i, hk, hl => by
    simp only [List.all_cons, Bool.and_eq_true] at hk
    rw [List.length_cons] at hl
    have ih := cost_firsts args ks (i + 1) hk.2 (by omega)
    unfold reportCost at ih ⊢
    rw [drop_cost (by omega : i < args.length), ← ih, Signature.firsts, List.map_cons, costItems, keyCost_plain hk.1,
      List.length_cons, show i + (ks.length + 1) = i + 1 + ks.length by omega]
    simp only [Src.val]
    omega

theorem cost_rest (args : List Val) {pre : String} (h : pre ≠ "") (hp : plainKey pre = true) : ∀ (n start i : Nat),
    i + n ≤ args.length →
    reportCost args (Signature.rest pre start i n) + costOf (args.drop (i + n)) = costOf (args.drop i)
  | 0, start, i, _ => by simp [Signature.rest, reportCost, costItems]
  | n + 1, start, i, hl => by
    have ih := cost_rest args h hp n (start + 1) (i + 1) (by omega)
    unfold reportCost at ih ⊢
    rw [drop_cost (by omega : i < args.length), ← ih, Signature.rest, List.map_cons, costItems,
      keyCost_plain (plainKey_append h hp), show i + (n + 1) = i + 1 + n by omega]
    simp only [Src.val]
    omega

theorem cost_given (args : List Val) {m : Nat} (hm : m ≤ args.length) : ∀ (ks : List String) (i : Nat),
    ks.all plainKey = true →
    reportCost args (Signature.given m i ks) ≤ costOf (args.drop i) + (ks.length - (m - i))
  | [], i, _ => by simp [Signature.given, reportCost, costItems]
  | k :: ks, i, hk => by
    simp only [List.all_cons, Bool.and_eq_true] at hk
    have ih := cost_given args hm ks (i + 1) hk.2
    unfold reportCost at ih ⊢
    rw [Signature.given, List.map_cons, costItems, keyCost_plain hk.1, List.length_cons]
    by_cases hi : i < m
    · rw [drop_cost (by omega : i < args.length), if_pos hi,
        show Src.val args (.arg i) = args[i]?.getD Val.none from rfl]
      omega
    · rw [if_neg hi]
      have hd : costOf (args.drop (i + 1)) ≤ costOf (args.drop i) := by
        by_cases hl : i < args.length
        · rw [drop_cost hl]; omega
        · rw [List.drop_of_length_le (by omega), List.drop_of_length_le (by omega)]
      rw [show (Src.val args .absent).cost = 1 from rfl]
      omega

/-- a signature that reports every argument at most once -/
def Frugal (r : List Val → Report) : Prop :=
  ∀ args ps, r args = .params ps → reportCost args ps ≤ costOf args + 4

theorem drop_le (args : List Val) (n : Nat) : costOf (args.drop n) ≤ costOf args := by
  conv_rhs => rw [← List.take_append_drop n args, costOf_append]
  omega

theorem frugal_exactly {ks : List String} (hk : ks.all plainKey = true) : Frugal (Signature.exactly ks) := by
  intro args ps h
  unfold Signature.exactly at h
  split at h
  · injection h with h
    subst h
    have := cost_firsts args ks 0 hk (by omega)
    rw [List.drop_zero] at this
    omega
  · cases h

theorem frugal_atLeast {ks : List String} (hk : ks.all plainKey = true) : Frugal (Signature.atLeast ks) := by
  intro args ps h
  unfold Signature.atLeast at h
  split at h
  · cases h
  · injection h with h
    subst h
    have := cost_firsts args ks 0 hk (by omega)
    rw [List.drop_zero] at this
    omega

theorem frugal_someOf {ks : List String} {r : Nat} (hk : ks.all plainKey = true) (hr : ks.length ≤ r + 4) :
    Frugal (Signature.someOf r ks) := by
  intro args ps h
  unfold Signature.someOf at h
  split at h
  · cases h
  · injection h with h
    subst h
    have := cost_given args (le_refl _) ks 0 hk
    rw [List.drop_zero] at this
    omega

theorem frugal_variadic {ks : List String} {pre : String} {start : Nat} (hk : ks.all plainKey = true)
    (hp : pre ≠ "") (hp' : plainKey pre = true) : Frugal (Signature.variadic ks pre start) := by
  intro args ps h
  unfold Signature.variadic at h
  split at h
  · cases h
  · injection h with h
    subst h
    have h1 := cost_firsts args ks 0 hk (by omega)
    have h2 := cost_rest args hp hp' (args.length - ks.length) start ks.length (by omega)
    rw [List.drop_zero, Nat.zero_add] at h1
    rw [reportCost_append]
    omega

theorem frugal_bare : Frugal Signature.bare := by
  intro args ps h; cases h

theorem frugal_upToThree {ks : List String} (hk : ks.all plainKey = true) (hl : ks.length ≤ 4) :
    Frugal (Signature.upToThree ks) := by
  intro args ps h
  unfold Signature.upToThree at h
  split at h
  · cases h
  · injection h with h
    subst h
    have := cost_given args (m := if args.length ≤ 3 then args.length else 1) (by split <;> omega) ks 0 hk
    rw [List.drop_zero] at this
    omega

theorem frugal_pickZones : Frugal Signature.pickZones := by
  intro args ps h
  unfold Signature.pickZones at h
  split at h
  · cases h
  · injection h with h
    subst h
    have := cost_given args (m := if args.length = 5 then 5 else min args.length 4) (by split <;> omega)
      ["provider_namespace", "resource_type", "location", "number_of_zones", "offset"] 0 (by decide)
    rw [List.drop_zero] at this
    have h5 : 1 ≤ (if args.length = 5 then 5 else min args.length 4) := by split <;> omega
    simp only [List.length_cons, List.length_nil] at this
    omega

theorem frugal_resourceId : Frugal Signature.resourceId := by
  intro args ps h
  unfold Signature.resourceId at h
  split at h
  · cases h
  · cases h
  · rename_i hl
    injection h with h
    subst h
    match args, hl with
    | [a, b], _ => simp [reportCost, costItems, costOf, Src.val, Val.cost, keyCost]; omega
  · rename_i hl
    injection h with h
    subst h
    match args, hl with
    | [a, b, c], _ => simp [reportCost, costItems, costOf, Src.val, Val.cost, keyCost]; omega
  · rename_i hl
    injection h with h
    subst h
    match args, hl with
    | [a, b, c, d], _ => simp [reportCost, costItems, costOf, Src.val, Val.cost, keyCost]; omega
  · rename_i n hl
    injection h with h
    subst h
    have h2 := cost_rest args (pre := "resource_name_") (by decide) (by decide) (n + 2) 1 3 (by omega)
    rw [List.cons_append, ← List.singleton_append, ← List.append_assoc, reportCost_append, reportCost_append]
    have h0 := drop_cost (args := args) (i := 0) (by omega)
    have h1 := drop_cost (args := args) (i := 1) (by omega)
    have h3 := drop_cost (args := args) (i := 2) (by omega)
    rw [List.drop_zero] at h0
    simp only [Nat.zero_add, Nat.reduceAdd] at h0 h1 h3
    have e1 : reportCost args [("resource_type", .arg 2)] = (args[2]?.getD Val.none).cost := by
      simp [reportCost, costItems, Src.val, keyCost]
    have e2 : reportCost args [("resource_group_name", .arg 1), ("subscription_id", .arg 0)] =
        (args[1]?.getD Val.none).cost + (args[0]?.getD Val.none).cost := by
      simp [reportCost, costItems, Src.val, keyCost]
    omega

theorem frugal_subscriptionResourceId : Frugal Signature.subscriptionResourceId := by
  intro args ps h
  unfold Signature.subscriptionResourceId at h
  split at h
  · cases h
  · cases h
  · rename_i hl
    injection h with h
    subst h
    match args, hl with
    | [a, b], _ => simp [reportCost, costItems, costOf, Src.val, Val.cost, keyCost]; omega
  · rename_i hl
    injection h with h
    subst h
    match args, hl with
    | [a, b, c], _ => simp [reportCost, costItems, costOf, Src.val, Val.cost, keyCost]; omega
  · rename_i h0 h1 h2 h3
    injection h with h
    subst h
    match args, h0, h1, h2, h3 with
    | a :: b :: c :: d :: r, _, _, _, _ => simp [reportCost, costItems, costOf, Src.val, keyCost]; omega
    | [], h0, _, _, _ => exact absurd rfl h0
    | [_], _, h1, _, _ => exact absurd rfl h1
    | [_, _], _, _, h2, _ => exact absurd rfl h2
    | [_, _, _], _, _, _, h3 => exact absurd rfl h3

theorem frugal_resourceGroup : Frugal Signature.resourceGroup := by
  intro args ps h
  unfold Signature.resourceGroup at h
  split at h
  · injection h with h
    subst h
    simp [reportCost, costItems, costOf, Src.val, Val.cost, keyCost]
  · split at h
    · injection h with h
      subst h
      simp [reportCost, costItems, costOf, Src.val, keyCost]
      omega
    · injection h with h
      subst h
      simp [reportCost, costItems, costOf, Src.val, keyCost]
  · injection h with h
    subst h
    simp [reportCost, costItems, Src.val, Val.cost, keyCost]

theorem frugal_listKeys : Frugal Signature.listKeys := by
  intro args ps h
  unfold Signature.listKeys at h
  split at h
  · rename_i hl
    injection h with h
    subst h
    match args, hl with
    | [a, b], _ => simp [reportCost, costItems, costOf, Src.val, Val.cost, keyCost]; omega
  · cases h

theorem frugal_signatures : ∀ s ∈ signatures, Frugal s.report := by
  intro s hs
  simp only [signatures, List.mem_cons, List.not_mem_nil, or_false] at hs
  repeat' (rcases hs with rfl | hs)
  all_goals first
    | exact frugal_atLeast (by decide)
    | exact frugal_exactly (by decide)
    | exact frugal_someOf (by decide) (by decide)
    | exact frugal_someOf (ks := [_]) (r := 0) (by decide) (by simp)
    | exact frugal_variadic (by decide) (by decide) (by decide)
    | exact frugal_bare
    | exact frugal_upToThree (by decide) (by decide)
    | exact frugal_pickZones
    | exact frugal_resourceId
    | exact frugal_subscriptionResourceId
    | exact frugal_resourceGroup
    | exact frugal_listKeys

theorem cost_function {f : String} {args : List Val} {v : Val} (h : Functions.getFunction f f args = .ok v) :
    v.cost ≤ costOf args + 7 := by
  rcases funVal_iff.mp h with ⟨hs, _, hr⟩ | ⟨_, _, _⟩ | _
  · have := frugal_signatures _ hs _ _ hr
    unfold reportCost at this
    simp [Val.cost, costItems, keyCost]
    omega
  · simp [Val.cost, costItems, keyCost]
  · simp [Val.cost, costItems, keyCost, cost_numbered (pre := "arg_") (by decide) (by decide)]
    omega

end Pycep
