import Verif.Spec.Edit
import Verif.Proofs.Reported
/-
An edit of one piece of a program changes the result in one place.
-/
namespace Pycep

open Val (OnlyAt)

/-! ### Values that differ in one place -/

theorem Val.OnlyAt.trans {π σ : List PStep} {x x' y y' z z' : Val} (h : OnlyAt π x x' y y')
    (h' : OnlyAt σ y y' z z') : OnlyAt (π ++ σ) x x' z z' := by
  induction h with
  | here => exact h'
  | key h1 h2 _ ih => exact .key h1 h2 (ih h')
  | idx _ ih => exact .idx (ih h')

theorem dGet_append_of_notMem {k : String} {a b : List (String × Val)} (h : k ∉ a.map Prod.fst) :
    dGet k (a ++ b) = dGet k b := by
  induction a with
  | nil => rfl
  | cons p a ih =>
    obtain ⟨x, v⟩ := p
    simp only [List.map_cons, List.mem_cons, not_or] at h
    rw [List.cons_append, dGet, if_neg (Ne.symm h.1), ih h.2]

theorem Val.OnlyAt.at {π : List PStep} {x x' y y' : Val} (h : OnlyAt π x x' y y') :
    x.at? π = some y ∧ x'.at? π = some y' := by
  induction h with
  | here => exact ⟨rfl, rfl⟩
  | key h1 h2 _ ih =>
    simp only [Val.at?, Val.step?, dGet_append_of_notMem h1, dGet, if_true, Option.bind_some]
    exact ih
  | idx _ ih =>
    simp only [Val.at?, Val.step?]
    simpa using ih

/-- At every other place there is the same value, or none in both. -/
theorem Val.OnlyAt.off {π : List PStep} {x x' y y' : Val} (h : OnlyAt π x x' y y') {σ : List PStep}
    (h1 : ¬ σ <+: π) (h2 : ¬ π <+: σ) : x.at? σ = x'.at? σ := by
  induction h generalizing σ with
  | here => exact absurd (List.nil_prefix) h2
  | @key a b k u u' π y y' ha hb _ ih =>
    cases σ with
    | nil => exact absurd (List.nil_prefix) h1
    | cons s σ =>
      cases s with
      | idx i => rfl
      | key j =>
        by_cases hj : j = k
        · subst hj
          rw [List.cons_prefix_cons] at h1 h2
          simp only [Val.at?, Val.step?, dGet_append_of_notMem ha, dGet, if_true, Option.bind_some]
          exact ih (fun h => h1 ⟨rfl, h⟩) (fun h => h2 ⟨rfl, h⟩)
        · have : ∀ a : List (String × Val), dGet j (a ++ (k, u) :: b) = dGet j (a ++ (k, u') :: b) := by
            intro a
            induction a with
            | nil => simp [dGet, Ne.symm hj]
            | cons p a ih => obtain ⟨c, w⟩ := p; simp only [List.cons_append, dGet, ih]
          simp only [Val.at?, Val.step?, this]
  | @idx a b u u' π y y' _ ih =>
    cases σ with
    | nil => exact absurd (List.nil_prefix) h1
    | cons s σ =>
      cases s with
      | key j => rfl
      | idx i =>
        by_cases hj : i = a.length
        · subst hj
          rw [List.cons_prefix_cons] at h1 h2
          simp only [Val.at?, Val.step?]
          simpa using ih (fun h => h1 ⟨rfl, h⟩) (fun h => h2 ⟨rfl, h⟩)
        · have : (a ++ u :: b)[i]? = (a ++ u' :: b)[i]? := by
            rcases Nat.lt_or_gt_of_ne hj with hl | hl
            · rw [List.getElem?_append_left hl, List.getElem?_append_left hl]
            · rw [List.getElem?_append_right (by omega), List.getElem?_append_right (by omega)]
              obtain ⟨n, hn⟩ : ∃ n, i - a.length = n + 1 := ⟨i - a.length - 1, by omega⟩
              rw [hn]; rfl
          simp only [Val.at?, Val.step?, this]

/-- a dictionary one of whose entries is exchanged -/
theorem onlyAt_map {α : Type} {L : List α} (key : α → String) {f f' : α → Val} (hn : (L.map key).Nodup) {p : α}
    (hp : p ∈ L) (h : ∀ q ∈ L, key q ≠ key p → f q = f' q) :
    OnlyAt [.key (key p)] (.dict (L.map (fun q => (key q, f q)))) (.dict (L.map (fun q => (key q, f' q)))) (f p) (f' p) := by
  obtain ⟨a, b, rfl⟩ := List.append_of_mem hp
  rw [List.map_append, List.map_cons, List.nodup_append, List.nodup_cons] at hn
  have hna : key p ∉ a.map key := fun hm => hn.2.2 _ hm _ (List.mem_cons_self ..) rfl
  have hnb : key p ∉ b.map key := hn.2.1.1
  have e1 : a.map (fun q => (key q, f q)) = a.map (fun q => (key q, f' q)) := by
    apply List.map_congr_left
    intro q hq
    rw [h q (by simp [hq])]
    intro e; exact hna (e ▸ List.mem_map_of_mem hq)
  have e2 : b.map (fun q => (key q, f q)) = b.map (fun q => (key q, f' q)) := by
    apply List.map_congr_left
    intro q hq
    rw [h q (by simp [hq])]
    intro e; exact hnb (e ▸ List.mem_map_of_mem hq)
  simp only [List.map_append, List.map_cons, e1, e2]
  refine .key ?_ ?_ .here
  · simpa [Function.comp_def] using hna
  · simpa [Function.comp_def] using hnb

theorem lookup_append_cons_ne {k x : String} (h : x ≠ k) (u u' : Val) (a b : List (String × Val)) :
    (a ++ (k, u) :: b).lookup x = (a ++ (k, u') :: b).lookup x := by
  induction a with
  | nil => simp only [List.nil_append, List.lookup, beq_false_of_ne h]
  | cons p a ih => obtain ⟨c, w⟩ := p; simp only [List.cons_append, List.lookup, ih]

theorem lastWins_onlyAt {a b : List (String × Val)} {k : String} (u u' : Val) (h : k ∉ b.map Prod.fst) :
    OnlyAt [.key k] (.dict (lastWins (a ++ (k, u) :: b))) (.dict (lastWins (a ++ (k, u') :: b))) u u' := by
  unfold lastWins
  have hk : (a ++ (k, u) :: b).map Prod.fst = (a ++ (k, u') :: b).map Prod.fst := by simp
  have hg : ∀ w, ((a ++ (k, w) :: b).reverse.lookup k).getD .none = w := by
    intro w
    rw [(lookup_reverse).mpr ⟨a, b, rfl, h⟩]; rfl
  rw [← hk]
  have := onlyAt_map (L := ((a ++ (k, u) :: b).map Prod.fst).eraseDups) id
    (f := fun x => ((a ++ (k, u) :: b).reverse.lookup x).getD .none)
    (f' := fun x => ((a ++ (k, u') :: b).reverse.lookup x).getD .none) (p := k)
    (by rw [List.map_id]; exact nodup_eraseDups _) (by simp) (by
      intro q _ hq
      simp only [List.reverse_append, List.reverse_cons, List.append_assoc, List.singleton_append]
      rw [lookup_append_cons_ne (k := k) (x := q) hq u u'])
  simpa only [id, hg] using this

theorem dErase_append {c : String} {a b : List (String × Val)} (h : c ∉ a.map Prod.fst) :
    dErase c (a ++ b) = a ++ dErase c b := by
  induction a with
  | nil => rfl
  | cons p a ih =>
    obtain ⟨x, v⟩ := p
    simp only [List.map_cons, List.mem_cons, not_or] at h
    rw [List.cons_append, dErase, if_neg (Ne.symm h.1), ih h.2]; rfl

theorem dErase_append_mem {c : String} {a b : List (String × Val)} (h : c ∈ a.map Prod.fst) :
    dErase c (a ++ b) = dErase c a ++ b := by
  induction a with
  | nil => simp at h
  | cons p a ih =>
    obtain ⟨x, v⟩ := p
    by_cases hx : x = c
    · simp [dErase, hx]
    · simp only [List.map_cons, List.mem_cons] at h
      rw [List.cons_append, dErase, dErase, if_neg hx, if_neg hx, ih (h.resolve_left (Ne.symm hx))]; rfl

theorem dErase_keys {c x : String} {a : List (String × Val)} (h : x ∉ a.map Prod.fst) :
    x ∉ (dErase c a).map Prod.fst := by
  induction a with
  | nil => simp [dErase]
  | cons p a ih =>
    obtain ⟨y, v⟩ := p
    simp only [List.map_cons, List.mem_cons, not_or] at h
    rw [dErase]
    split
    · exact h.2
    · simp only [List.map_cons, List.mem_cons, not_or]; exact ⟨h.1, ih h.2⟩

theorem dSet_append {c : String} {w : Val} {a b : List (String × Val)} (h : c ∉ a.map Prod.fst) :
    dSet c w (a ++ b) = a ++ dSet c w b := by
  induction a with
  | nil => rfl
  | cons p a ih =>
    obtain ⟨x, v⟩ := p
    simp only [List.map_cons, List.mem_cons, not_or] at h
    rw [List.cons_append, dSet, if_neg (Ne.symm h.1), ih h.2]; rfl

theorem dSet_append_mem {c : String} {w : Val} {a b : List (String × Val)} (h : c ∈ a.map Prod.fst) :
    dSet c w (a ++ b) = dSet c w a ++ b := by
  induction a with
  | nil => simp at h
  | cons p a ih =>
    obtain ⟨x, v⟩ := p
    by_cases hx : x = c
    · simp [dSet, hx]
    · simp only [List.map_cons, List.mem_cons] at h
      rw [List.cons_append, dSet, dSet, if_neg hx, if_neg hx, ih (h.resolve_left (Ne.symm hx))]; rfl

theorem dSet_keys_not {c x : String} {w : Val} {a : List (String × Val)} (hx : x ≠ c) (h : x ∉ a.map Prod.fst) :
    x ∉ (dSet c w a).map Prod.fst := by
  induction a with
  | nil => simpa [dSet] using hx
  | cons p a ih =>
    obtain ⟨y, v⟩ := p
    simp only [List.map_cons, List.mem_cons, not_or] at h
    rw [dSet]
    split
    · simp only [List.map_cons, List.mem_cons, not_or]; exact ⟨by rename_i e; subst e; exact h.1, h.2⟩
    · simp only [List.map_cons, List.mem_cons, not_or]; exact ⟨h.1, ih h.2⟩

/-- removing another key -/
theorem Val.OnlyAt.erase {k c : String} {π : List PStep} {d d' : List (String × Val)} {y y' : Val}
    (h : OnlyAt (.key k :: π) (.dict d) (.dict d') y y') (hc : k ≠ c) :
    OnlyAt (.key k :: π) (.dict (dErase c d)) (.dict (dErase c d')) y y' := by
  cases h with
  | @key a b _ u u' _ _ _ h1 h2 h3 =>
    by_cases hm : c ∈ a.map Prod.fst
    · rw [dErase_append_mem hm, dErase_append_mem hm]
      exact .key (dErase_keys h1) h2 h3
    · rw [dErase_append hm, dErase_append hm, dErase, dErase, if_neg hc, if_neg hc]
      exact .key h1 (dErase_keys h2) h3

/-- assigning another key -/
theorem Val.OnlyAt.set {k c : String} {w : Val} {π : List PStep} {d d' : List (String × Val)} {y y' : Val}
    (h : OnlyAt (.key k :: π) (.dict d) (.dict d') y y') (hc : k ≠ c) :
    OnlyAt (.key k :: π) (.dict (dSet c w d)) (.dict (dSet c w d')) y y' := by
  cases h with
  | @key a b _ u u' _ _ _ h1 h2 h3 =>
    by_cases hm : c ∈ a.map Prod.fst
    · rw [dSet_append_mem hm, dSet_append_mem hm]
      exact .key (dSet_keys_not hc h1) h2 h3
    · rw [dSet_append hm, dSet_append hm, dSet, dSet, if_neg hc, if_neg hc]
      exact .key h1 (dSet_keys_not hc h2) h3

/-! ### Pieces -/

theorem vals_split {ln : Bool} {a b : List Expr} {e : Expr} {vs : List Val}
    (h : Expr.vals ln (a ++ e :: b) = .ok vs) : ∃ va v vb, Expr.vals ln a = .ok va ∧ e.val ln = .ok v ∧
      Expr.vals ln b = .ok vb ∧ vs = va ++ v :: vb ∧ va.length = a.length := by
  induction a generalizing vs with
  | nil =>
    rw [List.nil_append, Expr.vals] at h
    obtain ⟨v, hv, h⟩ := bind_ok' h; obtain ⟨vb, hb, h⟩ := bind_ok' h
    cases h
    exact ⟨[], v, vb, by rw [Expr.vals], hv, hb, rfl, rfl⟩
  | cons x a ih =>
    rw [List.cons_append, Expr.vals] at h
    obtain ⟨w, hw, h⟩ := bind_ok' h; obtain ⟨ws, hws, h⟩ := bind_ok' h
    cases h
    obtain ⟨va, v, vb, h1, h2, h3, rfl, h5⟩ := ih hws
    refine ⟨w :: va, v, vb, ?_, h2, h3, rfl, by simp [h5]⟩
    rw [Expr.vals, hw, h1]; rfl

theorem items_split {ln : Bool} {a b : List Item} {i : Item} {ps : List (String × Val)}
    (h : Item.vals ln (a ++ i :: b) = .ok ps) : ∃ pa v pb, Item.vals ln a = .ok pa ∧ i.val ln = .ok (i.key, v) ∧
      Item.vals ln b = .ok pb ∧ ps = pa ++ (i.key, v) :: pb := by
  obtain ⟨pa, q, h1, h2, rfl⟩ := items_append h
  rw [Item.vals] at h2
  obtain ⟨⟨k, v⟩, hv, h2⟩ := bind_ok' h2; obtain ⟨pb, hb, h2⟩ := bind_ok' h2
  cases h2
  have := (item_val_key hv).1
  simp only at this
  subst this
  exact ⟨pa, v, pb, h1, hv, hb, rfl⟩

/-- two objects that differ in one member -/
theorem items_edit {ln : Bool} {a b : List Item} {i i' : Item} {ps ps' : List (String × Val)} (hk : i.key = i'.key)
    (hb : ∀ j ∈ b, j.key ≠ i.key) (h : Item.vals ln (a ++ i :: b) = .ok ps)
    (h' : Item.vals ln (a ++ i' :: b) = .ok ps') : ∃ v v', i.inner ln = .ok v ∧ i'.inner ln = .ok v' ∧
      OnlyAt [.key i.key] (.dict (lastWins ps)) (.dict (lastWins ps')) v v' := by
  obtain ⟨pa, v, pb, h1, h2, h3, rfl⟩ := items_split h
  obtain ⟨pa', v', pb', h1', h2', h3', rfl⟩ := items_split h'
  rw [h1] at h1'; cases h1'
  rw [h3] at h3'; cases h3'
  refine ⟨v, v', (item_val_key h2).2.1, (item_val_key h2').2.1, ?_⟩
  rw [← hk]
  apply lastWins_onlyAt
  rw [(items_mem h3).1]
  intro hm
  obtain ⟨j, hj, e⟩ := List.mem_map.mp hm
  exact hb j hj e

theorem numbered_append (pre : String) (n : Nat) (a b : List Val) :
    numbered pre n (a ++ b) = numbered pre n a ++ numbered pre (n + a.length) b := by
  induction a generalizing n with
  | nil => rfl
  | cons x a ih =>
    rw [List.cons_append, numbered, numbered, ih, List.length_cons, List.cons_append,
      show n + 1 + a.length = n + (a.length + 1) by omega]

theorem onlyAt_nodup {a b : List (String × Val)} {k : String} {u u' : Val}
    (h : ((a ++ (k, u) :: b).map Prod.fst).Nodup) :
    OnlyAt [.key k] (.dict (a ++ (k, u) :: b)) (.dict (a ++ (k, u') :: b)) u u' := by
  rw [List.map_append, List.map_cons, List.nodup_append, List.nodup_cons] at h
  exact .key (fun hm => h.2.2 _ hm _ (List.mem_cons_self ..) rfl) h.2.1.1 .here

theorem numbered_onlyAt (pre : String) (n : Nat) (a b : List Val) (u u' : Val) :
    OnlyAt [.key (pre ++ toString (n + a.length))] (.dict (numbered pre n (a ++ u :: b)))
      (.dict (numbered pre n (a ++ u' :: b))) u u' := by
  have h := numbered_nodup pre n (a ++ u :: b)
  rw [numbered_append, numbered] at h ⊢
  rw [numbered_append, numbered]
  exact onlyAt_nodup h

theorem opVal_onlyAt {l : String} {a b : List (String × Val)} {k : String} {u u' : Val}
    (h1 : k ∉ a.map Prod.fst) (h2 : k ∉ b.map Prod.fst) :
    OnlyAt (operandPath k) (opVal l (a ++ (k, u) :: b)) (opVal l (a ++ (k, u') :: b)) u u' :=
  .key (a := []) (b := []) (by simp) (by simp)
    (.key (a := [("type", .str l)]) (b := []) (by simp) (by simp) (.key h1 h2 .here))

/-! ### No argument is reported twice -/

/-- indices of the reported arguments -/
def argIdxs (ps : List (String × Src)) : List Nat :=
  ps.filterMap (fun p => match p.2 with | .arg i => some i | _ => .none)

theorem argIdxs_nil : argIdxs [] = [] := rfl

theorem argIdxs_append (a b : List (String × Src)) : argIdxs (a ++ b) = argIdxs a ++ argIdxs b :=
  List.filterMap_append

theorem argIdxs_firsts (i : Nat) (ks : List String) : argIdxs (Signature.firsts i ks) = List.range' i ks.length := by
  induction ks generalizing i with
  | nil => rfl
  | cons k ks ih => rw [Signature.firsts, List.length_cons, List.range'_succ, ← ih]; rfl

theorem argIdxs_rest (pre : String) (s i n : Nat) : argIdxs (Signature.rest pre s i n) = List.range' i n := by
  induction n generalizing s i with
  | zero => rfl
  | succ n ih => rw [Signature.rest, List.range'_succ, ← ih (s + 1)]; rfl

theorem argIdxs_given (n i : Nat) (ks : List String) :
    (argIdxs (Signature.given n i ks)).Sublist (List.range' i ks.length) := by
  induction ks generalizing i with
  | nil => exact List.Sublist.refl _
  | cons k ks ih =>
    rw [Signature.given, List.length_cons, List.range'_succ]
    by_cases h : i < n
    · rw [if_pos h]; exact (ih (i + 1)).cons_cons i
    · rw [if_neg h]; exact (ih (i + 1)).cons i

/-- every argument is reported at most once -/
def ReportsOnce (f : List Val → Report) : Prop :=
  ∀ args ps, f args = .params ps → (argIdxs ps).Nodup

namespace Signature

theorem once_exactly {ks} : ReportsOnce (exactly ks) := by
  intro args ps h
  unfold exactly at h; split at h <;> cases h
  rw [argIdxs_firsts]; exact List.nodup_range'

theorem once_atLeast {ks} : ReportsOnce (atLeast ks) := by
  intro args ps h
  unfold atLeast at h; split at h <;> cases h
  rw [argIdxs_firsts]; exact List.nodup_range'

theorem once_someOf {r ks} : ReportsOnce (someOf r ks) := by
  intro args ps h
  unfold someOf at h; split at h <;> cases h
  exact (argIdxs_given _ _ _).nodup List.nodup_range'

theorem once_upToThree {ks} : ReportsOnce (upToThree ks) := by
  intro args ps h
  unfold upToThree at h; split at h <;> cases h
  exact (argIdxs_given _ _ _).nodup List.nodup_range'

theorem once_pickZones : ReportsOnce pickZones := by
  intro args ps h
  unfold pickZones at h; split at h <;> cases h
  exact (argIdxs_given _ _ _).nodup List.nodup_range'

theorem once_variadic {ks pre s} : ReportsOnce (variadic ks pre s) := by
  intro args ps h
  unfold variadic at h; split at h <;> cases h
  rw [argIdxs_append, argIdxs_firsts, argIdxs_rest]
  have := List.range'_append (s := 0) (m := ks.length) (n := args.length - ks.length) (step := 1)
  simp only [Nat.one_mul, Nat.zero_add] at this
  rw [this]; exact List.nodup_range'

theorem once_bare : ReportsOnce bare := by
  intro args ps h; cases h

theorem once_resourceId : ReportsOnce resourceId := by
  intro args ps h
  unfold resourceId at h
  split at h <;> cases h
  · decide
  · decide
  · decide
  · rename_i n _
    have h1 : ∀ b, argIdxs (("resource_type", .arg 2) :: b) = 2 :: argIdxs b := fun _ => rfl
    have h2 : argIdxs [("resource_group_name", .arg 1), ("subscription_id", .arg 0)] = [1, 0] := rfl
    rw [List.cons_append, h1, argIdxs_append, argIdxs_rest, h2]
    simp only [List.nodup_cons, List.nodup_append, List.mem_append, List.mem_range'_1]
    refine ⟨by simp, List.nodup_range', by decide, ?_⟩
    intro a ha b hb e
    simp only [List.mem_cons, List.not_mem_nil, or_false] at hb
    omega

theorem once_subscriptionResourceId : ReportsOnce subscriptionResourceId := by
  intro args ps h
  unfold subscriptionResourceId at h
  split at h <;> cases h <;> decide

theorem once_resourceGroup : ReportsOnce resourceGroup := by
  intro args ps h
  unfold resourceGroup at h
  split at h
  · cases h; decide
  · split at h <;> cases h <;> decide
  · cases h; decide

theorem once_listKeys : ReportsOnce listKeys := by
  intro args ps h
  unfold listKeys at h; split at h <;> cases h
  decide

end Signature

open Signature in
/-- no signature reports an argument twice -/
theorem report_once : ∀ s ∈ signatures, ReportsOnce s.report := by
  simp only [signatures, List.forall_mem_cons, List.not_mem_nil, false_implies, implies_true, and_true]
  repeat' apply And.intro
  all_goals first
    | exact once_atLeast | exact once_exactly | exact once_someOf | exact once_upToThree | exact once_variadic
    | exact once_bare | exact once_pickZones | exact once_resourceId | exact once_subscriptionResourceId
    | exact once_resourceGroup | exact once_listKeys

theorem once_key {ps : List (String × Src)} (h : (argIdxs ps).Nodup) {i : Nat} {k k' : String}
    (h1 : (k, Src.arg i) ∈ ps) (h2 : (k', Src.arg i) ∈ ps) : k = k' := by
  induction ps with
  | nil => simp at h1
  | cons p ps ih =>
    have hmem : ∀ {k}, (k, Src.arg i) ∈ ps → i ∈ argIdxs ps := fun hk =>
      List.mem_filterMap.mpr ⟨_, hk, rfl⟩
    obtain ⟨a, s⟩ := p
    have hcons : argIdxs ((a, s) :: ps) = (match s with | .arg i => [i] | _ => []) ++ argIdxs ps := by
      cases s <;> rfl
    rw [hcons] at h
    rcases List.mem_cons.mp h1 with e | h1'
    · cases e
      rcases List.mem_cons.mp h2 with e | h2'
      · cases e; rfl
      · exact absurd (hmem h2') (List.nodup_cons.mp h).1
    · rcases List.mem_cons.mp h2 with e | h2'
      · cases e
        exact absurd (hmem h1') (List.nodup_cons.mp h).1
      · exact ih (List.nodup_append.mp h).2.1 h1' h2'

theorem call_edit {f : String} {a b : List Val} {u u' data data' : Val} {k : String}
    (hd : Functions.getFunction f f (a ++ u :: b) = .ok data)
    (hd' : Functions.getFunction f f (a ++ u' :: b) = .ok data')
    (hk : ArgKey f (a ++ u :: b).length a.length k) :
    OnlyAt [.key "parameters", .key k] data data' u u' := by
  have hlen : (a ++ u' :: b).length = (a ++ u :: b).length := by simp
  cases hk with
  | @known s ps k hs hf hr hm =>
    have ha := getFunction_known hs hf f (a ++ u :: b)
    have ha' := getFunction_known hs hf f (a ++ u' :: b)
    have hn := report_distinct s hs _ ps (hr _ rfl)
    have ho := report_once s hs _ ps (hr _ rfl)
    unfold Agrees at ha ha'
    rw [hr _ rfl, hd] at ha
    rw [hr _ hlen, hd'] at ha'
    cases ha; cases ha'
    refine .key (a := [("type", _)]) (b := []) (by simp) (by simp) ?_
    have := onlyAt_map (L := ps) Prod.fst (f := fun q => q.2.val (a ++ u :: b))
      (f' := fun q => q.2.val (a ++ u' :: b)) hn hm (by
        rintro ⟨j, s⟩ hq hne
        cases s with
        | absent => rfl
        | text s => rfl
        | arg i =>
          by_cases hi : i = a.length
          · subst hi
            exact absurd (once_key ho hq hm) hne
          · simp only [Src.val]
            congr 1
            rcases Nat.lt_or_gt_of_ne hi with hl | hl
            · rw [List.getElem?_append_left hl, List.getElem?_append_left hl]
            · rw [List.getElem?_append_right (by omega), List.getElem?_append_right (by omega)]
              obtain ⟨n, hn⟩ : ∃ n, i - a.length = n + 1 := ⟨i - a.length - 1, by omega⟩
              rw [hn]; rfl)
    simpa [Src.val] using this
  | unknown hu =>
    rw [getFunction_unknown hu] at hd hd'
    cases hd; cases hd'
    refine .key (a := [("type", _)]) (b := []) (by simp) (by simp) ?_
    have := numbered_onlyAt "arg_" 1 a b u u'
    rwa [Nat.add_comm 1] at this

theorem edit1_val {ln : Bool} {n n' m m' : Node} {π : List PStep} {x x' : Val} (h : Edit1 n n' π m m')
    (hx : n.val ln = .ok x) (hx' : n'.val ln = .ok x') :
    ∃ y y', m.val ln = .ok y ∧ m'.val ln = .ok y' ∧ OnlyAt π x x' y y' := by
  cases h with
  | elem =>
    rw [Node.val, Expr.val] at hx hx'
    obtain ⟨vs, hvs, hx⟩ := bind_ok' hx; cases hx
    obtain ⟨vs', hvs', hx'⟩ := bind_ok' hx'; cases hx'
    obtain ⟨va, v, vb, h1, h2, h3, rfl, h5⟩ := vals_split hvs
    obtain ⟨va', v', vb', h1', h2', h3', rfl, h5'⟩ := vals_split hvs'
    rw [h1] at h1'; cases h1'
    rw [h3] at h3'; cases h3'
    exact ⟨v, v', h2, h2', h5 ▸ .idx .here⟩
  | member hb | memberLoop hb =>
    rw [Node.val, Expr.val] at hx hx'
    obtain ⟨vs, hvs, hx⟩ := bind_ok' hx; cases hx
    obtain ⟨vs', hvs', hx'⟩ := bind_ok' hx'; cases hx'
    exact items_edit (by rfl) hb hvs hvs'
  | configMember hb | configMemberLoop hb =>
    rw [Node.val, Config.val] at hx hx'
    obtain ⟨vs, hvs, hx⟩ := bind_ok' hx; cases hx
    obtain ⟨vs', hvs', hx'⟩ := bind_ok' hx'; cases hx'
    exact items_edit (by rfl) hb hvs hvs'
  | arg hk =>
    rw [Node.val, Expr.val] at hx hx'
    obtain ⟨vs, hvs, hx⟩ := bind_ok' hx; obtain ⟨data, hd, hx⟩ := bind_ok' hx; cases hx
    obtain ⟨vs', hvs', hx'⟩ := bind_ok' hx'; obtain ⟨data', hd', hx'⟩ := bind_ok' hx'; cases hx'
    have hl := (vals_getElem hvs).1
    obtain ⟨va, v, vb, h1, h2, h3, rfl, h5⟩ := vals_split hvs
    obtain ⟨va', v', vb', h1', h2', h3', rfl, h5'⟩ := vals_split hvs'
    rw [h1] at h1'; cases h1'
    rw [h3] at h3'; cases h3'
    rw [hl, ← h5] at hk
    exact ⟨v, v', h2, h2', .key (a := []) (b := []) (by simp) (by simp) (call_edit (inRule_ok hd) (inRule_ok hd') hk)⟩
  | @left op a a' b =>
    rw [Node.val, Expr.val] at hx hx'
    obtain ⟨v, hv, hx⟩ := bind_ok' hx; obtain ⟨w, hw, hx⟩ := bind_ok' hx; cases hx
    obtain ⟨v', hv', hx'⟩ := bind_ok' hx'; obtain ⟨w', hw', hx'⟩ := bind_ok' hx'; cases hx'
    rw [hw] at hw'; cases hw'
    exact ⟨v, v', hv, hv', opVal_onlyAt (a := []) (by simp) (by simp)⟩
  | right =>
    rw [Node.val, Expr.val] at hx hx'
    obtain ⟨v, hv, hx⟩ := bind_ok' hx; obtain ⟨w, hw, hx⟩ := bind_ok' hx; cases hx
    obtain ⟨v', hv', hx'⟩ := bind_ok' hx'; obtain ⟨w', hw', hx'⟩ := bind_ok' hx'; cases hx'
    rw [hv] at hv'; cases hv'
    exact ⟨w, w', hw, hw', opVal_onlyAt (a := [("operand_1", v)]) (b := []) (by simp) (by simp)⟩
  | not | minus =>
    rw [Node.val, Expr.val] at hx hx'
    obtain ⟨v, hv, hx⟩ := bind_ok' hx; cases hx
    obtain ⟨v', hv', hx'⟩ := bind_ok' hx'; cases hx'
    exact ⟨v, v', hv, hv', opVal_onlyAt (a := []) (by simp) (by simp)⟩
  | cond =>
    rw [Node.val, Expr.val] at hx hx'
    obtain ⟨v, hv, hx⟩ := bind_ok' hx; obtain ⟨w, hw, hx⟩ := bind_ok' hx; obtain ⟨u, hu, hx⟩ := bind_ok' hx; cases hx
    obtain ⟨v', hv', hx'⟩ := bind_ok' hx'; obtain ⟨w', hw', hx'⟩ := bind_ok' hx'
    obtain ⟨u', hu', hx'⟩ := bind_ok' hx'; cases hx'
    rw [hw] at hw'; cases hw'
    rw [hu] at hu'; cases hu'
    exact ⟨v, v', hv, hv', opVal_onlyAt (a := []) (by simp) (by simp)⟩
  | condT =>
    rw [Node.val, Expr.val] at hx hx'
    obtain ⟨v, hv, hx⟩ := bind_ok' hx; obtain ⟨w, hw, hx⟩ := bind_ok' hx; obtain ⟨u, hu, hx⟩ := bind_ok' hx; cases hx
    obtain ⟨v', hv', hx'⟩ := bind_ok' hx'; obtain ⟨w', hw', hx'⟩ := bind_ok' hx'
    obtain ⟨u', hu', hx'⟩ := bind_ok' hx'; cases hx'
    rw [hv] at hv'; cases hv'
    rw [hu] at hu'; cases hu'
    exact ⟨w, w', hw, hw', opVal_onlyAt (a := [("condition", v)]) (by simp) (by simp)⟩
  | condF =>
    rw [Node.val, Expr.val] at hx hx'
    obtain ⟨v, hv, hx⟩ := bind_ok' hx; obtain ⟨w, hw, hx⟩ := bind_ok' hx; obtain ⟨u, hu, hx⟩ := bind_ok' hx; cases hx
    obtain ⟨v', hv', hx'⟩ := bind_ok' hx'; obtain ⟨w', hw', hx'⟩ := bind_ok' hx'
    obtain ⟨u', hu', hx'⟩ := bind_ok' hx'; cases hx'
    rw [hv] at hv'; cases hv'
    rw [hw] at hw'; cases hw'
    exact ⟨u, u', hu, hu', opVal_onlyAt (a := [("condition", v), ("true_value", w)]) (b := []) (by simp) (by simp)⟩
  | method =>
    rw [Node.val, Expr.val] at hx hx'
    obtain ⟨v, hv, hx⟩ := bind_ok' hx; obtain ⟨w, hw, hx⟩ := bind_ok' hx; cases hx
    obtain ⟨v', hv', hx'⟩ := bind_ok' hx'; obtain ⟨w', hw', hx'⟩ := bind_ok' hx'; cases hx'
    rw [hw] at hw'; cases hw'
    refine ⟨v, v', hv, hv', opVal_onlyAt (a := []) (by simp) ?_⟩
    rw [List.map_cons, List.mem_cons, not_or]
    refine ⟨fun e => absurd e (by simp), fun hm => ?_⟩
    have h1 : "operand_1" ∈ (numbered "operand_" 2 w).map Prod.fst :=
      (List.filter_sublist.map Prod.fst).subset hm
    have h2 := numbered_nodup "operand_" 1 (.none :: w)
    rw [numbered, List.map_cons, List.nodup_cons] at h2
    exact h2.1 (by rw [show "operand_" ++ toString 1 = "operand_1" by decide]; exact h1)
  | lambda =>
    rw [Node.val, Expr.val] at hx hx'
    obtain ⟨v, hv, hx⟩ := bind_ok' hx; obtain ⟨w, hw, hx⟩ := bind_ok' hx; cases hx
    obtain ⟨v', hv', hx'⟩ := bind_ok' hx'; obtain ⟨w', hw', hx'⟩ := bind_ok' hx'; cases hx'
    rw [hv] at hv'; cases hv'
    exact ⟨w, w', hw, hw', .key (a := [("type", _)]) (b := []) (by simp) (by simp)
      (.key (a := [("var_1", _)]) (b := []) (by simp) (by simp) .here)⟩
  | lambdaN =>
    rw [Node.val, Expr.val] at hx hx'
    obtain ⟨x1, h1, hx⟩ := bind_ok' hx; obtain ⟨x2, h2, hx⟩ := bind_ok' hx
    obtain ⟨x3, h3, hx⟩ := bind_ok' hx; obtain ⟨xs, h4, hx⟩ := bind_ok' hx
    obtain ⟨w, hw, hx⟩ := bind_ok' hx; cases hx
    obtain ⟨x1', h1', hx'⟩ := bind_ok' hx'; obtain ⟨x2', h2', hx'⟩ := bind_ok' hx'
    obtain ⟨x3', h3', hx'⟩ := bind_ok' hx'; obtain ⟨xs', h4', hx'⟩ := bind_ok' hx'
    obtain ⟨w', hw', hx'⟩ := bind_ok' hx'; cases hx'
    rw [h1] at h1'; cases h1'
    rw [h2] at h2'; cases h2'
    rw [h3] at h3'; cases h3'
    rw [h4] at h4'; cases h4'
    refine ⟨w, w', hw, hw', .key (a := [("type", _)]) (b := []) (by simp) (by simp) (.key (b := []) ?_ (by simp) .here)⟩
    exact numbered_not_mem (by decide) _ _
  | loopHead =>
    rw [Node.val, Loop.val] at hx hx'
    obtain ⟨v, hv, hx⟩ := bind_ok' hx; obtain ⟨w, hw, hx⟩ := bind_ok' hx; obtain ⟨u, hu, hx⟩ := bind_ok' hx
    obtain ⟨c, hc, hx⟩ := bind_ok' hx; cases hx
    obtain ⟨v', hv', hx'⟩ := bind_ok' hx'; obtain ⟨w', hw', hx'⟩ := bind_ok' hx'
    obtain ⟨u', hu', hx'⟩ := bind_ok' hx'; obtain ⟨c', hc', hx'⟩ := bind_ok' hx'; cases hx'
    rw [hw] at hw'; cases hw'
    rw [hu] at hu'; cases hu'
    rw [hc] at hc'; cases hc'
    exact ⟨v, v', hv, hv', .key (a := []) (by simp) (by simp) .here⟩
  | loopFilter hf =>
    rw [Node.val, Loop.val] at hx hx'
    obtain ⟨v, hv, hx⟩ := bind_ok' hx; obtain ⟨w, hw, hx⟩ := bind_ok' hx; obtain ⟨u, hu, hx⟩ := bind_ok' hx
    obtain ⟨c, hc, hx⟩ := bind_ok' hx; cases hx
    obtain ⟨v', hv', hx'⟩ := bind_ok' hx'; obtain ⟨w', hw', hx'⟩ := bind_ok' hx'
    obtain ⟨u', hu', hx'⟩ := bind_ok' hx'; obtain ⟨c', hc', hx'⟩ := bind_ok' hx'; cases hx'
    rw [hv] at hv'; cases hv'
    rw [hu] at hu'; cases hu'
    rw [Expr.optVal, Expr.val, Expr.vals] at hw hw'
    obtain ⟨vs, hvs, hw⟩ := bind_ok' hw; obtain ⟨y, hy, hvs⟩ := bind_ok' hvs
    obtain ⟨ys, hys, hvs⟩ := bind_ok' hvs; cases hvs
    obtain ⟨data, hd, hw⟩ := bind_ok' hw; cases hw
    obtain ⟨vs', hvs', hw'⟩ := bind_ok' hw'; obtain ⟨y', hy', hvs'⟩ := bind_ok' hvs'
    obtain ⟨ys', hys', hvs'⟩ := bind_ok' hvs'; cases hvs'
    obtain ⟨data', hd', hw'⟩ := bind_ok' hw'; cases hw'
    rw [hf, getFunction_unknown (fun s hs => (signature_type_ne_if s hs).2)] at hd hd'
    cases hd; cases hd'
    rw [loopCondition_if] at hc hc'
    cases hc; cases hc'
    exact ⟨_, _, hy, hy', .key (a := [("loop_type", _)]) (by simp) (by simp) .here⟩
  | loopCond hi hi' =>
    rw [Node.val, Loop.val] at hx hx'
    obtain ⟨v, hv, hx⟩ := bind_ok' hx; obtain ⟨w, hw, hx⟩ := bind_ok' hx; obtain ⟨u, hu, hx⟩ := bind_ok' hx
    obtain ⟨c, hc, hx⟩ := bind_ok' hx; cases hx
    obtain ⟨v', hv', hx'⟩ := bind_ok' hx'; obtain ⟨w', hw', hx'⟩ := bind_ok' hx'
    obtain ⟨u', hu', hx'⟩ := bind_ok' hx'; obtain ⟨c', hc', hx'⟩ := bind_ok' hx'; cases hx'
    rw [hv] at hv'; cases hv'
    rw [hu] at hu'; cases hu'
    rw [Expr.optVal] at hw hw'
    rw [loopCondition_asItIs hi hw] at hc
    rw [loopCondition_asItIs hi' hw'] at hc'
    cases hc; cases hc'
    exact ⟨w, w', hw, hw', .key (a := [("loop_type", _)]) (by simp) (by simp) .here⟩
  | loopBody =>
    rw [Node.val, Loop.val] at hx hx'
    obtain ⟨v, hv, hx⟩ := bind_ok' hx; obtain ⟨w, hw, hx⟩ := bind_ok' hx; obtain ⟨u, hu, hx⟩ := bind_ok' hx
    obtain ⟨c, hc, hx⟩ := bind_ok' hx; cases hx
    obtain ⟨v', hv', hx'⟩ := bind_ok' hx'; obtain ⟨w', hw', hx'⟩ := bind_ok' hx'
    obtain ⟨u', hu', hx'⟩ := bind_ok' hx'; obtain ⟨c', hc', hx'⟩ := bind_ok' hx'; cases hx'
    rw [hv] at hv'; cases hv'
    rw [hw] at hw'; cases hw'
    rw [hc] at hc'; cases hc'
    exact ⟨u, u', hu, hu', .key (a := [("loop_type", _), ("condition", _)]) (b := []) (by simp) (by simp) .here⟩
  | headArr =>
    rw [Node.val, LoopHead.val] at hx hx'
    obtain ⟨v, hv, hx⟩ := bind_ok' hx; cases hx
    obtain ⟨v', hv', hx'⟩ := bind_ok' hx'; cases hx'
    exact ⟨v, v', hv, hv', .key (a := [("type", _)]) (b := []) (by simp) (by simp)
      (.key (a := [("item_name", _)]) (b := []) (by simp) (by simp) .here)⟩
  | headIdx =>
    rw [Node.val, LoopHead.val] at hx hx'
    obtain ⟨v, hv, hx⟩ := bind_ok' hx; cases hx
    obtain ⟨v', hv', hx'⟩ := bind_ok' hx'; cases hx'
    exact ⟨v, v', hv, hv', .key (a := [("type", _)]) (b := []) (by simp) (by simp)
      (.key (a := [("item_name", _), ("index_name", _)]) (b := []) (by simp) (by simp) .here)⟩
  | configLoop => rw [Node.val, Config.val] at hx hx'; exact ⟨x, x', hx, hx', .here⟩
  | configCond =>
    rw [Node.val, Config.val] at hx hx'
    obtain ⟨v, hv, hx⟩ := bind_ok' hx; obtain ⟨w, hw, hx⟩ := bind_ok' hx; cases hx
    obtain ⟨v', hv', hx'⟩ := bind_ok' hx'; obtain ⟨w', hw', hx'⟩ := bind_ok' hx'; cases hx'
    rw [hw] at hw'; cases hw'
    exact ⟨v, v', hv, hv', .key (a := []) (by simp) (by simp) .here⟩
  | configBody =>
    rw [Node.val, Config.val] at hx hx'
    obtain ⟨v, hv, hx⟩ := bind_ok' hx; obtain ⟨w, hw, hx⟩ := bind_ok' hx; cases hx
    obtain ⟨v', hv', hx'⟩ := bind_ok' hx'; obtain ⟨w', hw', hx'⟩ := bind_ok' hx'; cases hx'
    rw [hv] at hv'; cases hv'
    exact ⟨w, w', hw, hw', .key (a := [("condition", _)]) (b := []) (by simp) (by simp) .here⟩

/-- **Two pieces of syntax that differ in one piece have values that differ in one place.** -/
theorem edit_val {ln : Bool} {n n' m m' : Node} {π : List PStep} {x x' : Val} (h : Edit n n' π m m')
    (hx : n.val ln = .ok x) (hx' : n'.val ln = .ok x') :
    ∃ y y', m.val ln = .ok y ∧ m'.val ln = .ok y' ∧ OnlyAt π x x' y y' := by
  induction h generalizing x x' with
  | refl => exact ⟨x, x', hx, hx', .here⟩
  | step h1 _ ih =>
    obtain ⟨y, y', hy, hy', ho⟩ := edit1_val h1 hx hx'
    obtain ⟨z, z', hz, hz', ho'⟩ := ih hy hy'
    exact ⟨z, z', hz, hz', ho.trans ho'⟩

/-! ### Declarations -/

theorem decoVals_split {ln : Bool} {a b : List Deco} {d : Deco} {vs : List Val}
    (h : decoVals ln (a ++ d :: b) = .ok vs) : ∃ va v vb, decoVals ln a = .ok va ∧ d.val ln = .ok v ∧
      decoVals ln b = .ok vb ∧ vs = va ++ v :: vb ∧ va.length = a.length := by
  induction a generalizing vs with
  | nil =>
    rw [List.nil_append, decoVals] at h
    obtain ⟨v, hv, h⟩ := bind_ok' h; obtain ⟨vb, hb, h⟩ := bind_ok' h
    cases h
    exact ⟨[], v, vb, by rw [decoVals], hv, hb, rfl, rfl⟩
  | cons x a ih =>
    rw [List.cons_append, decoVals] at h
    obtain ⟨w, hw, h⟩ := bind_ok' h; obtain ⟨ws, hws, h⟩ := bind_ok' h
    cases h
    obtain ⟨va, v, vb, h1, h2, h3, rfl, h5⟩ := ih hws
    refine ⟨w :: va, v, vb, ?_, h2, h3, rfl, by simp [h5]⟩
    rw [decoVals, hw, h1]; rfl

/-- two lists of decorators that differ in one -/
theorem decos_edit {ln : Bool} {a b : List Deco} {d d' : Deco} {vs vs' : List Val}
    (h : decoVals ln (a ++ d :: b) = .ok vs) (h' : decoVals ln (a ++ d' :: b) = .ok vs') :
    ∃ v v', d.val ln = .ok v ∧ d'.val ln = .ok v' ∧ OnlyAt [.idx a.length] (.list vs) (.list vs') v v' := by
  obtain ⟨va, v, vb, h1, h2, h3, rfl, h5⟩ := decoVals_split h
  obtain ⟨va', v', vb', h1', h2', h3', rfl, h5'⟩ := decoVals_split h'
  rw [h1] at h1'; cases h1'
  rw [h3] at h3'; cases h3'
  exact ⟨v, v', h2, h2', h5 ▸ .idx .here⟩

theorem edit_lineItems_keys {ln : Bool} {l : Lines} {k : String} (h1 : k ≠ "__start_line__") (h2 : k ≠ "__end_line__") :
    k ∉ (lineItems ln l).map Prod.fst := by
  unfold lineItems
  split <;> simp [h1, h2]

theorem key_append {k : String} {a b : List (String × Val)} (h1 : k ∉ a.map Prod.fst) (h2 : k ∉ b.map Prod.fst) :
    k ∉ (a ++ b).map Prod.fst := by
  rw [List.map_append, List.mem_append, not_or]; exact ⟨h1, h2⟩

theorem decoHead {vs vs' : List Val} {π : List PStep} {y y' : Val} {b : List (String × Val)} {ln : Bool} {l : Lines}
    (hb : "decorators" ∉ b.map Prod.fst) (h : OnlyAt π (.list vs) (.list vs') y y') :
    OnlyAt (.key "decorators" :: π) (.dict (("decorators", .list vs) :: b ++ lineItems ln l))
      (.dict (("decorators", .list vs') :: b ++ lineItems ln l)) y y' :=
  .key (a := []) (by simp) (key_append hb (edit_lineItems_keys (by decide) (by decide))) h

theorem nestedOut_unique {ln api n t rs es es'} (h : NestedOut ln api n t rs es) (h' : NestedOut ln api n t rs es') :
    es = es' := by
  induction h generalizing es' with
  | nil => cases h'; rfl
  | @cons n t r rs es d deps hd hdep _ ih =>
    cases h' with
    | @cons _ _ _ _ es' d' deps' hd' hdep' hr =>
      rw [hd] at hd'
      cases hd'
      have : deps = deps' := by
        rcases hdep with h | ⟨h, rfl⟩ <;> rcases hdep' with h' | ⟨h', rfl⟩ <;> rw [h] at h' <;> cases h' <;> rfl
      subst this
      rw [ih hr]

/-- a chain is not changed by an edit of a member that is no nested resource -/
theorem chain_edit {a b : List Item} {i i' : Item} (h : i.key ≠ "__child_resource__") (h' : i'.key ≠ "__child_resource__")
    {rs : List Nested} (hc : Chain (.obj (a ++ i :: b)) rs) : Chain (.obj (a ++ i' :: b)) rs := by
  cases hc with
  | nil hn =>
    refine .nil (fun j hj => ?_)
    rcases List.mem_append.mp hj with hj | hj
    · exact hn j (by simp [hj])
    · rcases List.mem_cons.mp hj with rfl | hj
      · exact h'
      · exact hn j (by simp [hj])
  | @cons _ r rs hr hc =>
    obtain ⟨is, e, a', b', e2, hk, hb'⟩ := hr
    cases e
    refine .cons ⟨_, rfl, ?_⟩ hc
    rcases List.append_eq_append_iff.mp e2 with ⟨c, rfl, e3⟩ | ⟨c, rfl, e3⟩
    · cases c with
      | nil =>
        simp only [List.nil_append, List.cons.injEq] at e3
        exact absurd (e3.1 ▸ hk) h
      | cons x c =>
        simp only [List.cons_append, List.cons.injEq] at e3
        obtain ⟨rfl, rfl⟩ := e3
        exact ⟨a ++ i' :: c, b', by simp, hk, hb'⟩
    · cases c with
      | nil =>
        simp only [List.nil_append, List.cons.injEq] at e3
        exact absurd (e3.1 ▸ hk) h
      | cons x c =>
        simp only [List.cons_append, List.cons.injEq] at e3
        obtain ⟨rfl, rfl⟩ := e3
        refine ⟨a', c ++ i' :: b, by simp, hk, fun j hj => ?_⟩
        rcases List.mem_append.mp hj with hj | hj
        · exact hb' j (by simp [hj])
        · rcases List.mem_cons.mp hj with rfl | hj
          · exact h'
          · exact hb' j (by simp [hj])

theorem typeItem_keys {t : Option DataType} {k : String} (h : k ≠ "type") : k ∉ (typeItem t).map Prod.fst := by
  cases t <;> simp [typeItem, h]

theorem configItem_some {ln : Bool} {is : List Item} {c : List (String × Val)} (h : is ≠ [])
    (hc : configItem ln (some is) = .ok c) : ∃ u, (Config.obj is).val ln = .ok u ∧ c = [("config", u)] := by
  rw [configItem] at hc
  obtain ⟨ps, hps, hc⟩ := bind_ok' hc
  refine ⟨.dict (lastWins ps), by rw [Config.val, hps]; rfl, ?_⟩
  have : ps ≠ [] := by
    rintro rfl
    have := (items_mem hps).1
    simp at this
    exact h (by simpa using this)
  rw [if_neg (by simpa using this)] at hc
  cases hc; rfl

/-- what two outputs have in common that differ in one place of their own entry -/
def OutEdit (κ : List PStep) (o o' : Out) (y y' : Val) : Prop :=
  ∃ s n at1 at2, o.own = [⟨s, n, at1⟩] ∧ o'.own = [⟨s, n, at2⟩] ∧ o.imports = o'.imports ∧ o.children = o'.children ∧
    OnlyAt κ (.dict at1) (.dict at2) y y'

/-- two resources whose bodies differ in one place -/
theorem resource_edit {ln : Bool} {l : Lines} {ds x ta ex c c'} {o o' : Out}
    (ho : (Decl.resource ds x ta ex c).out ln l = .ok o) (ho' : (Decl.resource ds x ta ex c').out ln l = .ok o')
    {rs : List Nested} (hc : Chain c rs) (hc' : Chain c' rs) {k : String} {π : List PStep} {m m' : Node}
    (hk : k ≠ "__child_resource__")
    (h : ∀ u u', c.val ln = .ok u → c'.val ln = .ok u' → ∃ y y', m.val ln = .ok y ∧ m'.val ln = .ok y' ∧
      OnlyAt (.key k :: π) u u' y y') :
    ∃ y y', m.val ln = .ok y ∧ m'.val ln = .ok y' ∧ OutEdit (.key "config" :: .key k :: π) o o' y y' := by
  obtain ⟨vs, t, api, d, h1, h2, h3, h4, h5, h6⟩ := resource_out ho hc
  obtain ⟨vs', t', api', d', h1', h2', h3', h4', h5', h6'⟩ := resource_out ho' hc'
  rw [h1] at h1'; cases h1'
  rw [h2] at h2'; cases h2'
  obtain ⟨y, y', hy, hy', ho⟩ := h _ _ h3 h3'
  refine ⟨y, y', hy, hy', _, _, _, _, h4, h4', by rw [h5, h5'], nestedOut_unique h6 h6', ?_⟩
  exact .key (a := [("decorators", _), ("type", _), ("api_version", _), ("existing", _)]) (by simp)
    (key_append (by simp) (edit_lineItems_keys (by decide) (by decide))) (ho.erase hk)

theorem loop_chain {l : Loop} {rs : List Nested} (h : Chain (.loop l) rs) : rs = [] := by
  cases h with
  | nil => rfl
  | cons h _ => obtain ⟨_, e, _⟩ := h; cases e

theorem cond_chain {c e : Expr} {rs : List Nested} (h : Chain (.cond c e) rs) : rs = [] := by
  cases h with
  | nil => rfl
  | cons h _ => obtain ⟨_, e, _⟩ := h; cases e

theorem declEdit_val {ln : Bool} {l : Lines} {d d' : Decl} {κ : List PStep} {m m' : Node} {o o' : Out}
    (h : DeclEdit d d' κ m m') (hres : ∀ ds x b ex c, d = .resource ds x b ex c → ∃ rs, Chain c rs)
    (ho : d.out ln l = .ok o) (ho' : d'.out ln l = .ok o') :
    ∃ y y', m.val ln = .ok y ∧ m'.val ln = .ok y' ∧ OutEdit κ o o' y y' := by
  cases h with
  | paramDeco | outDeco | typDeco | funcDeco =>
    rw [Decl.out] at ho ho'
    obtain ⟨vs, hvs, ho⟩ := bind_ok' ho; obtain ⟨v, hv, ho⟩ := bind_ok' ho; cases ho
    obtain ⟨vs', hvs', ho'⟩ := bind_ok' ho'; obtain ⟨v', hv', ho'⟩ := bind_ok' ho'; cases ho'
    rw [hv] at hv'; cases hv'
    obtain ⟨y, y', hy, hy', hat⟩ := decos_edit hvs hvs'
    exact ⟨y, y', hy, hy', _, _, _, _, rfl, rfl, rfl, rfl, decoHead (by simp) hat⟩
  | varDeco =>
    rw [Decl.out] at ho ho'
    obtain ⟨vs, hvs, ho⟩ := bind_ok' ho; obtain ⟨v, hv, ho⟩ := bind_ok' ho; cases ho
    obtain ⟨vs', hvs', ho'⟩ := bind_ok' ho'; obtain ⟨v', hv', ho'⟩ := bind_ok' ho'; cases ho'
    rw [hv] at hv'; cases hv'
    obtain ⟨y, y', hy, hy', hat⟩ := decos_edit hvs hvs'
    refine ⟨y, y', hy, hy', _, _, _, _, rfl, rfl, rfl, rfl, ?_⟩
    simp only [← List.append_assoc]
    exact decoHead (b := [("value", v)] ++ typeItem _) (key_append (by simp) (typeItem_keys (by decide))) hat
  | modDeco =>
    rw [Decl.out] at ho ho'
    obtain ⟨vs, hvs, ho⟩ := bind_ok' ho; obtain ⟨p, hp, ho⟩ := bind_ok' ho; obtain ⟨v, hv, ho⟩ := bind_ok' ho
    obtain ⟨t, ht, ho⟩ := bind_ok' ho; obtain ⟨d, hd, ho⟩ := bind_ok' ho; cases ho
    obtain ⟨vs', hvs', ho'⟩ := bind_ok' ho'; obtain ⟨p', hp', ho'⟩ := bind_ok' ho'; obtain ⟨v', hv', ho'⟩ := bind_ok' ho'
    obtain ⟨t', ht', ho'⟩ := bind_ok' ho'; obtain ⟨d', hd', ho'⟩ := bind_ok' ho'; cases ho'
    rw [hv] at hv'; cases hv'
    rw [hp] at hp'; cases hp'
    rw [ht] at ht'; cases ht'
    rw [hd] at hd'; cases hd'
    obtain ⟨y, y', hy, hy', hat⟩ := decos_edit hvs hvs'
    exact ⟨y, y', hy, hy', _, _, _, _, rfl, rfl, rfl, rfl, decoHead (by simp) hat⟩
  | resDeco =>
    rw [Decl.out] at ho ho'
    obtain ⟨vs, hvs, ho⟩ := bind_ok' ho; obtain ⟨p, hp, ho⟩ := bind_ok' ho; obtain ⟨v, hv, ho⟩ := bind_ok' ho
    obtain ⟨t, ht, ho⟩ := bind_ok' ho; cases ho
    obtain ⟨vs', hvs', ho'⟩ := bind_ok' ho'; obtain ⟨p', hp', ho'⟩ := bind_ok' ho'; obtain ⟨v', hv', ho'⟩ := bind_ok' ho'
    obtain ⟨t', ht', ho'⟩ := bind_ok' ho'; cases ho'
    rw [hv] at hv'; cases hv'
    rw [hp] at hp'; cases hp'
    rw [ht] at ht'; cases ht'
    obtain ⟨y, y', hy, hy', hat⟩ := decos_edit hvs hvs'
    exact ⟨y, y', hy, hy', _, _, _, _, rfl, rfl, rfl, rfl, decoHead (by simp) hat⟩
  | paramType | outType =>
    rw [Decl.out] at ho ho'
    obtain ⟨vs, hvs, ho⟩ := bind_ok' ho; obtain ⟨v, hv, ho⟩ := bind_ok' ho; cases ho
    obtain ⟨vs', hvs', ho'⟩ := bind_ok' ho'; obtain ⟨v', hv', ho'⟩ := bind_ok' ho'; cases ho'
    rw [hv] at hv'; cases hv'
    rw [hvs] at hvs'; cases hvs'
    exact ⟨_, _, rfl, rfl, _, _, _, _, rfl, rfl, rfl, rfl, .key (a := [("decorators", _)]) (by simp)
      (key_append (by simp) (edit_lineItems_keys (by decide) (by decide))) .here⟩
  | varType =>
    rw [Decl.out] at ho ho'
    obtain ⟨vs, hvs, ho⟩ := bind_ok' ho; obtain ⟨v, hv, ho⟩ := bind_ok' ho; cases ho
    obtain ⟨vs', hvs', ho'⟩ := bind_ok' ho'; obtain ⟨v', hv', ho'⟩ := bind_ok' ho'; cases ho'
    rw [hv] at hv'; cases hv'
    rw [hvs] at hvs'; cases hvs'
    exact ⟨_, _, rfl, rfl, _, _, _, _, rfl, rfl, rfl, rfl, .key (a := [("decorators", _), ("value", _)]) (by simp)
      (edit_lineItems_keys (by decide) (by decide)) .here⟩
  | funcType =>
    rw [Decl.out] at ho ho'
    obtain ⟨vs, hvs, ho⟩ := bind_ok' ho; obtain ⟨v, hv, ho⟩ := bind_ok' ho; cases ho
    obtain ⟨vs', hvs', ho'⟩ := bind_ok' ho'; obtain ⟨v', hv', ho'⟩ := bind_ok' ho'; cases ho'
    rw [hv] at hv'; cases hv'
    rw [hvs] at hvs'; cases hvs'
    exact ⟨_, _, rfl, rfl, _, _, _, _, rfl, rfl, rfl, rfl, .key (a := [("decorators", _), ("args", _)]) (by simp)
      (key_append (by simp) (edit_lineItems_keys (by decide) (by decide))) .here⟩
  | paramDefault =>
    rw [Decl.out] at ho ho'
    obtain ⟨vs, hvs, ho⟩ := bind_ok' ho; obtain ⟨v, hv, ho⟩ := bind_ok' ho; cases ho
    obtain ⟨vs', hvs', ho'⟩ := bind_ok' ho'; obtain ⟨v', hv', ho'⟩ := bind_ok' ho'; cases ho'
    rw [hvs] at hvs'; cases hvs'
    rw [Expr.optVal] at hv hv'
    exact ⟨v, v', hv, hv', _, _, _, _, rfl, rfl, rfl, rfl, .key (a := [("decorators", _), ("type", _)]) (by simp)
      (edit_lineItems_keys (by decide) (by decide)) .here⟩
  | varExpr | varLoop =>
    rw [Decl.out] at ho ho'
    obtain ⟨vs, hvs, ho⟩ := bind_ok' ho; obtain ⟨v, hv, ho⟩ := bind_ok' ho; cases ho
    obtain ⟨vs', hvs', ho'⟩ := bind_ok' ho'; obtain ⟨v', hv', ho'⟩ := bind_ok' ho'; cases ho'
    rw [hvs] at hvs'; cases hvs'
    refine ⟨v, v', hv, hv', _, _, _, _, rfl, rfl, rfl, rfl, .key (a := [("decorators", _)]) (by simp) ?_ .here⟩
    show "value" ∉ (typeItem _ ++ lineItems ln l).map Prod.fst
    exact key_append (typeItem_keys (by decide)) (edit_lineItems_keys (by decide) (by decide))
  | outExpr | outLoop =>
    rw [Decl.out] at ho ho'
    obtain ⟨vs, hvs, ho⟩ := bind_ok' ho; obtain ⟨v, hv, ho⟩ := bind_ok' ho; cases ho
    obtain ⟨vs', hvs', ho'⟩ := bind_ok' ho'; obtain ⟨v', hv', ho'⟩ := bind_ok' ho'; cases ho'
    rw [hvs] at hvs'; cases hvs'
    exact ⟨v, v', hv, hv', _, _, _, _, rfl, rfl, rfl, rfl, .key (a := [("decorators", _), ("type", _)]) (by simp)
      (edit_lineItems_keys (by decide) (by decide)) .here⟩
  | typExpr =>
    rw [Decl.out] at ho ho'
    obtain ⟨vs, hvs, ho⟩ := bind_ok' ho; obtain ⟨v, hv, ho⟩ := bind_ok' ho; cases ho
    obtain ⟨vs', hvs', ho'⟩ := bind_ok' ho'; obtain ⟨v', hv', ho'⟩ := bind_ok' ho'; cases ho'
    rw [hvs] at hvs'; cases hvs'
    rw [typeVal] at hv hv'
    exact ⟨v, v', hv, hv', _, _, _, _, rfl, rfl, rfl, rfl, .key (a := [("decorators", _)]) (by simp)
      (edit_lineItems_keys (by decide) (by decide)) .here⟩
  | funcBody =>
    rw [Decl.out] at ho ho'
    obtain ⟨vs, hvs, ho⟩ := bind_ok' ho; obtain ⟨v, hv, ho⟩ := bind_ok' ho; cases ho
    obtain ⟨vs', hvs', ho'⟩ := bind_ok' ho'; obtain ⟨v', hv', ho'⟩ := bind_ok' ho'; cases ho'
    rw [hvs] at hvs'; cases hvs'
    exact ⟨v, v', hv, hv', _, _, _, _, rfl, rfl, rfl, rfl,
      .key (a := [("decorators", _), ("args", _), ("type", _)]) (by simp)
      (edit_lineItems_keys (by decide) (by decide)) .here⟩
  | modConfig =>
    rw [Decl.out] at ho ho'
    obtain ⟨vs, hvs, ho⟩ := bind_ok' ho; obtain ⟨p, hp, ho⟩ := bind_ok' ho; obtain ⟨v, hv, ho⟩ := bind_ok' ho
    obtain ⟨t, ht, ho⟩ := bind_ok' ho; obtain ⟨d, hd, ho⟩ := bind_ok' ho; cases ho
    obtain ⟨vs', hvs', ho'⟩ := bind_ok' ho'; obtain ⟨p', hp', ho'⟩ := bind_ok' ho'; obtain ⟨v', hv', ho'⟩ := bind_ok' ho'
    obtain ⟨t', ht', ho'⟩ := bind_ok' ho'; obtain ⟨d', hd', ho'⟩ := bind_ok' ho'; cases ho'
    rw [hvs] at hvs'; cases hvs'
    rw [hp] at hp'; cases hp'
    rw [ht] at ht'; cases ht'
    rw [hd] at hd'; cases hd'
    exact ⟨v, v', hv, hv', _, _, _, _, rfl, rfl, rfl, rfl,
      .key (a := [("decorators", _), ("type", _), ("detail", _)]) (by simp)
      (edit_lineItems_keys (by decide) (by decide)) .here⟩
  | @extConfig x is is' al h1 h2 =>
    rw [Decl.out] at ho ho'
    obtain ⟨c, hc, ho⟩ := bind_ok' ho; cases ho
    obtain ⟨c', hc', ho'⟩ := bind_ok' ho'; cases ho'
    obtain ⟨u, hu, rfl⟩ := configItem_some h1 hc
    obtain ⟨u', hu', rfl⟩ := configItem_some h2 hc'
    refine ⟨u, u', hu, hu', _, _, _, _, rfl, rfl, rfl, rfl, .key (a := []) (by simp) ?_ .here⟩
    show "config" ∉ (aliasItem al ++ lineItems ln l).map Prod.fst
    exact key_append (by cases al <;> simp [aliasItem]) (edit_lineItems_keys (by decide) (by decide))
  | resMember hb hk | resMemberLoop hb hk =>
    obtain ⟨rs, hc⟩ := hres _ _ _ _ _ rfl
    refine resource_edit ho ho' hc (chain_edit (by exact hk) (by exact hk) hc) hk (fun u u' hu hu' => ?_)
    rw [Config.val] at hu hu'
    obtain ⟨vs, hvs, hu⟩ := bind_ok' hu; cases hu
    obtain ⟨vs', hvs', hu'⟩ := bind_ok' hu'; cases hu'
    exact items_edit (by rfl) hb hvs hvs'
  | resLoop =>
    obtain ⟨rs, hc⟩ := hres _ _ _ _ _ rfl
    obtain ⟨vs, t, api, d, h1, h2, h3, h4, h5, h6⟩ := resource_out ho (.nil trivial)
    obtain ⟨vs', t', api', d', h1', h2', h3', h4', h5', h6'⟩ := resource_out ho' (.nil trivial)
    rw [h1] at h1'; cases h1'
    rw [h2] at h2'; cases h2'
    rw [Config.val] at h3 h3'
    refine ⟨_, _, h3, h3', _, _, _, _, h4, h4', by rw [h5, h5'], nestedOut_unique h6 h6', ?_⟩
    obtain ⟨_, e, hn, _⟩ := loop_keys h3
    cases e
    obtain ⟨_, e, hn', _⟩ := loop_keys h3'
    cases e
    rw [dErase_absent hn, dErase_absent hn']
    exact .key (a := [("decorators", _), ("type", _), ("api_version", _), ("existing", _)]) (by simp)
      (key_append (by simp) (edit_lineItems_keys (by decide) (by decide))) .here
  | resCond =>
    refine resource_edit ho ho' (.nil trivial) (.nil trivial) (by decide) (fun u u' hu hu' => ?_)
    exact edit1_val .configCond (n := .config _) (n' := .config _) hu hu'
  | resBody =>
    refine resource_edit ho ho' (.nil trivial) (.nil trivial) (by decide) (fun u u' hu hu' => ?_)
    exact edit1_val .configBody (n := .config _) (n' := .config _) hu hu'

/-! ### The result -/

/-- exchanging the attributes of the last entry of a place -/
theorem collect_onlyAt {a b : List Entry} {s n : String} (at1 at2 : List (String × Val))
    (hb : ∀ e ∈ b, ¬ (e.sec = s ∧ e.name = n)) :
    OnlyAt [.key s, .key n] (.dict (collect (a ++ ⟨s, n, at1⟩ :: b))) (.dict (collect (a ++ ⟨s, n, at2⟩ :: b)))
      (.dict at1) (.dict at2) := by
  unfold collect
  have hk : (a ++ ⟨s, n, at1⟩ :: b).map Entry.sec = (a ++ ⟨s, n, at2⟩ :: b).map Entry.sec := by simp
  rw [← hk]
  have hf : ∀ at', ((a ++ ⟨s, n, at'⟩ :: b).filter (·.sec = s)).map (fun e => (e.name, Val.dict e.attrs)) =
      (a.filter (·.sec = s)).map (fun e => (e.name, Val.dict e.attrs)) ++ (n, .dict at') ::
        (b.filter (·.sec = s)).map (fun e => (e.name, Val.dict e.attrs)) := by
    intro at'; simp [List.filter_append]
  have h := onlyAt_map (L := ((a ++ ⟨s, n, at1⟩ :: b).map Entry.sec).eraseDups) id
    (f := fun s' => .dict (lastWins (((a ++ ⟨s, n, at1⟩ :: b).filter (·.sec = s')).map (fun e => (e.name, .dict e.attrs)))))
    (f' := fun s' => .dict (lastWins (((a ++ ⟨s, n, at2⟩ :: b).filter (·.sec = s')).map (fun e => (e.name, .dict e.attrs)))))
    (p := s) (by rw [List.map_id]; exact nodup_eraseDups _) (by simp) (by
      intro q _ hq
      simp only [id] at hq
      simp [List.filter_append, Ne.symm hq])
  simp only [id, hf] at h
  refine h.trans (lastWins_onlyAt _ _ ?_)
  intro hm
  rw [List.map_map, List.mem_map] at hm
  obtain ⟨e, he, e1⟩ := hm
  have := List.mem_filter.mp he
  exact hb e this.1 ⟨by simpa using this.2, e1⟩

theorem outs_split {ln : Bool} {a b : Program} {l : Lines} {d : Decl} {os : List Out}
    (h : Program.outs ln (a ++ (l, d) :: b) = .ok os) : ∃ os1 o os2, Program.outs ln a = .ok os1 ∧ d.out ln l = .ok o ∧
      Program.outs ln b = .ok os2 ∧ os = os1 ++ o :: os2 := by
  induction a generalizing os with
  | nil =>
    rw [List.nil_append, Program.outs] at h
    obtain ⟨v, hv, h⟩ := bind_ok' h; obtain ⟨vb, hb, h⟩ := bind_ok' h
    cases h
    exact ⟨[], v, vb, by rw [Program.outs], hv, hb, rfl⟩
  | cons x a ih =>
    obtain ⟨l', d'⟩ := x
    rw [List.cons_append, Program.outs] at h
    obtain ⟨w, hw, h⟩ := bind_ok' h; obtain ⟨ws, hws, h⟩ := bind_ok' h
    cases h
    obtain ⟨va, v, vb, h1, h2, h3, rfl⟩ := ih hws
    refine ⟨w :: va, v, vb, ?_, h2, h3, rfl⟩
    rw [Program.outs, hw, h1]; rfl

/-- no later entry takes the place of a reported declaration -/
theorem later_free {ln : Bool} {a b : Program} {l : Lines} {d : Decl} {os os2 : List Out} {s n : String}
    (h : Program.outs ln (a ++ (l, d) :: b) = .ok os) (h2 : Program.outs ln b = .ok os2) (hn : (s, n) ∈ d.ownName)
    (hlater : ∀ q ∈ b, (s, n) ∉ q.2.ownName) (hnest : s = "resources" → NotNested (a ++ (l, d) :: b) n) :
    ∀ e ∈ os2.flatMap Out.own ++ os.flatMap Out.imports ++ os.flatMap Out.children, ¬ (e.sec = s ∧ e.name = n) := by
  have hc := contribs_of h
  have h2 := contribs_of h2
  intro e' he' hse
  rcases List.mem_append.mp he' with he' | he'
  · rcases List.mem_append.mp he' with he' | he'
    · have : e'.place ∈ b.flatMap (fun d => d.2.ownName) := by
        rw [← contribs_own h2]; exact List.mem_map_of_mem he'
      obtain ⟨q, hq, hq'⟩ := List.mem_flatMap.mp this
      apply hlater q hq
      rw [← hse.1, ← hse.2]; exact hq'
    · have : e'.place ∈ ((a ++ (l, d) :: b).flatMap (fun d => d.2.importNames)).map (fun n => ("imports", n)) := by
        rw [← contribs_imports hc]; exact List.mem_map_of_mem he'
      obtain ⟨m, _, hm⟩ := List.mem_map.mp this
      have := congrArg Prod.fst hm
      simp only [Entry.place] at this
      exact ownName_ne_imports hn (by rw [← hse.1, ← this])
  · have hsec := contribs_children hc e' he'
    rw [hse.1] at hsec
    exact notNested_children hc (hnest hsec) e' he' hse.2

/-! ### Nested resources -/

theorem lastItem_unique {a b : List Item} {i j : Item} {k : String} (hk : i.key = k) (hb : ∀ x ∈ b, x.key ≠ k)
    (h : LastItem (a ++ i :: b) k j) : j = i := by
  obtain ⟨a', b', e, hk', hb'⟩ := h
  rcases List.append_eq_append_iff.mp e with ⟨c, rfl, e3⟩ | ⟨c, rfl, e3⟩
  · cases c with
    | nil => simp only [List.nil_append, List.cons.injEq] at e3; exact e3.1.symm
    | cons x c =>
      simp only [List.cons_append, List.cons.injEq] at e3
      exact absurd hk' (hb j (by rw [e3.2]; simp))
  · cases c with
    | nil => simp only [List.nil_append, List.cons.injEq] at e3; exact e3.1
    | cons x c =>
      simp only [List.cons_append, List.cons.injEq] at e3
      exact absurd hk (hb' i (by rw [e3.2]; simp))

theorem nested_item_inj {r r' : Nested} (h : r.item = r'.item) : r = r' := by
  cases r; cases r'
  simp only [Nested.item, Item.child.injEq] at h
  simp [h]

theorem chain_child {a b : List Item} {r : Nested} {rs : List Nested} (hb : ∀ x ∈ b, x.key ≠ "__child_resource__")
    (h : Chain (.obj (a ++ r.item :: b)) rs) : ∃ rs', rs = r :: rs' ∧ Chain r.config rs' := by
  cases h with
  | nil hn => exact absurd rfl (hn r.item (by simp))
  | @cons _ r' rs' hr hc =>
    obtain ⟨is, e, hl⟩ := hr
    cases e
    have := nested_item_inj (lastItem_unique (i := r.item) rfl hb hl)
    subst this
    exact ⟨rs', rfl, hc⟩

theorem Val.OnlyAt.erased {k : String} {π : List PStep} {d d' : List (String × Val)} {y y' : Val}
    (h : OnlyAt (.key k :: π) (.dict d) (.dict d') y y') : dErase k d = dErase k d' := by
  cases h with
  | key h1 h2 h3 => rw [dErase_append h1, dErase_append h1]; simp [dErase]

theorem Val.OnlyAt.get {k c : String} {π : List PStep} {d d' : List (String × Val)} {y y' : Val}
    (h : OnlyAt (.key k :: π) (.dict d) (.dict d') y y') (hc : c ≠ k) : dGet c d = dGet c d' := by
  have := h.off (σ := [.key c]) (by simp [hc]) (by simp [Ne.symm hc])
  simpa [Val.at?, Val.step?] using this

theorem depsOf_unique {d d' : List (String × Val)} {deps deps' : List Val} (h : DepsOf d deps) (h' : DepsOf d' deps')
    (e : dGet "depends_on" d = dGet "depends_on" d') : deps = deps' := by
  unfold DepsOf at h h'
  rw [← e] at h'
  rcases h with h | ⟨h, rfl⟩ <;> rcases h' with h' | ⟨h', rfl⟩ <;> rw [h] at h' <;> cases h' <;> rfl

/-- the bodies differ only in the nested resource -/
theorem nestedEdit_val {ln : Bool} {c c' : Config} {i : Nat} {r r' : Nested} (h : NestedEdit c c' i r r') {u u' : Val}
    (hu : c.val ln = .ok u) (hu' : c'.val ln = .ok u') :
    ∃ d d' w w', u = .dict d ∧ u' = .dict d' ∧ OnlyAt [.key "__child_resource__"] u u' w w' := by
  cases h with
  | here hb | deeper hb _ =>
    rw [Config.val] at hu hu'
    obtain ⟨vs, hvs, hu⟩ := bind_ok' hu; cases hu
    obtain ⟨vs', hvs', hu'⟩ := bind_ok' hu'; cases hu'
    obtain ⟨w, w', _, _, ho⟩ := items_edit (by rfl) hb hvs hvs'
    exact ⟨_, _, w, w', rfl, rfl, ho⟩

theorem nestedBody_chain {c c' : Config} {κ : List PStep} {m m' : Node} (h : NestedBody c c' κ m m')
    {rs : List Nested} (hc : Chain c rs) : Chain c' rs := by
  cases h with
  | member _ hk _ | memberLoop _ hk _ => exact chain_edit (by exact hk) (by exact hk) hc
  | loop => cases loop_chain hc; exact .nil trivial
  | cond => cases cond_chain hc; exact .nil trivial

theorem nestedBody_val {ln : Bool} {c c' : Config} {κ : List PStep} {m m' : Node} (h : NestedBody c c' κ m m')
    {u u' : Val} (hu : c.val ln = .ok u) (hu' : c'.val ln = .ok u') :
    ∃ y y' k κ', m.val ln = .ok y ∧ m'.val ln = .ok y' ∧ κ = .key k :: κ' ∧ k ≠ "__child_resource__" ∧
      k ≠ "depends_on" ∧ OnlyAt κ u u' y y' := by
  cases h with
  | member hb h1 h2 | memberLoop hb h1 h2 =>
    rw [Config.val] at hu hu'
    obtain ⟨vs, hvs, hu⟩ := bind_ok' hu; cases hu
    obtain ⟨vs', hvs', hu'⟩ := bind_ok' hu'; cases hu'
    obtain ⟨y, y', hy, hy', ho⟩ := items_edit (by rfl) hb hvs hvs'
    exact ⟨y, y', _, _, hy, hy', rfl, h1, h2, ho⟩
  | loop he =>
    rw [Config.val] at hu hu'
    obtain ⟨y, y', hy, hy', ho⟩ := edit1_val he (ln := ln) hu hu'
    cases he <;> exact ⟨y, y', _, _, hy, hy', rfl, by decide, by decide, ho⟩
  | cond he =>
    obtain ⟨y, y', hy, hy', ho⟩ := edit1_val he (ln := ln) hu hu'
    cases he <;> exact ⟨y, y', _, _, hy, hy', rfl, by decide, by decide, ho⟩

/-- the entries of nested resources, one of which is edited -/
theorem nested_edit {ln : Bool} {api : String} {c c' : Config} {i : Nat} {r r' : Nested} (h : NestedEdit c c' i r r')
    (hr : r' = { r with config := r'.config }) {κ : List PStep} {m m' : Node} (hb : NestedBody r.config r'.config κ m m')
    {rs : List Nested} (hc : Chain c rs) : ∃ rs', Chain c' rs' ∧ (∀ n, chainNames n rs' = chainNames n rs) ∧
      ∀ n t es es', NestedOut ln api n t rs es → NestedOut ln api n t rs' es' →
        ∃ A B nm at1 at2 y y', es = A ++ ⟨"resources", nm, at1⟩ :: B ∧ es' = A ++ ⟨"resources", nm, at2⟩ :: B ∧
          A.length = i ∧ m.val ln = .ok y ∧ m'.val ln = .ok y' ∧
          OnlyAt (.key "config" :: κ) (.dict at1) (.dict at2) y y' := by
  induction h generalizing rs with
  | @here a b r r' hlast =>
    obtain ⟨rs1, rfl, hc1⟩ := chain_child hlast hc
    refine ⟨r' :: rs1, .cons ⟨_, rfl, a, b, rfl, rfl, hlast⟩ (nestedBody_chain hb hc1), ?_, ?_⟩
    · intro n; rw [chainNames, chainNames, hr]
    · intro n t es es' h1 h2
      cases h1 with
      | @cons _ _ _ _ es1 d deps hd hdep hes =>
        cases h2 with
        | @cons _ _ _ _ es2 d' deps' hd' hdep' hes' =>
          obtain ⟨y, y', k, κ', hy, hy', rfl, hk1, hk2, ho⟩ := nestedBody_val hb hd hd'
          have e := depsOf_unique hdep hdep' (ho.get (Ne.symm hk2))
          subst e
          rw [hr] at hes' ⊢
          have := nestedOut_unique hes hes'
          subst this
          refine ⟨[], es1, _, _, _, y, y', rfl, rfl, rfl, hy, hy', ?_⟩
          exact .key (a := [("decorators", _), ("type", _), ("api_version", _), ("existing", _)]) (by simp)
            (key_append (by simp) (edit_lineItems_keys (by decide) (by decide))) ((ho.set hk2).erase hk1)
  | @deeper a b l x t0 ex c1 c1' i r r' hlast he ih =>
    obtain ⟨rs1, rfl, hc1⟩ := chain_child (r := ⟨l, x, t0, ex, c1⟩) hlast hc
    obtain ⟨rs1', hc1', hnames, hout⟩ := ih hr hb hc1
    refine ⟨⟨l, x, t0, ex, c1'⟩ :: rs1', .cons ⟨_, rfl, a, b, rfl, rfl, hlast⟩ hc1', ?_, ?_⟩
    · intro n; rw [chainNames, chainNames, hnames]
    · intro n t es es' h1 h2
      cases h1 with
      | @cons _ _ _ _ es1 d deps hd hdep hes =>
        cases h2 with
        | @cons _ _ _ _ es2 d' deps' hd' hdep' hes' =>
          obtain ⟨A, B, nm, at1, at2, y, y', rfl, rfl, rfl, hy, hy', ho⟩ := hout _ _ _ _ hes hes'
          obtain ⟨_, _, w, w', e1, e2, ho1⟩ := nestedEdit_val he hd hd'
          cases e1; cases e2
          have e := depsOf_unique hdep hdep' (ho1.get (by decide))
          subst e
          have e : nestedConfig n deps d = nestedConfig n deps d' := (ho1.set (by decide)).erased
          exact ⟨_ :: A, B, nm, at1, at2, y, y', rfl, by simp [e], rfl, hy, hy', ho⟩

/-- **Two programs that differ in one piece have results that differ in one place.** -/
theorem edited_val {ln : Bool} {p p' : Program} {π : List PStep} {m m' : Node} {v v' : Val} (h : p.Edited p' π m m')
    (hv : p.val ln = .ok v) (hv' : p'.val ln = .ok v') :
    ∃ y y', m.val ln = .ok y ∧ m'.val ln = .ok y' ∧ OnlyAt π v v' y y' := by
  rw [Program.val] at hv hv'
  obtain ⟨os, hos, hv⟩ := bind_ok' hv; cases hv
  obtain ⟨os', hos', hv'⟩ := bind_ok' hv'; cases hv'
  cases h with
  | @own a b l d d' s n κ m1 m1' π _ _ hd he hn hlater hnest =>
    obtain ⟨os1, o, os2, h1, h2, h3, rfl⟩ := outs_split hos
    obtain ⟨os1', o', os2', h1', h2', h3', rfl⟩ := outs_split hos'
    rw [h1] at h1'; cases h1'
    rw [h3] at h3'; cases h3'
    obtain ⟨y, y', hy, hy', s', n', at1, at2, e1, e2, e3, e4, ho⟩ := declEdit_val hd (by
      rintro ds x ta ex c rfl
      have hs : s = "resources" := by simp [Decl.ownName] at hn; exact hn.1
      obtain ⟨rs, hc, _⟩ := hnest hs l ds x ta ex c (by simp)
      exact ⟨rs, hc⟩) h2 h2'
    obtain ⟨z, z', hz, hz', ho'⟩ := edit_val he hy hy'
    refine ⟨z, z', hz, hz', ?_⟩
    have hp := (out_places h2).1
    rw [e1, mem_ownName hn] at hp
    simp only [List.map_cons, List.map_nil, Entry.place, List.cons.injEq, Prod.mk.injEq, and_true] at hp
    obtain ⟨rfl, rfl⟩ := hp
    have hfree := later_free hos h3 hn hlater hnest
    have key : ∀ (q : Out) (at' : List (String × Val)), q.own = [⟨s', n', at'⟩] → q.imports = o.imports →
        q.children = o.children → entries ln (os1 ++ q :: os2) = (defaultScope ln :: os1.flatMap Out.own) ++
        ⟨s', n', at'⟩ :: (os2.flatMap Out.own ++ (os1 ++ o :: os2).flatMap Out.imports ++
          (os1 ++ o :: os2).flatMap Out.children) := by
      intro q at' hq1 hq2 hq3
      simp [entries, hq1, hq2, hq3]
    rw [key o at1 e1 rfl rfl, key o' at2 e2 e3.symm e4.symm]
    exact (collect_onlyAt at1 at2 hfree).trans (ho.trans ho')
  | @nested a b l ds x ta ex c c' rs i n r r' κ m1 m1' π _ _ hne hr hbody he hc hn hnot =>
    obtain ⟨os1, o, os2, h1, h2, h3, rfl⟩ := outs_split hos
    obtain ⟨os1', o', os2', h1', h2', h3', rfl⟩ := outs_split hos'
    rw [h1] at h1'; cases h1'
    rw [h3] at h3'; cases h3'
    obtain ⟨vs, t, api, d, g1, g2, g3, g4, g5, g6⟩ := resource_out h2 hc
    obtain ⟨rs', hc', hnames, hout⟩ := nested_edit (ln := ln) (api := api) hne hr hbody hc
    obtain ⟨vs', t', api', d', g1', g2', g3', g4', g5', g6'⟩ := resource_out h2' hc'
    rw [g1] at g1'; cases g1'
    rw [g2] at g2'; cases g2'
    obtain ⟨A, B, nm, at1, at2, y, y', e1, e2, hA, hy, hy', ho⟩ := hout _ _ _ _ g6 g6'
    obtain ⟨_, _, w, w', q1, q2, hob⟩ := nestedEdit_val hne g3 g3'
    cases q1; cases q2
    obtain ⟨z, z', hz, hz', ho'⟩ := edit_val he hy hy'
    refine ⟨z, z', hz, hz', ?_⟩
    have hpl := nestedOut_names g6
    have hnm : nm = n := by
      have h9 := congrArg (fun l => l[i]?) hpl
      rw [e1] at h9
      simp only [List.map_append, List.map_cons, List.getElem?_map, hn, Option.map_some] at h9
      rw [List.getElem?_append_right (by simp [hA])] at h9
      simpa [hA, Entry.place] using h9
    subst hnm
    have hfree : ∀ e ∈ B ++ os2.flatMap Out.children, ¬ (e.sec = "resources" ∧ e.name = nm) := by
      intro e he' hse
      rcases List.mem_append.mp he' with he' | he'
      · have hnd := chainNames_nodup (txt x.1) rs
        have : (o.children.map Entry.name) = chainNames (txt x.1) rs := by
          have := congrArg (List.map Prod.snd) hpl
          simpa [Function.comp_def, Entry.place] using this
        rw [← this, e1, List.map_append, List.map_cons, List.nodup_append, List.nodup_cons] at hnd
        exact hnd.2.1.1 (List.mem_map.mpr ⟨e, he', hse.2⟩)
      · exact notNested_children (contribs_of h3) hnot e he' hse.2
    have key : ∀ (q : Out) (at' : List (String × Val)), q.own = o.own → q.imports = o.imports →
        q.children = A ++ ⟨"resources", nm, at'⟩ :: B → entries ln (os1 ++ q :: os2) =
        (defaultScope ln :: ((os1 ++ o :: os2).flatMap Out.own ++ (os1 ++ o :: os2).flatMap Out.imports ++
          os1.flatMap Out.children ++ A)) ++ ⟨"resources", nm, at'⟩ :: (B ++ os2.flatMap Out.children) := by
      intro q at' hq1 hq2 hq3
      simp [entries, hq1, hq2, hq3]
    rw [key o at1 rfl rfl e1, key o' at2 (by rw [g4, g4', hob.erased]) (by rw [g5, g5']) e2]
    exact (collect_onlyAt at1 at2 hfree).trans (ho.trans ho')

end Pycep
