import Verif.Spec.Faithful
import Verif.Proofs.FunSpec
/-
What is reported about a call determines the function and its arguments, if all arguments are
reported and none of them is `null`.
-/
namespace Pycep

/-- all of these arguments are among the parameters -/
def Shown (args : List Val) (ps : List (String × Src)) : Prop :=
  ∀ i < args.length, ∃ k, (k, Src.arg i) ∈ ps

/-- parameters with their values -/
def filled (ps : List (String × Src)) (args : List Val) : List (String × Val) :=
  ps.map (fun p => (p.1, p.2.val args))

theorem filled_append (ps qs : List (String × Src)) (args : List Val) :
    filled (ps ++ qs) args = filled ps args ++ filled qs args := by simp [filled]

theorem filled_length (ps : List (String × Src)) (args : List Val) : (filled ps args).length = ps.length := by
  simp [filled]

/-- everything but `null` -/
def isSome' : Val → Bool
  | .none => false
  | _ => true

theorem isSome'_of_ne {v : Val} (h : v ≠ .none) : isSome' v = true := by
  cases v <;> first | rfl | exact absurd rfl h

theorem filter_isSome' {vs : List Val} (h : Val.none ∉ vs) : vs.filter isSome' = vs :=
  List.filter_eq_self.mpr fun _ hv => isSome'_of_ne (fun e => h (e ▸ hv))

namespace Signature

/-- the arguments can be read off the parameters, from left to right -/
def Linear (r : List Val → Report) : Prop :=
  ∀ args ps, r args = .params ps → Shown args ps → Val.none ∉ args →
    ((filled ps args).map Prod.snd).filter isSome' = args

/-- the arguments can be read off the parameters -/
def Inj (r : List Val → Report) : Prop :=
  ∀ args args' ps ps', r args = .params ps → r args' = .params ps' → Shown args ps → Shown args' ps' →
    Val.none ∉ args → Val.none ∉ args' → filled ps args = filled ps' args' → args = args'

theorem Linear.inj {r : List Val → Report} (h : Linear r) : Inj r := by
  intro args args' ps ps' h1 h2 s1 s2 n1 n2 e
  rw [← h args ps h1 s1 n1, ← h args' ps' h2 s2 n2, e]

theorem firsts_vals (ks : List String) (args : List Val) (i : Nat) (h : i + ks.length ≤ args.length) :
    (filled (firsts i ks) args).map Prod.snd = (args.drop i).take ks.length := by
  induction ks generalizing i with
  | nil => simp [firsts, filled]
  | cons k ks ih =>
    simp only [List.length_cons] at h
    have hi : i < args.length := by omega
    have := ih (i + 1) (by omega)
    rw [List.drop_eq_getElem_cons hi, List.length_cons, List.take_succ_cons, ← this]
    simp [firsts, filled, Src.val, List.getElem?_eq_getElem hi]

theorem rest_vals (pre : String) (args : List Val) (s i m : Nat) (h : i + m ≤ args.length) :
    (filled (rest pre s i m) args).map Prod.snd = (args.drop i).take m := by
  induction m generalizing s i with
  | zero => simp [rest, filled]
  | succ m ih =>
    have hi : i < args.length := by omega
    have := ih (s + 1) (i + 1) (by omega)
    rw [List.drop_eq_getElem_cons hi, List.take_succ_cons, ← this]
    simp [rest, filled, Src.val, List.getElem?_eq_getElem hi]

theorem given_vals (ks : List String) (args : List Val) (i : Nat) (h : args.length ≤ i + ks.length)
    (hn : Val.none ∉ args) :
    ((filled (given args.length i ks) args).map Prod.snd).filter isSome' = args.drop i := by
  induction ks generalizing i with
  | nil =>
    simp only [List.length_nil, Nat.add_zero] at h
    simp [given, filled, List.drop_eq_nil_of_le h]
  | cons k ks ih =>
    simp only [List.length_cons] at h
    have := ih (i + 1) (by omega)
    by_cases hi : i < args.length
    · rw [List.drop_eq_getElem_cons hi, ← this]
      have hs : isSome' args[i] = true := isSome'_of_ne (fun e => hn (e ▸ List.getElem_mem hi))
      simp [given, filled, Src.val, hi, hs]
    · rw [List.drop_eq_nil_of_le (by omega), ← (show args.drop (i + 1) = [] from
        List.drop_eq_nil_of_le (by omega)), ← this]
      simp [given, filled, Src.val, hi, isSome']

theorem mem_firsts {ks : List String} {i j : Nat} {k : String} (h : (k, Src.arg j) ∈ firsts i ks) :
    j < i + ks.length := by
  induction ks generalizing i with
  | nil => simp [firsts] at h
  | cons k' ks ih =>
    simp only [firsts, List.mem_cons, Prod.mk.injEq, Src.arg.injEq] at h
    simp only [List.length_cons]
    rcases h with ⟨_, rfl⟩ | h
    · omega
    · have := ih h; omega

theorem mem_given {ks : List String} {n i j : Nat} {k : String} (h : (k, Src.arg j) ∈ given n i ks) :
    j < n ∧ j < i + ks.length := by
  induction ks generalizing i with
  | nil => simp [given] at h
  | cons k' ks ih =>
    simp only [given, List.mem_cons, Prod.mk.injEq] at h
    simp only [List.length_cons]
    rcases h with ⟨_, h⟩ | h
    · split at h
      · cases h; omega
      · cases h
    · have := ih h; omega

/-- shown arguments are not too many -/
theorem shown_firsts {args : List Val} {ks : List String} (h : Shown args (firsts 0 ks)) :
    args.length ≤ ks.length := by
  by_contra hc
  obtain ⟨k, hk⟩ := h ks.length (by omega)
  have := mem_firsts hk
  omega

theorem shown_given {args : List Val} {n : Nat} {ks : List String} (h : Shown args (given n 0 ks)) :
    args.length ≤ n ∧ args.length ≤ ks.length := by
  constructor
  · by_contra hc
    obtain ⟨k, hk⟩ := h n (by omega)
    have := mem_given hk
    omega
  · by_contra hc
    obtain ⟨k, hk⟩ := h ks.length (by omega)
    have := mem_given hk
    omega

theorem linear_exactly (ks : List String) : Linear (exactly ks) := by
  intro args ps h _ hn
  unfold exactly at h
  split at h <;> cases h
  rename_i hl
  rw [firsts_vals _ _ _ (by omega), List.drop_zero, List.take_of_length_le (by omega), filter_isSome' hn]

theorem linear_atLeast (ks : List String) : Linear (atLeast ks) := by
  intro args ps h hs hn
  unfold atLeast at h
  split at h <;> cases h
  have := shown_firsts hs
  rw [firsts_vals _ _ _ (by omega), List.drop_zero, List.take_of_length_le (by omega), filter_isSome' hn]

theorem linear_someOf (r : Nat) (ks : List String) : Linear (someOf r ks) := by
  intro args ps h hs hn
  unfold someOf at h
  split at h <;> cases h
  have := shown_given hs
  rw [given_vals _ _ _ (by omega) hn, List.drop_zero]

theorem linear_upToThree (ks : List String) : Linear (upToThree ks) := by
  intro args ps h hs hn
  unfold upToThree at h
  split at h <;> cases h
  have := shown_given hs
  have e : (if args.length ≤ 3 then args.length else 1) = args.length := by
    split
    · rfl
    · split at this <;> omega
  rw [e, given_vals _ _ _ (by omega) hn, List.drop_zero]

theorem linear_pickZones : Linear pickZones := by
  intro args ps h hs hn
  unfold pickZones at h
  split at h <;> cases h
  have := shown_given hs
  have e : (if args.length = 5 then 5 else min args.length 4) = args.length := by
    split
    · omega
    · split at this <;> omega
  rw [e, given_vals _ _ _ (by omega) hn, List.drop_zero]

theorem linear_variadic (ks : List String) (pre : String) (s : Nat) : Linear (variadic ks pre s) := by
  intro args ps h _ hn
  unfold variadic at h
  split at h <;> cases h
  rw [filled_append, List.map_append, firsts_vals _ _ _ (by omega), rest_vals _ _ _ _ _ (by omega), List.drop_zero,
    List.take_of_length_le (l := args.drop ks.length) (by simp), List.take_append_drop, filter_isSome' hn]

theorem linear_bare : Linear bare := by intro args ps h; cases h

theorem inj_listKeys : Inj listKeys := by
  intro args args' ps ps' h1 h2 _ _ _ _ e
  unfold listKeys at h1 h2
  split at h1 <;> cases h1
  split at h2 <;> cases h2
  match args, args', ‹args.length = 2›, ‹args'.length = 2› with
  | [a, b], [a', b'], _, _ => simpa [filled, Src.val] using e

theorem inj_subscriptionResourceId : Inj subscriptionResourceId := by
  have key : ∀ args ps, subscriptionResourceId args = .params ps → Shown args ps →
      (∃ a b, args = [a, b] ∧ (filled ps args).map Prod.snd = [a, b, .none, .none]) ∨
      (∃ a b c, args = [a, b, c] ∧ (filled ps args).map Prod.snd = [a, b, c, .none]) ∨
      (∃ a b c d, args = [a, b, c, d] ∧ (filled ps args).map Prod.snd = [b, c, d, a]) := by
    intro args ps h hs
    match args with
    | [] => cases h
    | [_] => cases h
    | [a, b] => cases h; exact .inl ⟨a, b, rfl, rfl⟩
    | [a, b, c] => cases h; exact .inr (.inl ⟨a, b, c, rfl, rfl⟩)
    | [a, b, c, d] => cases h; exact .inr (.inr ⟨a, b, c, d, rfl, rfl⟩)
    | a :: b :: c :: d :: e :: l =>
      have h' : ps = [("resource_type", .arg 1), ("resource_name_1", .arg 2),
          ("resource_name_2", .arg 3), ("subscription_id", .arg 0)] := by cases h; rfl
      subst h'
      obtain ⟨k, hk⟩ := hs 4 (by simp)
      simp at hk
  intro args args' ps ps' h1 h2 s1 s2 n1 n2 e
  have e' := congrArg (List.map Prod.snd) e
  rcases key _ _ h1 s1 with ⟨a, b, rfl, e1⟩ | ⟨a, b, c, rfl, e1⟩ | ⟨a, b, c, d, rfl, e1⟩ <;>
  rcases key _ _ h2 s2 with ⟨a', b', rfl, e2⟩ | ⟨a', b', c', rfl, e2⟩ | ⟨a', b', c', d', rfl, e2⟩ <;>
  rw [e1, e2] at e' <;> simp at e' n1 n2 ⊢ <;> simp_all

theorem inj_resourceGroup : Inj resourceGroup := by
  have key : ∀ args ps, resourceGroup args = .params ps → Shown args ps →
      (args = [] ∧ (filled ps args).map Prod.snd = [.none, .none]) ∨
      (∃ a, args = [a] ∧ (filled ps args).map Prod.snd = [a, .none]) ∨
      (∃ a b, args = [a, b] ∧ a.truthy = true ∧ b.truthy = true ∧ (filled ps args).map Prod.snd = [b, a]) ∨
      (∃ a b, args = [a, b] ∧ ¬ (a.truthy = true ∧ b.truthy = true) ∧ (filled ps args).map Prod.snd = [a, b]) := by
    intro args ps h hs
    match args with
    | [] => cases h; exact .inl ⟨rfl, rfl⟩
    | [a] => cases h; exact .inr (.inl ⟨a, rfl, rfl⟩)
    | [a, b] =>
      unfold resourceGroup at h
      simp only at h
      split at h
      · rename_i ht
        cases h; exact .inr (.inr (.inl ⟨a, b, rfl, ht.1, ht.2, rfl⟩))
      · rename_i ht
        cases h; exact .inr (.inr (.inr ⟨a, b, rfl, ht, rfl⟩))
    | a :: b :: c :: l =>
      have h' : ps = [("resource_group_name", .absent), ("subscription_id", .absent)] := by cases h; rfl
      subst h'
      obtain ⟨k, hk⟩ := hs 0 (by simp)
      simp at hk
  intro args args' ps ps' h1 h2 s1 s2 n1 n2 e
  have e' := congrArg (List.map Prod.snd) e
  rcases key _ _ h1 s1 with ⟨rfl, e1⟩ | ⟨a, rfl, e1⟩ | ⟨a, b, rfl, t1, t2, e1⟩ | ⟨a, b, rfl, t, e1⟩ <;>
  rcases key _ _ h2 s2 with ⟨rfl, e2⟩ | ⟨a', rfl, e2⟩ | ⟨a', b', rfl, t1', t2', e2⟩ | ⟨a', b', rfl, t', e2⟩ <;>
  rw [e1, e2] at e' <;> simp at e' n1 n2 ⊢ <;> simp_all

theorem inj_resourceId : Inj resourceId := by
  have key : ∀ args ps, resourceId args = .params ps →
      (∃ a b, args = [a, b] ∧ (filled ps args).map Prod.snd = [a, b, .none, .none, .none]) ∨
      (∃ a b c, args = [a, b, c] ∧ (filled ps args).map Prod.snd = [a, b, c, .none, .none]) ∨
      (∃ a b c d, args = [a, b, c, d] ∧ (filled ps args).map Prod.snd = [b, c, d, a, .none]) ∨
      (∃ a b c d e l, args = a :: b :: c :: d :: e :: l ∧
        (filled ps args).map Prod.snd = c :: d :: e :: l ++ [b, a]) := by
    intro args ps h
    match args with
    | [] => cases h
    | [_] => cases h
    | [a, b] => cases h; exact .inl ⟨a, b, rfl, rfl⟩
    | [a, b, c] => cases h; exact .inr (.inl ⟨a, b, c, rfl, rfl⟩)
    | [a, b, c, d] => cases h; exact .inr (.inr (.inl ⟨a, b, c, d, rfl, rfl⟩))
    | a :: b :: c :: d :: e :: l =>
      have h' : ps = ("resource_type", .arg 2) :: rest "resource_name_" 1 3 (l.length + 2) ++
          [("resource_group_name", .arg 1), ("subscription_id", .arg 0)] := by cases h; rfl
      subst h'
      refine .inr (.inr (.inr ⟨a, b, c, d, e, l, rfl, ?_⟩))
      rw [List.cons_append, filled, List.map_cons, List.map_append, List.map_cons, List.map_append]
      have := rest_vals "resource_name_" (a :: b :: c :: d :: e :: l) 1 3 (l.length + 2) (by simp; omega)
      rw [filled] at this
      rw [this]
      simp [Src.val]
  have tail : ∀ {l l' : List Val} {a b a' b' : Val}, l ++ [b, a] = l' ++ [b', a'] → l = l' ∧ b = b' ∧ a = a' := by
    intro l l' a b a' b' h
    have := List.append_inj' h rfl
    simpa using this
  intro args args' ps ps' h1 h2 s1 s2 n1 n2 e
  have e' := congrArg (List.map Prod.snd) e
  have k1 := key _ _ h1
  have k2 := key _ _ h2
  clear key h1 h2 s1 s2 e
  generalize (filled ps args).map Prod.snd = w at *
  generalize (filled ps' args').map Prod.snd = w' at *
  subst e'
  rcases k1 with ⟨a, b, rfl, rfl⟩ | ⟨a, b, c, rfl, rfl⟩ | ⟨a, b, c, d, rfl, rfl⟩ | ⟨a, b, c, d, x, l, rfl, rfl⟩ <;>
  rcases k2 with ⟨a', b', rfl, e⟩ | ⟨a', b', c', rfl, e⟩ | ⟨a', b', c', d', rfl, e⟩ |
    ⟨a', b', c', d', x', l', rfl, e⟩ <;>
  simp only [List.cons_append, List.cons.injEq, List.mem_cons, List.not_mem_nil, or_false, not_or, and_true] at e n1 n2 ⊢
  · exact e
  · exact absurd e.2.2 n2.2.2
  · exact absurd e.2.2.2 n2.1
  · have := tail (l := []) e.2.2.2
    exact absurd this.2.2 n2.1
  · exact absurd e.2.2.symm n1.2.2
  · exact ⟨e.1, e.2.1, e.2.2⟩
  · exact absurd e.2.2.2 n2.1
  · have := tail (l := []) e.2.2.2
    exact absurd this.2.2 n2.1
  · exact absurd e.2.2.2.symm n1.1
  · exact absurd e.2.2.2.symm n1.1
  · exact ⟨e.2.2.2, e.1, e.2.1, e.2.2.1⟩
  · have := tail (l := []) e.2.2.2
    exact absurd this.2.2 n2.1
  · have := tail (l' := []) e.2.2.2
    exact absurd this.2.2.symm n1.1
  · have := tail (l' := []) e.2.2.2
    exact absurd this.2.2.symm n1.1
  · have := tail (l' := []) e.2.2.2
    exact absurd this.2.2.symm n1.1
  · have := tail e.2.2.2
    exact ⟨this.2.2, this.2.1, e.1, e.2.1, e.2.2.1, this.1⟩

open Signature in
theorem report_inj : ∀ s ∈ signatures, Inj s.report := by
  simp only [signatures, List.forall_mem_cons, List.not_mem_nil, false_implies, implies_true, and_true]
  repeat' apply And.intro
  all_goals first
    | exact (linear_atLeast _).inj
    | exact (linear_exactly _).inj
    | exact (linear_someOf 0 _).inj
    | exact (linear_someOf _ _).inj
    | exact (linear_variadic _ _ _).inj
    | exact linear_bare.inj
    | exact (linear_upToThree _).inj
    | exact linear_pickZones.inj
    | exact inj_listKeys
    | exact inj_resourceId
    | exact inj_subscriptionResourceId
    | exact inj_resourceGroup

end Signature

/-- no type is reported for two functions -/
theorem types_nodup : (signatures.map Signature.type).Nodup := by decide +kernel

theorem map_unique {α β} {f : α → β} : ∀ {l : List α}, (l.map f).Nodup → ∀ {a b}, a ∈ l → b ∈ l → f a = f b → a = b
  | [], _, _, _, ha, _, _ => by cases ha
  | x :: l, h, a, b, ha, hb, e => by
    rw [List.map_cons, List.nodup_cons] at h
    rcases List.mem_cons.mp ha with ea | ha' <;> rcases List.mem_cons.mp hb with eb | hb'
    · rw [ea, eb]
    · exact absurd (List.mem_map.mpr ⟨b, hb', by rw [← e, ea]⟩) h.1
    · exact absurd (List.mem_map.mpr ⟨a, ha', by rw [e, eb]⟩) h.1
    · exact map_unique h.2 ha' hb' e

/-- keys that are not those of an unknown function -/
def Foreign (r : List Val → Report) : Prop :=
  ∀ args ps, r args = .params ps → ∃ k ∈ ps.map Prod.fst, ("arg_".toList.isPrefixOf k.toList) = false

open Signature in
/-- a function whose type is not its name is not reported like an unknown one -/
theorem foreign_or : ∀ s ∈ signatures, s.type = s.name ∨ Foreign s.report := by
  have hex : ∀ k ks, ("arg_".toList.isPrefixOf k.toList) = false → Foreign (exactly (k :: ks)) := by
    intro k ks hk args ps h
    unfold exactly at h; split at h <;> cases h
    exact ⟨k, by rw [firsts_keys]; simp, hk⟩
  have hat : ∀ k ks, ("arg_".toList.isPrefixOf k.toList) = false → Foreign (atLeast (k :: ks)) := by
    intro k ks hk args ps h
    unfold atLeast at h; split at h <;> cases h
    exact ⟨k, by rw [firsts_keys]; simp, hk⟩
  have hso : ∀ r k ks, ("arg_".toList.isPrefixOf k.toList) = false → Foreign (someOf r (k :: ks)) := by
    intro r k ks hk args ps h
    unfold someOf at h; split at h <;> cases h
    exact ⟨k, by rw [given_keys]; simp, hk⟩
  have hup : ∀ k ks, ("arg_".toList.isPrefixOf k.toList) = false → Foreign (upToThree (k :: ks)) := by
    intro k ks hk args ps h
    unfold upToThree at h; split at h <;> cases h
    exact ⟨k, by rw [given_keys]; simp, hk⟩
  have hva : ∀ k ks pre s, ("arg_".toList.isPrefixOf k.toList) = false → Foreign (variadic (k :: ks) pre s) := by
    intro k ks pre s hk args ps h
    unfold variadic at h; split at h <;> cases h
    exact ⟨k, by rw [List.map_append, firsts_keys]; simp, hk⟩
  have hba : Foreign bare := by intro args ps h; cases h
  have hpz : Foreign pickZones := by
    intro args ps h
    unfold pickZones at h; split at h <;> cases h
    exact ⟨"offset", by rw [given_keys]; simp, by decide⟩
  have hlk : Foreign listKeys := by
    intro args ps h
    unfold listKeys at h; split at h <;> cases h
    exact ⟨"func_name", by simp, by decide⟩
  have hri : Foreign resourceId := by
    intro args ps h
    refine ⟨"resource_type", ?_, by decide⟩
    unfold resourceId at h; split at h <;> cases h <;> simp
  have hsi : Foreign subscriptionResourceId := by
    intro args ps h
    refine ⟨"resource_type", ?_, by decide⟩
    unfold subscriptionResourceId at h; split at h <;> cases h <;> simp
  have hrg : Foreign resourceGroup := by
    intro args ps h
    refine ⟨"subscription_id", ?_, by decide⟩
    unfold resourceGroup at h
    split at h
    · cases h; simp
    · split at h <;> cases h <;> simp
    · cases h; simp
  simp only [signatures, List.forall_mem_cons, List.not_mem_nil, false_implies, implies_true, and_true]
  repeat' apply And.intro
  all_goals first
    | exact .inl trivial
    | exact .inr hba
    | exact .inr (hat _ _ (by decide))
    | exact .inr (hex _ _ (by decide))
    | exact .inr (hso 0 _ _ (by decide))
    | exact .inr (hso _ _ _ (by decide))
    | exact .inr (hva _ _ _ _ (by decide))
    | exact .inr (hup _ _ (by decide))
    | exact .inr hpz
    | exact .inr hlk
    | exact .inr hri
    | exact .inr hsi
    | exact .inr hrg

theorem numbered_vals (pre : String) (n : Nat) (vs : List Val) : (numbered pre n vs).map Prod.snd = vs := by
  induction vs generalizing n with
  | nil => rfl
  | cons v vs ih => simp [numbered, ih]

/-- the arguments are reported as far as the function is known -/
def Telling (f : String) (args : List Val) : Prop :=
  ∀ s ∈ signatures, f ∈ s.names → AllReported s args.length ∧ Val.none ∉ args

theorem Telling.shown {f : String} {args : List Val} (h : Telling f args) {s ps} (hs : s ∈ signatures)
    (hf : f ∈ s.names) (hr : s.report args = .params ps) : Shown args ps := by
  intro i hi
  obtain ⟨ps', k, h1, h2⟩ := (h s hs hf).1 args rfl i hi
  rw [hr] at h1; cases h1
  exact ⟨k, h2⟩

theorem unknown_ne {f : String} {args args' : List Val} (hu : ∀ s ∈ signatures, f ∉ s.names) {s ps}
    (hs : s ∈ signatures) (hr : s.report args' = .params ps)
    (e : Val.dict [("type", .str f), ("parameters", .dict (numbered "arg_" 1 args))] =
      .dict [("type", .str s.type), ("parameters", .dict (ps.map (fun p => (p.1, p.2.val args'))))]) : False := by
  simp only [Val.dict.injEq, List.cons.injEq, Prod.mk.injEq, Val.str.injEq, true_and, and_true] at e
  obtain ⟨rfl, e⟩ := e
  rcases foreign_or s hs with h | h
  · exact hu s hs (by rw [h]; simp [Signature.names])
  · obtain ⟨k, hk, hp⟩ := h args' ps hr
    refine numbered_not_mem hp 1 args ?_
    rw [e]
    simpa using hk

/-- **The report determines the call.** -/
theorem funVal_inj {f g : String} {args args' : List Val} {v : Val} (h1 : FunVal f args v) (h2 : FunVal g args' v)
    (t1 : Telling f args) (t2 : Telling g args') :
    args = args' ∧ (f = g ∨ ∃ s ∈ signatures, f ∈ s.names ∧ g ∈ s.names) := by
  generalize hv : v = w at h2
  cases h1 with
  | @known s ps hs hf hr =>
    cases h2 with
    | @known s' ps' hs' hf' hr' =>
      simp only [Val.dict.injEq, List.cons.injEq, Prod.mk.injEq, Val.str.injEq, true_and, and_true] at hv
      obtain rfl := map_unique types_nodup hs hs' hv.1
      exact ⟨Signature.report_inj s hs _ _ _ _ hr hr' (t1.shown hs hf hr) (t2.shown hs hf' hr')
        (t1 s hs hf).2 (t2 s hs hf').2 hv.2, .inr ⟨s, hs, hf, hf'⟩⟩
    | bare hs' hf' hr' => simp at hv
    | unknown hu => exact (unknown_ne hu hs hr hv.symm).elim
  | @bare s hs hf hr =>
    cases h2 with
    | known hs' hf' hr' => simp at hv
    | @bare s' hs' hf' hr' =>
      simp only [Val.dict.injEq, List.cons.injEq, Prod.mk.injEq, Val.str.injEq, true_and, and_true] at hv
      obtain rfl := map_unique types_nodup hs hs' hv
      have none : ∀ {f args}, Telling f args → f ∈ s.names → s.report args = .bare → args = [] := by
        intro f args t hf hr
        cases args with
        | nil => rfl
        | cons a l =>
          obtain ⟨ps, k, h1, _⟩ := (t s hs hf).1 _ rfl 0 (by simp)
          rw [hr] at h1; cases h1
      rw [none t1 hf hr, none t2 hf' hr']
      exact ⟨rfl, .inr ⟨s, hs, hf, hf'⟩⟩
    | unknown hu => simp at hv
  | unknown hu =>
    cases h2 with
    | known hs' hf' hr' => exact (unknown_ne hu hs' hr' hv).elim
    | bare hs' hf' hr' => simp at hv
    | unknown hu' =>
      simp only [Val.dict.injEq, List.cons.injEq, Prod.mk.injEq, Val.str.injEq, true_and, and_true] at hv
      have := congrArg (List.map Prod.snd) hv.2
      rw [numbered_vals, numbered_vals] at this
      exact ⟨this, .inl hv.1⟩

end Pycep
