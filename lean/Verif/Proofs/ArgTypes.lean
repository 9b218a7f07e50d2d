import Verif.Spec.ArgTypes
import Verif.Proofs.Possible
/-
Arguments have the types published for them.
-/
namespace Pycep

/-! ### Expressions -/

theorem has_value {v : Val} : ArgTy.value.Has v ↔ v.Possible :=
  ⟨fun h => by cases h; assumption, .value⟩

theorem has_text {v : Val} : ArgTy.text.Has v ↔ ∃ s, v = .str s ∨ v = .elem s := by
  constructor
  · intro h; cases h
    · exact ⟨_, .inl rfl⟩
    · exact ⟨_, .inr rfl⟩
  · rintro ⟨s, rfl | rfl⟩
    · exact .str
    · exact .elem

theorem isText_iff {ln : Bool} {e : Expr} {v : Val} (h : e.val ln = .ok v) :
    (∃ s, v = .str s ∨ v = .elem s) ↔ e.IsText := by
  cases e with
  | null | tru | fls | ident _ | str _ | multi _ => rw [Expr.val] at h; cases h; simp [Expr.IsText]
  | int d =>
    rw [Expr.val] at h
    split at h
    · cases h; simp [Expr.IsText]
    · cases h
  | array es => rw [Expr.val] at h; obtain ⟨x, _, h⟩ := bind_ok' h; cases h; simp [Expr.IsText]
  | object es => rw [Expr.val] at h; obtain ⟨x, _, h⟩ := bind_ok' h; cases h; simp [Expr.IsText]
  | call f es =>
    rw [Expr.val] at h; obtain ⟨x, _, h⟩ := bind_ok' h; obtain ⟨x, _, h⟩ := bind_ok' h; cases h
    simp [Expr.IsText]
  | bin op a b =>
    rw [Expr.val] at h; obtain ⟨x, _, h⟩ := bind_ok' h; obtain ⟨x, _, h⟩ := bind_ok' h; cases h
    simp [Expr.IsText, opVal]
  | not a => rw [Expr.val] at h; obtain ⟨x, _, h⟩ := bind_ok' h; cases h; simp [Expr.IsText, opVal]
  | minus a => rw [Expr.val] at h; obtain ⟨x, _, h⟩ := bind_ok' h; cases h; simp [Expr.IsText, opVal]
  | cond a b c =>
    rw [Expr.val] at h; obtain ⟨x, _, h⟩ := bind_ok' h; obtain ⟨x, _, h⟩ := bind_ok' h
    obtain ⟨x, _, h⟩ := bind_ok' h; cases h
    simp [Expr.IsText, opVal]
  | method a f args =>
    rw [Expr.val] at h; obtain ⟨x, _, h⟩ := bind_ok' h; obtain ⟨x, _, h⟩ := bind_ok' h; cases h
    simp [Expr.IsText, opVal]
  | lambda a b =>
    rw [Expr.val] at h; obtain ⟨x, _, h⟩ := bind_ok' h; obtain ⟨x, _, h⟩ := bind_ok' h; cases h
    simp [Expr.IsText]
  | lambdaN a b c vs e =>
    rw [Expr.val] at h; obtain ⟨x, _, h⟩ := bind_ok' h; obtain ⟨x, _, h⟩ := bind_ok' h
    obtain ⟨x, _, h⟩ := bind_ok' h; obtain ⟨x, _, h⟩ := bind_ok' h; obtain ⟨x, _, h⟩ := bind_ok' h; cases h
    simp [Expr.IsText]

/-- which kind of value an expression has -/
theorem val_kind {ln : Bool} {e : Expr} {v : Val} (h : e.val ln = .ok v) :
    (v = .none ↔ e = .null) ∧ ((∃ b, v = .bool b) ↔ e.IsBool) ∧ ((∃ i, v = .int i) ↔ e.IsInt) ∧
      ((∃ d, v = .dict d) ↔ e ≠ .null ∧ ¬ e.Single ∧ ∀ es, e ≠ .array es) := by
  cases e with
  | null | tru | fls | ident _ | str _ | multi _ =>
    rw [Expr.val] at h; cases h; simp [Expr.IsBool, Expr.IsInt, Expr.Single]
  | int d =>
    rw [Expr.val] at h
    split at h
    · cases h; simp [Expr.IsBool, Expr.IsInt, Expr.Single]
    · cases h
  | array es =>
    rw [Expr.val] at h; obtain ⟨x, _, h⟩ := bind_ok' h; cases h
    simp [Expr.IsBool, Expr.IsInt, Expr.Single]
  | object es =>
    rw [Expr.val] at h; obtain ⟨x, _, h⟩ := bind_ok' h; cases h
    simp [Expr.IsBool, Expr.IsInt, Expr.Single]
  | call f es =>
    rw [Expr.val] at h; obtain ⟨x, _, h⟩ := bind_ok' h; obtain ⟨x, _, h⟩ := bind_ok' h; cases h
    simp [Expr.IsBool, Expr.IsInt, Expr.Single]
  | bin op a b =>
    rw [Expr.val] at h; obtain ⟨x, _, h⟩ := bind_ok' h; obtain ⟨x, _, h⟩ := bind_ok' h; cases h
    simp [Expr.IsBool, Expr.IsInt, Expr.Single, opVal]
  | not a =>
    rw [Expr.val] at h; obtain ⟨x, _, h⟩ := bind_ok' h; cases h
    simp [Expr.IsBool, Expr.IsInt, Expr.Single, opVal]
  | minus a =>
    rw [Expr.val] at h; obtain ⟨x, _, h⟩ := bind_ok' h; cases h
    simp [Expr.IsBool, Expr.IsInt, Expr.Single, opVal]
  | cond a b c =>
    rw [Expr.val] at h; obtain ⟨x, _, h⟩ := bind_ok' h; obtain ⟨x, _, h⟩ := bind_ok' h
    obtain ⟨x, _, h⟩ := bind_ok' h; cases h
    simp [Expr.IsBool, Expr.IsInt, Expr.Single, opVal]
  | method a f args =>
    rw [Expr.val] at h; obtain ⟨x, _, h⟩ := bind_ok' h; obtain ⟨x, _, h⟩ := bind_ok' h; cases h
    simp [Expr.IsBool, Expr.IsInt, Expr.Single, opVal]
  | lambda a b =>
    rw [Expr.val] at h; obtain ⟨x, _, h⟩ := bind_ok' h; obtain ⟨x, _, h⟩ := bind_ok' h; cases h
    simp [Expr.IsBool, Expr.IsInt, Expr.Single]
  | lambdaN a b c vs e =>
    rw [Expr.val] at h; obtain ⟨x, _, h⟩ := bind_ok' h; obtain ⟨x, _, h⟩ := bind_ok' h
    obtain ⟨x, _, h⟩ := bind_ok' h; obtain ⟨x, _, h⟩ := bind_ok' h; obtain ⟨x, _, h⟩ := bind_ok' h; cases h
    simp [Expr.IsBool, Expr.IsInt, Expr.Single]

theorem val_atoms {ln : Bool} {e : Expr} {v : Val} (h : e.val ln = .ok v) :
    (∃ l : List Val, v = .list l ∧ ∀ x ∈ l, x.Atom) ↔ ∃ es, e = .array es ∧ ∀ x ∈ es, x.Single := by
  by_cases ha : ∃ es, e = .array es
  · obtain ⟨es, rfl⟩ := ha
    rw [Expr.val] at h; obtain ⟨x, hx, h⟩ := bind_ok' h; cases h
    constructor
    · rintro ⟨l, e, hl⟩
      cases e
      exact ⟨es, rfl, (atoms_iff hx).mp hl⟩
    · rintro ⟨es', e, hl⟩
      cases e
      exact ⟨x, rfl, (atoms_iff hx).mpr hl⟩
  · constructor
    · rintro ⟨l, rfl, _⟩
      exfalso
      cases e with
      | array es => exact ha ⟨es, rfl⟩
      | null | tru | fls | ident _ | str _ | multi _ => rw [Expr.val] at h; cases h
      | int d => rw [Expr.val] at h; split at h <;> cases h
      | _ =>
        have hk := (val_kind h).2.2.2.mpr ⟨nofun, by simp [Expr.Single], nofun⟩
        obtain ⟨_, hk⟩ := hk
        cases hk
    · rintro ⟨es, rfl, _⟩
      exact absurd ⟨es, rfl⟩ ha

/-- the value of an expression has the type if and only if the expression fits -/
theorem ArgTy.fits_iff {ln : Bool} (t : ArgTy) {e : Expr} {v : Val} (h : e.val ln = .ok v) : t.Has v ↔ t.Fits ln e := by
  obtain ⟨k1, k2, k3, k4⟩ := val_kind h
  have k5 := isText_iff h
  have k6 := val_atoms h
  have k7 := Expr.fits_iff e h
  cases t with
  | value => rw [has_value, ArgTy.Fits, k7]
  | valueOrNone =>
    rw [ArgTy.Fits, ← k1, ← k7]
    constructor
    · intro h; cases h
      · right; assumption
      · left; rfl
    · rintro (rfl | h)
      · exact .noValue
      · exact .possible h
  | text => rw [has_text, k5, ArgTy.Fits]
  | textOrNone =>
    rw [ArgTy.Fits, ← k1, ← k5]
    constructor
    · intro h; cases h
      · exact .inr ⟨_, .inl rfl⟩
      · exact .inr ⟨_, .inr rfl⟩
      · exact .inl rfl
    · rintro (rfl | ⟨s, rfl | rfl⟩)
      · exact .noText
      · exact .someStr
      · exact .someElem
  | int =>
    rw [ArgTy.Fits, ← k2, ← k3]
    constructor
    · intro h; cases h
      · exact .inl ⟨_, rfl⟩
      · exact .inr ⟨_, rfl⟩
    · rintro (⟨i, rfl⟩ | ⟨b, rfl⟩)
      · exact .int
      · exact .isBool
  | boolOrText =>
    rw [ArgTy.Fits, ← k2, ← k5]
    constructor
    · intro h; cases h
      · exact .inl ⟨_, rfl⟩
      · exact .inr ⟨_, .inl rfl⟩
      · exact .inr ⟨_, .inr rfl⟩
    · rintro (⟨b, rfl⟩ | ⟨s, rfl | rfl⟩)
      · exact .bool
      · exact .orStr
      · exact .orElem
  | atoms =>
    rw [ArgTy.Fits, ← k6]
    constructor
    · intro h; cases h; exact ⟨_, rfl, by assumption⟩
    · rintro ⟨l, rfl, ha⟩; exact .atoms ha
  | anyDict =>
    rw [ArgTy.Fits, ← k4]
    constructor
    · intro h; cases h; exact ⟨_, rfl⟩
    · rintro ⟨d, rfl⟩; exact .anyDict

/-! ### Signatures -/

namespace Signature

/-- arguments exist, and whatever else is reported has its type -/
def Sound (r : List Val → Report) (ty : String → ArgTy) : Prop :=
  ∀ args ps, r args = .params ps → ∀ q ∈ ps, match q.2 with
    | .arg i => i < args.length
    | .absent => (ty q.1).Has .none
    | .text t => (ty q.1).Has (.str t)

theorem firsts_arg : ∀ {ks : List String} {i : Nat} {q}, q ∈ firsts i ks → ∃ j, q.2 = .arg j ∧ j < i + ks.length
  | [], _, _, h => by simp [firsts] at h
  | k :: ks, i, q, h => by
    rw [firsts, List.mem_cons] at h
    rcases h with rfl | h
    · exact ⟨i, rfl, by simp⟩
    · obtain ⟨j, hj, hl⟩ := firsts_arg h
      exact ⟨j, hj, by simp only [List.length_cons]; omega⟩

theorem rest_arg {pre : String} : ∀ {n s i : Nat} {q}, q ∈ rest pre s i n → ∃ j, q.2 = .arg j ∧ j < i + n
  | 0, _, _, _, h => by simp [rest] at h
  | n + 1, s, i, q, h => by
    rw [rest, List.mem_cons] at h
    rcases h with rfl | h
    · exact ⟨i, rfl, by omega⟩
    · obtain ⟨j, hj, hl⟩ := rest_arg h
      exact ⟨j, hj, by omega⟩

theorem given_arg {n : Nat} : ∀ {ks : List String} {i : Nat} {q}, q ∈ given n i ks →
    (∃ j, q.2 = .arg j ∧ j < n) ∨ (q.2 = .absent ∧ q.1 ∈ ks.drop (n - i))
  | [], _, _, h => by simp [given] at h
  | k :: ks, i, q, h => by
    rw [given, List.mem_cons] at h
    rcases h with rfl | h
    · by_cases hi : i < n
      · exact .inl ⟨i, by simp [hi], hi⟩
      · refine .inr ⟨by simp [hi], ?_⟩
        rw [show n - i = 0 by omega]; simp
    · rcases given_arg h with h | ⟨h1, h2⟩
      · exact .inl h
      · refine .inr ⟨h1, ?_⟩
        by_cases hi : i < n
        · rw [show n - i = (n - (i + 1)) + 1 by omega, List.drop_succ_cons]; exact h2
        · rw [show n - i = 0 by omega]
          exact List.mem_cons_of_mem _ (List.mem_of_mem_drop h2)

theorem sound_exactly {ks ty} : Sound (exactly ks) ty := by
  intro args ps h q hq
  unfold exactly at h
  split at h
  · cases h; obtain ⟨j, hj, hl⟩ := firsts_arg hq; rw [hj]; simp only; omega
  · cases h

theorem sound_atLeast {ks ty} : Sound (atLeast ks) ty := by
  intro args ps h q hq
  unfold atLeast at h
  split at h
  · cases h
  · cases h; obtain ⟨j, hj, hl⟩ := firsts_arg hq; rw [hj]; simp only; omega

theorem drop_subset {α} {r n : Nat} (hr : r ≤ n) {l : List α} {x : α} (h : x ∈ l.drop n) : x ∈ l.drop r := by
  rw [show n = r + (n - r) by omega, ← List.drop_drop] at h
  exact List.mem_of_mem_drop h

theorem sound_given {ks : List String} {ty : String → ArgTy} {r n m : Nat} (hr : r ≤ n) (hm : n ≤ m)
    (hn : ∀ k ∈ ks.drop r, (ty k).Has .none) : ∀ q ∈ given n 0 ks, match q.2 with
    | .arg i => i < m
    | .absent => (ty q.1).Has .none
    | .text t => (ty q.1).Has (.str t) := by
  intro q hq
  rcases given_arg hq with ⟨j, hj, hl⟩ | ⟨h1, h2⟩
  · rw [hj]; simp only; omega
  · rw [h1]; exact hn _ (drop_subset hr (by simpa using h2))

theorem sound_someOf {r : Nat} {ks : List String} {ty : String → ArgTy} (hn : ∀ k ∈ ks.drop r, (ty k).Has .none) :
    Sound (someOf r ks) ty := by
  intro args ps h q hq
  unfold someOf at h
  split at h
  · cases h
  · cases h; exact sound_given (r := r) (by omega) (le_refl _) hn q hq

theorem sound_upToThree {ks : List String} {ty : String → ArgTy} (hn : ∀ k ∈ ks.drop 1, (ty k).Has .none) :
    Sound (upToThree ks) ty := by
  intro args ps h q hq
  unfold upToThree at h
  split at h
  · cases h
  · cases h
    refine sound_given (r := 1) ?_ ?_ hn q hq <;> split <;> omega

theorem sound_pickZones {ty : String → ArgTy} (hn : ∀ k ∈ ["number_of_zones", "offset"], (ty k).Has .none) :
    Sound pickZones ty := by
  intro args ps h q hq
  unfold pickZones at h
  split at h
  · cases h
  · cases h
    exact sound_given (r := 3)
      (ks := ["provider_namespace", "resource_type", "location", "number_of_zones", "offset"])
      (by split <;> omega) (by split <;> omega) hn q hq

theorem sound_variadic {ks pre s ty} : Sound (variadic ks pre s) ty := by
  intro args ps h q hq
  unfold variadic at h
  split at h
  · cases h
  · cases h
    rcases List.mem_append.mp hq with hq | hq
    · obtain ⟨j, hj, hl⟩ := firsts_arg hq; rw [hj]; simp only; omega
    · obtain ⟨j, hj, hl⟩ := rest_arg hq; rw [hj]; simp only; omega

theorem sound_listKeys {ty : String → ArgTy} (hn : (ty "func_name").Has (.str "listKeys")) : Sound listKeys ty := by
  intro args ps h
  unfold listKeys at h
  split at h
  · cases h
    simp only [List.forall_mem_cons, List.not_mem_nil, false_implies, implies_true, and_true]
    exact ⟨hn, by omega, by omega⟩
  · cases h

theorem sound_resourceId {ty : String → ArgTy}
    (hn : ∀ k ∈ ["resource_name_2", "resource_group_name", "subscription_id"], (ty k).Has .none) :
    Sound resourceId ty := by
  simp only [List.forall_mem_cons, List.not_mem_nil, false_implies, implies_true, and_true] at hn
  obtain ⟨n1, n2, n3⟩ := hn
  intro args ps h
  unfold resourceId at h
  split at h
  · cases h
  · cases h
  · cases h
    simp only [List.forall_mem_cons, List.not_mem_nil, false_implies, implies_true, and_true]
    exact ⟨by omega, by omega, n1, n2, n3⟩
  · cases h
    simp only [List.forall_mem_cons, List.not_mem_nil, false_implies, implies_true, and_true]
    exact ⟨by omega, by omega, by omega, n2, n3⟩
  · cases h
    simp only [List.forall_mem_cons, List.not_mem_nil, false_implies, implies_true, and_true]
    exact ⟨by omega, by omega, by omega, by omega, n3⟩
  · cases h
    intro q hq
    simp only [List.cons_append, List.mem_cons, List.mem_append, List.not_mem_nil, or_false] at hq
    rcases hq with rfl | hq | rfl | rfl
    · simp only; omega
    · obtain ⟨j, hj, hl⟩ := rest_arg hq; rw [hj]; simp only; omega
    · simp only; omega
    · simp only; omega

theorem sound_subscriptionResourceId {ty : String → ArgTy}
    (hn : ∀ k ∈ ["resource_name_2", "subscription_id"], (ty k).Has .none) : Sound subscriptionResourceId ty := by
  simp only [List.forall_mem_cons, List.not_mem_nil, false_implies, implies_true, and_true] at hn
  obtain ⟨n1, n2⟩ := hn
  intro args ps h
  unfold subscriptionResourceId at h
  split at h
  · cases h
  · cases h
  · cases h
    simp only [List.forall_mem_cons, List.not_mem_nil, false_implies, implies_true, and_true]
    exact ⟨by omega, by omega, n1, n2⟩
  · cases h
    simp only [List.forall_mem_cons, List.not_mem_nil, false_implies, implies_true, and_true]
    exact ⟨by omega, by omega, by omega, n2⟩
  · rename_i h0 h1 h2 h3
    cases h
    have : 4 ≤ args.length := by
      by_contra hc
      have : args.length = 0 ∨ args.length = 1 ∨ args.length = 2 ∨ args.length = 3 := by omega
      rcases this with h | h | h | h
      · exact h0 h
      · exact h1 h
      · exact h2 h
      · exact h3 h
    simp only [List.forall_mem_cons, List.not_mem_nil, false_implies, implies_true, and_true]
    exact ⟨by omega, by omega, by omega, by omega⟩

theorem sound_resourceGroup {ty : String → ArgTy}
    (hn : ∀ k ∈ ["resource_group_name", "subscription_id"], (ty k).Has .none) : Sound resourceGroup ty := by
  simp only [List.forall_mem_cons, List.not_mem_nil, false_implies, implies_true, and_true] at hn
  obtain ⟨n1, n2⟩ := hn
  intro args ps h
  unfold resourceGroup at h
  split at h
  · cases h
    simp only [List.forall_mem_cons, List.not_mem_nil, false_implies, implies_true, and_true, List.length_cons]
    exact ⟨by omega, n2⟩
  · split at h
    · cases h
      simp
    · cases h
      simp
  · cases h
    simp only [List.forall_mem_cons, List.not_mem_nil, false_implies, implies_true, and_true]
    exact ⟨n1, n2⟩

end Signature

/-- Where something else than an argument is reported, it has the published type; in particular `None` is
reported only where the type has room for it. -/
def SoundRow (s : Signature) (r : ArgRow) : Prop :=
  s.name = r.name ∧ Signature.Sound s.report r.ty

theorem forall_keys_none {r : ArgRow} {ks : List String}
    (h : ks.all (fun k => match r.ty k with | .valueOrNone | .textOrNone => true | _ => false) = true) :
    ∀ k ∈ ks, (r.ty k).Has .none := by
  intro k hk
  have := List.all_eq_true.mp h k hk
  split at this
  · rename_i e; rw [e]; exact .noValue
  · rename_i e; rw [e]; exact .noText
  · cases this

theorem sound_bare {ty : String → ArgTy} : Signature.Sound Signature.bare ty := nofun

open Signature in
theorem sound_table : List.Forall₂ SoundRow signatures publishedArgs := by
  unfold signatures publishedArgs
  repeat' apply List.Forall₂.cons
  all_goals first
    | exact .nil
    | exact ⟨rfl, sound_bare⟩
    | exact ⟨rfl, sound_atLeast⟩
    | exact ⟨rfl, sound_exactly⟩
    | exact ⟨rfl, sound_variadic⟩
    | exact ⟨rfl, sound_someOf (forall_keys_none rfl)⟩
    | exact ⟨rfl, sound_someOf (r := 0) (forall_keys_none rfl)⟩
    | exact ⟨rfl, sound_upToThree (forall_keys_none rfl)⟩
    | exact ⟨rfl, sound_pickZones (forall_keys_none rfl)⟩
    | exact ⟨rfl, sound_resourceId (forall_keys_none rfl)⟩
    | exact ⟨rfl, sound_subscriptionResourceId (forall_keys_none rfl)⟩
    | exact ⟨rfl, sound_resourceGroup (forall_keys_none rfl)⟩
    | exact ⟨rfl, sound_listKeys (.value (possible_str _))⟩

end Pycep
