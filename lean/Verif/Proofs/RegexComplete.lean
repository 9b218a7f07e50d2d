import Verif.Proofs.RegexSound
import Verif.Spec.Layout
/-
Forward facts about the matcher: what is found, and what is refused by its first character.
-/
namespace Pycep

theorem orElse_left {a : Option (List Char)} {b} (h : a.isSome = true) : orElse a b = a := by
  cases a with
  | none => simp at h
  | some x => rfl

theorem orElse_none {b : Unit → Option (List Char)} : orElse .none b = b () := rfl

theorem orElse_isSome {a : Option (List Char)} {b} :
    (orElse a b).isSome = (a.isSome || (b ()).isSome) := by
  cases a <;> simp [orElse]

theorem run_seq {rec a b s k} :
    (Re.seq a b).run rec s k = a.run rec s (fun s' => b.run rec s' k) := rfl

theorem run_alt {rec a b s k} :
    (Re.alt a b).run rec s k = orElse (a.run rec s k) (fun _ => b.run rec s k) := rfl

theorem run_star {rec r s k} : (Re.star r).run rec s k = starLoop (r.run rec) s.length s k := rfl

theorem run_set {rec p c s k} : (Re.set p).run rec (c :: s) k = if p c then k s else .none := rfl

theorem dot_run {rec c s k} (h : c ≠ '\n') : Re.dot.run rec (c :: s) k = k s := by
  rw [Re.dot, run_set, if_pos (by simpa using h)]

theorem dot_run_nl {rec s k} : Re.dot.run rec ('\n' :: s) k = .none := by
  rw [Re.dot, run_set, if_neg (by decide)]

/-! ### Literals and sets -/

theorem chr_run {rec c s k} : (Re.chr c).run rec (c :: s) k = k s := by
  simp [Re.chr, Re.run]

theorem chr_run_ne {rec c d s k} (h : d ≠ c) : (Re.chr c).run rec (d :: s) k = .none := by
  simp [Re.chr, Re.run, h]

theorem chr_run_nil {rec c k} : (Re.chr c).run rec [] k = .none := rfl

theorem lit_run {rec} (l : List Char) {s k} : (Re.lit l).run rec (l ++ s) k = k s := by
  induction l with
  | nil => rfl
  | cons c l ih =>
    show (Re.seq (Re.chr c) (Re.lit l)).run rec _ k = _
    simp only [Re.run, List.cons_append]
    rw [chr_run]
    exact ih

theorem lit_run_none {rec} (l : List Char) {s k} (h : ¬ l <+: s) :
    (Re.lit l).run rec s k = .none := by
  induction l generalizing s with
  | nil => exact absurd (List.nil_prefix) h
  | cons c l ih =>
    show (Re.seq (Re.chr c) (Re.lit l)).run rec _ k = _
    cases s with
    | nil => simp [Re.run, Re.chr]
    | cons d s =>
      simp only [Re.run]
      by_cases hd : d = c
      · subst hd
        rw [chr_run]
        exact ih (fun hp => h (by simpa [List.cons_prefix_cons] using hp))
      · exact chr_run_ne hd

theorem Stops.nil {p} : Stops p [] := by intro c cs h; simp at h
theorem Stops.cons {p c cs} (h : p c = false) : Stops p (c :: cs) := by
  intro d ds h'
  obtain ⟨rfl, rfl⟩ := List.cons.inj h'
  exact h

theorem starLoop_set {rec p s k} (hs : Stops p s) : ∀ (a : List Char) (n : Nat), a.length ≤ n →
    (∀ c ∈ a, p c = true) → (k s).isSome = true → starLoop ((Re.set p).run rec) n (a ++ s) k = k s := by
  intro a
  induction a with
  | nil =>
    intro n _ _ hk
    cases n with
    | zero => rfl
    | succ n =>
      unfold starLoop
      have : (Re.set p).run rec s (fun s' => if s'.length < s.length then
          starLoop ((Re.set p).run rec) n s' k else k s') = .none := by
        cases s with
        | nil => rfl
        | cons c cs => simp [Re.run, hs c cs rfl]
      rw [List.nil_append, this]; rfl
  | cons c a ih =>
    intro n hn ha hk
    cases n with
    | zero => simp at hn
    | succ n =>
      unfold starLoop
      have : (Re.set p).run rec (c :: a ++ s) (fun s' => if s'.length < (c :: a ++ s).length then
          starLoop ((Re.set p).run rec) n s' k else k s') = k s := by
        simp only [List.cons_append, Re.run, ha c (by simp), if_true]
        rw [if_pos (by simp)]
        exact ih n (by simpa using hn) (fun d hd => ha d (by simp [hd])) hk
      rw [this, orElse_left hk]

theorem star_set {rec p a s k} (hs : Stops p s) (ha : ∀ c ∈ a, p c = true)
    (hk : (k s).isSome = true) : (Re.star (.set p)).run rec (a ++ s) k = k s := by
  show starLoop ((Re.set p).run rec) _ (a ++ s) k = k s
  exact starLoop_set hs a _ (by simp) ha hk

theorem plus_set {rec p a s k} (hs : Stops p s) (hne : a ≠ []) (ha : ∀ c ∈ a, p c = true)
    (hk : (k s).isSome = true) : (Re.plus (.set p)).run rec (a ++ s) k = k s := by
  cases a with
  | nil => exact absurd rfl hne
  | cons c a =>
    show (Re.seq (.set p) (.star (.set p))).run rec _ k = _
    have h1 : ∀ (s : List Char) k, (Re.seq (.set p) (.star (.set p))).run rec s k =
        (Re.set p).run rec s (fun s' => (Re.star (.set p)).run rec s' k) := fun _ _ => rfl
    rw [h1, List.cons_append]
    have h2 : ∀ (s : List Char) k, (Re.set p).run rec (c :: s) k = if p c then k s else .none :=
      fun _ _ => rfl
    rw [h2, if_pos (ha c (by simp))]
    exact star_set hs (fun d hd => ha d (by simp [hd])) hk

/-- stars never fail when the continuation accepts -/
theorem starLoop_isSome {m : Matcher} {s k} (n : Nat) (hk : (k s).isSome = true) :
    (starLoop m n s k).isSome = true := by
  cases n with
  | zero => exact hk
  | succ n => unfold starLoop; rw [orElse_isSome, hk, Bool.or_true]

/-- a star of characters finds a position where the continuation accepts -/
theorem starLoop_set_isSome {rec p k} : ∀ (a s : List Char) (n : Nat), a.length ≤ n →
    (∀ c ∈ a, p c = true) → (k s).isSome = true →
    (starLoop ((Re.set p).run rec) n (a ++ s) k).isSome = true := by
  intro a
  induction a with
  | nil => intro s n _ _ hk; exact starLoop_isSome n hk
  | cons c a ih =>
    intro s n hn ha hk
    cases n with
    | zero => simp at hn
    | succ n =>
      unfold starLoop
      rw [orElse_isSome]
      have : (Re.set p).run rec (c :: a ++ s) (fun s' => if s'.length < (c :: a ++ s).length then
          starLoop ((Re.set p).run rec) n s' k else k s') =
          starLoop ((Re.set p).run rec) n (a ++ s) k := by
        simp only [List.cons_append, Re.run, ha c (by simp), if_true]
        rw [if_pos (by simp)]
      rw [this, ih s n (by simpa using hn) (fun d hd => ha d (by simp [hd])) hk]
      rfl

/-! ### Refusal by the first character -/

mutual
/-- the expression fails on every text that starts with `c` (is empty, for `none`) -/
def Re.refuses : Re → Option Char → Bool
  | .eps, _ => false
  | .set p, c => match c with | .none => true | some c => !p c
  | .seq a b, c => a.refuses c || (a.idle c && b.refuses c)
  | .alt a b, c => a.refuses c && b.refuses c
  | .star _, _ => false
  | .lazyStar _, _ => false
  | .possStar _, _ => false
  | .look r, c => r.refuses c
  | .nlook _, _ => false
  | .recur, _ => false
/-- the expression consumes nothing of a text that starts with `c` (is empty, for `none`) -/
def Re.idle : Re → Option Char → Bool
  | .eps, _ => true
  | .set p, c => match c with | .none => true | some c => !p c
  | .seq a b, c => a.refuses c || (a.idle c && b.idle c)
  | .alt a b, c => a.idle c && b.idle c
  | .star r, c => r.refuses c
  | .lazyStar r, c => r.refuses c
  | .possStar r, c => r.refuses c
  | .look _, _ => true
  | .nlook _, _ => true
  | .recur, _ => false
end

theorem Re.refuses_idle (rec : Matcher) (s : List Char) : ∀ r : Re,
    (r.refuses s.head? = true → ∀ k, r.run rec s k = .none) ∧
    (r.idle s.head? = true → ∀ k, r.run rec s k = .none ∨ r.run rec s k = k s) := by
  intro r
  induction r with
  | eps => exact ⟨by simp [Re.refuses], fun _ k => .inr rfl⟩
  | set p =>
    have : ∀ k, (match s.head? with | .none => true | some c => !p c) = true →
        (Re.set p).run rec s k = .none := by
      intro k h
      cases s with
      | nil => rfl
      | cons c cs => simp at h; simp [Re.run, h]
    exact ⟨fun h k => this k (by simpa only [Re.refuses] using h),
      fun h k => .inl (this k (by simpa only [Re.idle] using h))⟩
  | seq a b iha ihb =>
    refine ⟨fun h k => ?_, fun h k => ?_⟩
    · simp only [Re.refuses, Bool.or_eq_true, Bool.and_eq_true] at h
      simp only [Re.run]
      rcases h with h | ⟨h1, h2⟩
      · exact iha.1 h _
      · rcases iha.2 h1 (fun s' => b.run rec s' k) with h | h
        · exact h
        · rw [h]; exact ihb.1 h2 k
    · simp only [Re.idle, Bool.or_eq_true, Bool.and_eq_true] at h
      simp only [Re.run]
      rcases h with h | ⟨h1, h2⟩
      · exact .inl (iha.1 h _)
      · rcases iha.2 h1 (fun s' => b.run rec s' k) with h | h
        · exact .inl h
        · rw [h]; exact ihb.2 h2 k
  | alt a b iha ihb =>
    refine ⟨fun h k => ?_, fun h k => ?_⟩
    · simp only [Re.refuses, Bool.and_eq_true] at h
      simp only [Re.run]
      rw [iha.1 h.1 k, orElse_none, ihb.1 h.2 k]
    · simp only [Re.idle, Bool.and_eq_true] at h
      simp only [Re.run]
      rcases iha.2 h.1 k with h1 | h1 <;> rw [h1]
      · rw [orElse_none]; exact ihb.2 h.2 k
      · cases hk : k s with
        | none => rw [orElse_none]; rcases ihb.2 h.2 k with h | h <;> simp [h, hk]
        | some o => exact .inr rfl
  | star r ih =>
    refine ⟨by simp [Re.refuses], fun h k => .inr ?_⟩
    simp only [Re.idle] at h
    simp only [Re.run]
    cases s.length with
    | zero => rfl
    | succ n => unfold starLoop; rw [ih.1 h, orElse_none]
  | lazyStar r ih =>
    refine ⟨by simp [Re.refuses], fun h k => .inr ?_⟩
    simp only [Re.idle] at h
    simp only [Re.run]
    cases s.length with
    | zero => rfl
    | succ n => unfold lazyLoop; rw [ih.1 h]; cases k s <;> rfl
  | possStar r ih =>
    refine ⟨by simp [Re.refuses], fun h k => .inr ?_⟩
    simp only [Re.idle] at h
    simp only [Re.run]
    have : starLoop (r.run rec) s.length s some = some s := by
      cases s.length with
      | zero => rfl
      | succ n => unfold starLoop; rw [ih.1 h, orElse_none]
    rw [this]
  | look r ih =>
    refine ⟨fun h k => ?_, fun _ k => ?_⟩
    · simp only [Re.refuses] at h
      simp [Re.run, ih.1 h]
    · simp only [Re.run]; split <;> simp
  | nlook r ih =>
    refine ⟨by simp [Re.refuses], fun _ k => ?_⟩
    simp only [Re.run]; split <;> simp
  | recur => exact ⟨by simp [Re.refuses], by simp [Re.idle]⟩

theorem Re.refuses_run {r : Re} {rec s k} (h : r.refuses s.head? = true) : r.run rec s k = .none :=
  (Re.refuses_idle rec s r).1 h k

end Pycep
