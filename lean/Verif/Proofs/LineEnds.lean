import Verif.Spec.LineEnds
import Verif.Proofs.LexStrings
/-
Matching a text and matching the same text with Unix line ends: every terminal of the grammar
matches both or neither, and leaves corresponding rests.
-/
namespace Pycep

/-! ### The Unix form of a text -/

/-- the text starts with a Windows line end -/
def AtCrLf : List Char → Prop
  | '\r' :: '\n' :: _ => True
  | _ => False

theorem atCrLf_cons {c : Char} {s : List Char} : AtCrLf (c :: s) ↔ c = '\r' ∧ s.head? = some '\n' := by
  constructor
  · intro h
    unfold AtCrLf at h
    split at h
    · rename_i h'; simp at h'; simp [h']
    · exact h.elim
  · rintro ⟨rfl, h⟩
    cases s with
    | nil => simp at h
    | cons d s => simp at h; subst h; trivial

theorem AtCrLf.inv {s : List Char} (h : AtCrLf s) : ∃ x, s = '\r' :: '\n' :: x := by
  unfold AtCrLf at h
  split at h
  · exact ⟨_, rfl⟩
  · exact h.elim

theorem unix_nil : unix [] = [] := rfl
theorem unix_crlf {x : List Char} : unix ('\r' :: '\n' :: x) = '\n' :: unix x := by
  simp [unix]
theorem unix_lf {x : List Char} : unix ('\n' :: x) = '\n' :: unix x := by
  simp [unix]
theorem unix_cons {c : Char} {s : List Char} (h : ¬ AtCrLf (c :: s)) : unix (c :: s) = c :: unix s := by
  rw [atCrLf_cons] at h
  rw [unix, if_neg h]
theorem unix_ne {c : Char} {s : List Char} (h : c ≠ '\r') : unix (c :: s) = c :: unix s :=
  unix_cons (by rw [atCrLf_cons]; tauto)

theorem unix_eq_nil {s : List Char} (h : unix s = []) : s = [] := by
  cases s with
  | nil => rfl
  | cons c s =>
    by_cases hc : AtCrLf (c :: s)
    · obtain ⟨x, e⟩ := hc.inv
      rw [e, unix_crlf] at h; simp at h
    · rw [unix_cons hc] at h; simp at h

theorem unix_length_le : ∀ s : List Char, (unix s).length ≤ s.length
  | [] => by simp [unix]
  | c :: s => by
    have := unix_length_le s
    rw [unix]; split <;> simp <;> omega

theorem unix_tail_le (c : Char) (s : List Char) : (unix s).length ≤ (unix (c :: s)).length := by
  rw [unix]; split <;> simp

theorem unix_suffix_le {r s : List Char} (h : r <:+ s) : (unix r).length ≤ (unix s).length := by
  obtain ⟨p, rfl⟩ := h
  induction p with
  | nil => exact Nat.le_refl _
  | cons c p ih => exact Nat.le_trans ih (unix_tail_le _ _)

/-- unless the text starts with a Windows line end, consuming something is consuming something in
the Unix form -/
theorem unix_shorter {r s : List Char} (h : r <:+ s) (hs : ¬ AtCrLf s) :
    (unix r).length < (unix s).length ↔ r.length < s.length := by
  constructor
  · intro hl
    by_contra hn
    have : r = s := h.eq_of_length_le (by omega)
    rw [this] at hl
    omega
  · intro hl
    cases s with
    | nil => simp at hl
    | cons c s =>
      rcases List.suffix_cons_iff.mp h with rfl | h
      · omega
      · rw [unix_cons hs]
        have := unix_suffix_le h
        simp; omega

/-! ### Corresponding matchers -/

/-- corresponding answers -/
def Rl (a b : Option (List Char)) : Prop := b = a.map unix

theorem Rl.none : Rl .none .none := rfl
theorem Rl.some {x} : Rl (some x) (some (unix x)) := rfl
theorem Rl.isSome {a b} (h : Rl a b) : b.isSome = a.isSome := by
  rw [h]; cases a <;> rfl
theorem Rl.none_of {b} (h : Rl .none b) : b = .none := h
theorem Rl.none_of' {a} (h : Rl a .none) : a = .none := by
  cases a with
  | none => rfl
  | some x => simp [Rl] at h

theorem Rl.orElse {a a' : Option (List Char)} {b b' : Unit → Option (List Char)} (h : Rl a a')
    (h2 : Rl (b ()) (b' ())) : Rl (orElse a b) (Pycep.orElse a' b') := by
  rw [h]
  cases a with
  | none => exact h2
  | some x => rfl

theorem NoCrCrLf.suffix {r s : List Char} (h : NoCrCrLf s) (hr : r <:+ s) : NoCrCrLf r :=
  fun hi => h (hi.trans hr.isInfix)

/-- continuations that correspond on the rests of `s` (`s` has no `\r\r\n`) -/
structure Conts (s : List Char) (k k' : Cont) : Prop where
  fine : NoCrCrLf s
  rel : ∀ r, r <:+ s → Rl (k r) (k' (unix r))

theorem Conts.mono {s r k k'} (h : Conts s k k') (hr : r <:+ s) : Conts r k k' :=
  ⟨h.fine.suffix hr, fun _ hx => h.rel _ (hx.trans hr)⟩
theorem Conts.tail {c s k k'} (h : Conts (c :: s) k k') : Conts s k k' := h.mono (List.suffix_cons _ _)
theorem Conts.self {s k k'} (h : Conts s k k') : Rl (k s) (k' (unix s)) := h.rel _ (List.suffix_refl _)
theorem Conts.some {s} (h : NoCrCrLf s) : Conts s some some := ⟨h, fun _ _ => rfl⟩

/-- matchers that correspond at `s`, whatever follows -/
def SimAt (m m' : Matcher) (s : List Char) : Prop :=
  ∀ k k', Conts s k k' → Rl (m s k) (m' (unix s) k')

/-- a continuation that never fails -/
def Total (k : Cont) : Prop := ∀ r, (k r).isSome = true

/-- matchers that correspond at `s` if what follows never fails -/
def SimT (m m' : Matcher) (s : List Char) : Prop :=
  ∀ k k', Total k → Total k' → Conts s k k' → Rl (m s k) (m' (unix s) k')

theorem SimAt.total {m m' s} (h : SimAt m m' s) : SimT m m' s := fun k k' _ _ hk => h k k' hk

/-- the body of a loop: what it may do at `s` -/
structure Body (b b' : Matcher) (s : List Char) : Prop where
  nil : s = [] → (∀ k, b [] k = .none) ∧ (∀ k, b' [] k = .none)
  plain : ¬ AtCrLf s → SimAt b b' s
  crlf : ∀ x, s = '\r' :: '\n' :: x →
    (∀ k, b s k = k ('\n' :: x)) ∨
    (∀ k, b s k = .none) ∧ (∀ k, b' (unix s) k = .none) ∨
    (∀ k, b s k = k x) ∧ (∀ k, b' (unix s) k = k (unix x))

theorem starLoop_nil {b : Matcher} (h : ∀ k, b [] k = .none) (n : Nat) (k : Cont) : starLoop b n [] k = k [] := by
  cases n with
  | zero => rfl
  | succ n => unfold starLoop; rw [h]; rfl

theorem lazyLoop_nil {b : Matcher} (h : ∀ k, b [] k = .none) (n : Nat) (k : Cont) : lazyLoop b n [] k = k [] := by
  cases n with
  | zero => rfl
  | succ n =>
    unfold lazyLoop; rw [h]
    cases k [] <;> rfl

theorem starLoop_none {b : Matcher} {n : Nat} {s : List Char} {k : Cont} (h : starLoop b n s k = .none) : k s = .none := by
  cases hk : k s with
  | none => rfl
  | some y =>
    have := starLoop_isSome (m := b) n (s := s) (k := k) (by rw [hk]; rfl)
    rw [h] at this; simp at this

theorem lazyLoop_none {b : Matcher} {n : Nat} {s : List Char} {k : Cont} (h : lazyLoop b n s k = .none) : k s = .none := by
  cases n with
  | zero => exact h
  | succ n =>
    unfold lazyLoop at h
    cases hk : k s with
    | none => rfl
    | some y => rw [hk] at h; simp [orElse] at h

theorem starLoop_sim {b b' : Matcher} : ∀ (L : Nat) (s : List Char), s.length ≤ L →
    (∀ r, r <:+ s → Body b b' r) → ∀ n n', s.length ≤ n → (unix s).length ≤ n' →
    SimAt (starLoop b n) (starLoop b' n') s := by
  intro L
  induction L with
  | zero =>
    intro s hs hb n n' _ _ k k' hk
    have : s = [] := List.length_eq_zero_iff.mp (by omega)
    subst this
    obtain ⟨h1, h2⟩ := (hb [] (List.suffix_refl _)).nil rfl
    rw [unix_nil, starLoop_nil h1, starLoop_nil h2]
    exact hk.self
  | succ L ih =>
    intro s hs hb n n' hn hn' k k' hk
    by_cases hL : s.length ≤ L
    · exact ih s hL hb n n' hn hn' k k' hk
    have hne : s ≠ [] := by rintro rfl; simp at hL
    have hune : unix s ≠ [] := fun h => hne (unix_eq_nil h)
    have hpos := List.length_pos_iff.mpr hne
    have hpos' := List.length_pos_iff.mpr hune
    obtain ⟨n, rfl⟩ : ∃ m, n = m + 1 := ⟨n - 1, by omega⟩
    obtain ⟨n', rfl⟩ : ∃ m, n' = m + 1 := ⟨n' - 1, by omega⟩
    have hB := hb s (List.suffix_refl _)
    by_cases hc : AtCrLf s
    · obtain ⟨x, rfl⟩ := hc.inv
      have hsuf1 : '\n' :: x <:+ '\r' :: '\n' :: x := List.suffix_cons _ _
      have hsuf2 : x <:+ '\r' :: '\n' :: x := (List.suffix_cons _ _).trans hsuf1
      simp only [List.length_cons] at hs hn
      rcases hB.crlf x rfl with h | ⟨h, h'⟩ | ⟨h, h'⟩
      · have i := ih ('\n' :: x) (by simp; omega) (fun r hr => hb r (hr.trans hsuf1)) n (n' + 1)
          (by simp; omega) (by rw [unix_lf]; rw [unix_crlf] at hn'; exact hn') k k' (hk.mono hsuf1)
        rw [unix_lf] at i
        have e : starLoop b (n + 1) ('\r' :: '\n' :: x) k =
            orElse (starLoop b n ('\n' :: x) k) (fun _ => k ('\r' :: '\n' :: x)) := by
          conv => lhs; unfold starLoop
          rw [h, if_pos (by simp)]
        rw [e, unix_crlf]
        cases hv : starLoop b n ('\n' :: x) k with
        | some y => rw [hv] at i; rw [i]; rfl
        | none =>
          rw [hv] at i
          have := i.none_of
          rw [this]
          have := starLoop_none this
          have hs := hk.self
          rw [unix_crlf, this] at hs
          rw [orElse_none, hs.none_of']
          rfl
      · have e : starLoop b (n + 1) ('\r' :: '\n' :: x) k = k ('\r' :: '\n' :: x) := by
          unfold starLoop; rw [h]; rfl
        have e' : starLoop b' (n' + 1) (unix ('\r' :: '\n' :: x)) k' = k' (unix ('\r' :: '\n' :: x)) := by
          unfold starLoop; rw [h']; rfl
        rw [e, e']
        exact hk.self
      · unfold starLoop
        rw [h, h', if_pos (by simp; omega), if_pos (by rw [unix_crlf]; simp)]
        refine Rl.orElse ?_ hk.self
        refine ih x (by omega) (fun r hr => hb r (hr.trans hsuf2)) n n' (by omega) ?_ k k' (hk.mono hsuf2)
        rw [unix_crlf] at hn'; simp at hn'; omega
    · unfold starLoop
      refine Rl.orElse (hB.plain hc _ _ ⟨hk.fine, fun r hr => ?_⟩) hk.self
      by_cases hl : r.length < s.length
      · have hl' := (unix_shorter hr hc).mpr hl
        simp only [if_pos hl, if_pos hl']
        exact ih r (by omega) (fun q hq => hb q (hq.trans hr)) n n' (by omega) (by omega) k k' (hk.mono hr)
      · have hl' : ¬ (unix r).length < (unix s).length := fun h => hl ((unix_shorter hr hc).mp h)
        simp only [if_neg hl, if_neg hl']
        exact hk.rel r hr

theorem lazyLoop_sim {b b' : Matcher} : ∀ (L : Nat) (s : List Char), s.length ≤ L →
    (∀ r, r <:+ s → Body b b' r) → ∀ n n', s.length ≤ n → (unix s).length ≤ n' →
    SimAt (lazyLoop b n) (lazyLoop b' n') s := by
  intro L
  induction L with
  | zero =>
    intro s hs hb n n' _ _ k k' hk
    have : s = [] := List.length_eq_zero_iff.mp (by omega)
    subst this
    obtain ⟨h1, h2⟩ := (hb [] (List.suffix_refl _)).nil rfl
    rw [unix_nil, lazyLoop_nil h1, lazyLoop_nil h2]
    exact hk.self
  | succ L ih =>
    intro s hs hb n n' hn hn' k k' hk
    by_cases hL : s.length ≤ L
    · exact ih s hL hb n n' hn hn' k k' hk
    have hne : s ≠ [] := by rintro rfl; simp at hL
    have hune : unix s ≠ [] := fun h => hne (unix_eq_nil h)
    have hpos := List.length_pos_iff.mpr hne
    have hpos' := List.length_pos_iff.mpr hune
    obtain ⟨n, rfl⟩ : ∃ m, n = m + 1 := ⟨n - 1, by omega⟩
    obtain ⟨n', rfl⟩ : ∃ m, n' = m + 1 := ⟨n' - 1, by omega⟩
    have hB := hb s (List.suffix_refl _)
    by_cases hc : AtCrLf s
    · obtain ⟨x, rfl⟩ := hc.inv
      have hsuf1 : '\n' :: x <:+ '\r' :: '\n' :: x := List.suffix_cons _ _
      have hsuf2 : x <:+ '\r' :: '\n' :: x := (List.suffix_cons _ _).trans hsuf1
      simp only [List.length_cons] at hs hn
      rcases hB.crlf x rfl with h | ⟨h, h'⟩ | ⟨h, h'⟩
      · have i := ih ('\n' :: x) (by simp; omega) (fun r hr => hb r (hr.trans hsuf1)) n (n' + 1)
          (by simp; omega) (by rw [unix_lf]; rw [unix_crlf] at hn'; exact hn') k k' (hk.mono hsuf1)
        rw [unix_lf] at i
        have e : lazyLoop b (n + 1) ('\r' :: '\n' :: x) k =
            orElse (k ('\r' :: '\n' :: x)) (fun _ => lazyLoop b n ('\n' :: x) k) := by
          conv => lhs; unfold lazyLoop
          rw [h, if_pos (by simp)]
        have hs := hk.self
        rw [unix_crlf] at hs
        rw [e, unix_crlf]
        cases hv : k ('\r' :: '\n' :: x) with
        | some y =>
          rw [hv] at hs
          unfold lazyLoop
          rw [hs]; rfl
        | none => exact i
      · have e : lazyLoop b (n + 1) ('\r' :: '\n' :: x) k = k ('\r' :: '\n' :: x) := by
          unfold lazyLoop; rw [h]; cases k ('\r' :: '\n' :: x) <;> rfl
        have e' : lazyLoop b' (n' + 1) (unix ('\r' :: '\n' :: x)) k' = k' (unix ('\r' :: '\n' :: x)) := by
          unfold lazyLoop; rw [h']; cases k' (unix ('\r' :: '\n' :: x)) <;> rfl
        rw [e, e']
        exact hk.self
      · unfold lazyLoop
        rw [h, h', if_pos (by simp; omega), if_pos (by rw [unix_crlf]; simp)]
        refine Rl.orElse hk.self ?_
        refine ih x (by omega) (fun r hr => hb r (hr.trans hsuf2)) n n' (by omega) ?_ k k' (hk.mono hsuf2)
        rw [unix_crlf] at hn'; simp at hn'; omega
    · unfold lazyLoop
      refine Rl.orElse hk.self (hB.plain hc _ _ ⟨hk.fine, fun r hr => ?_⟩)
      by_cases hl : r.length < s.length
      · have hl' := (unix_shorter hr hc).mpr hl
        simp only [if_pos hl, if_pos hl']
        exact ih r (by omega) (fun q hq => hb q (hq.trans hr)) n n' (by omega) (by omega) k k' (hk.mono hr)
      · have hl' : ¬ (unix r).length < (unix s).length := fun h => hl ((unix_shorter hr hc).mp h)
        simp only [if_neg hl, if_neg hl']
        exact hk.rel r hr

/-! ### Regular expressions that do not look at line ends -/

variable {rec rec' : Matcher}

theorem sim_seq {a b : Re} {s : List Char} (ha : SimAt (a.run rec) (a.run rec') s)
    (hb : ∀ r, r <:+ s → SimAt (b.run rec) (b.run rec') r) :
    SimAt ((Re.seq a b).run rec) ((Re.seq a b).run rec') s := by
  intro k k' hk
  rw [run_seq, run_seq]
  exact ha _ _ ⟨hk.fine, fun r hr => hb r hr k k' (hk.mono hr)⟩

theorem sim_alt {a b : Re} {s : List Char} (ha : SimAt (a.run rec) (a.run rec') s)
    (hb : SimAt (b.run rec) (b.run rec') s) :
    SimAt ((Re.alt a b).run rec) ((Re.alt a b).run rec') s := by
  intro k k' hk
  rw [run_alt, run_alt]
  exact Rl.orElse (ha k k' hk) (hb k k' hk)

theorem sim_eps {s : List Char} : SimAt (Re.eps.run rec) (Re.eps.run rec') s := fun _ _ hk => hk.self

theorem sim_look {r : Re} {s : List Char} (h : SimAt (r.run rec) (r.run rec') s) :
    SimAt ((Re.look r).run rec) ((Re.look r).run rec') s := by
  intro k k' hk
  have := (h _ _ (Conts.some hk.fine)).isSome
  show Rl (if (r.run rec s some).isSome then k s else .none)
    (if (r.run rec' (unix s) some).isSome then k' (unix s) else .none)
  rw [this]
  split
  · exact hk.self
  · exact .none

theorem sim_nlook {r : Re} {s : List Char} (h : SimAt (r.run rec) (r.run rec') s) :
    SimAt ((Re.nlook r).run rec) ((Re.nlook r).run rec') s := by
  intro k k' hk
  have := (h _ _ (Conts.some hk.fine)).isSome
  show Rl (if (r.run rec s some).isSome then .none else k s)
    (if (r.run rec' (unix s) some).isSome then .none else k' (unix s))
  rw [this]
  split
  · exact .none
  · exact hk.self

theorem sim_star {r : Re} {s : List Char} (h : ∀ q, q <:+ s → Body (r.run rec) (r.run rec') q) :
    SimAt ((Re.star r).run rec) ((Re.star r).run rec') s := by
  intro k k' hk
  rw [run_star, run_star]
  exact starLoop_sim _ s (Nat.le_refl _) h _ _ (Nat.le_refl _) (Nat.le_refl _) k k' hk

theorem sim_lazyStar {r : Re} {s : List Char} (h : ∀ q, q <:+ s → Body (r.run rec) (r.run rec') q) :
    SimAt ((Re.lazyStar r).run rec) ((Re.lazyStar r).run rec') s := by
  intro k k' hk
  exact lazyLoop_sim _ s (Nat.le_refl _) h _ _ (Nat.le_refl _) (Nat.le_refl _) k k' hk

/-- away from a Windows line end a character class does the same -/
theorem sim_set_at {p : Char → Bool} {s : List Char} (hs : ¬ AtCrLf s) :
    SimAt ((Re.set p).run rec) ((Re.set p).run rec') s := by
  intro k k' hk
  cases s with
  | nil => exact .none
  | cons c s =>
    rw [unix_cons hs, run_set, run_set]
    split
    · exact hk.tail.self
    · exact .none

theorem sim_set {p : Char → Bool} (hr : p '\r' = false) (hn : p '\n' = false) (s : List Char) :
    SimAt ((Re.set p).run rec) ((Re.set p).run rec') s := by
  by_cases hs : AtCrLf s
  · intro k k' _
    obtain ⟨x, rfl⟩ := hs.inv
    rw [unix_crlf, run_set, run_set, hr, hn]
    exact .none
  · exact sim_set_at hs

theorem sim_chr {c : Char} (hr : c ≠ '\r') (hn : c ≠ '\n') (s : List Char) :
    SimAt ((Re.chr c).run rec) ((Re.chr c).run rec') s :=
  sim_set (by simpa using hr.symm) (by simpa using hn.symm) s

theorem sim_lit : ∀ (l : List Char), (∀ c ∈ l, c ≠ '\r' ∧ c ≠ '\n') → ∀ s : List Char,
    SimAt ((Re.lit l).run rec) ((Re.lit l).run rec') s
  | [], _, _ => sim_eps
  | c :: l, h, s => sim_seq (a := .chr c) (b := .lit l) (sim_chr (h c (by simp)).1 (h c (by simp)).2 s)
      fun r _ => sim_lit l (fun d hd => h d (by simp [hd])) r

/-- a class without `\r` and `\n`, repeated -/
theorem body_plain {p : Char → Bool} (hr : p '\r' = false) (hn : p '\n' = false) (s : List Char) :
    Body ((Re.set p).run rec) ((Re.set p).run rec') s where
  nil _ := ⟨fun _ => rfl, fun _ => rfl⟩
  plain _ := sim_set hr hn s
  crlf x e := by
    subst e
    refine .inr (.inl ⟨fun k => ?_, fun k => ?_⟩)
    · rw [run_set, hr]; rfl
    · rw [unix_crlf, run_set, hn]; rfl

/-- a class with `\r`, repeated -/
theorem body_half {p : Char → Bool} (hr : p '\r' = true) (s : List Char) :
    Body ((Re.set p).run rec) ((Re.set p).run rec') s where
  nil _ := ⟨fun _ => rfl, fun _ => rfl⟩
  plain h := sim_set_at h
  crlf x e := by
    subst e
    exact .inl fun k => by rw [run_set, hr]; rfl

theorem sim_starSet {p : Char → Bool} (hr : p '\r' = false) (hn : p '\n' = false) (s : List Char) :
    SimAt ((Re.star (.set p)).run rec) ((Re.star (.set p)).run rec') s :=
  sim_star fun q _ => body_plain hr hn q

theorem sim_starHalf {p : Char → Bool} (hr : p '\r' = true) (s : List Char) :
    SimAt ((Re.star (.set p)).run rec) ((Re.star (.set p)).run rec') s :=
  sim_star fun q _ => body_half hr q

theorem sim_plusSet {p : Char → Bool} (hr : p '\r' = false) (hn : p '\n' = false) (s : List Char) :
    SimAt ((Re.plus (.set p)).run rec) ((Re.plus (.set p)).run rec') s :=
  sim_seq (sim_set hr hn s) fun r _ => sim_starSet hr hn r

/-! ### The terminals, except the strings with interpolation and the multi-line strings -/

theorem isAsciiAlpha_breaks : isAsciiAlpha '\r' = false ∧ isAsciiAlpha '\n' = false := by decide
theorem isAsciiAlnum_breaks : isAsciiAlnum '\r' = false ∧ isAsciiAlnum '\n' = false := by decide
theorem isAsciiDigit_breaks : isAsciiDigit '\r' = false ∧ isAsciiDigit '\n' = false := by decide
theorem isWord_breaks : isWord '\r' = false ∧ isWord '\n' = false := by decide

theorem sim_prefix (s : List Char) : SimAt
    ((Re.seq (.alt (Re.lit ['s', 'y', 's']) (Re.lit ['a', 'z'])) (Re.chr '.')).run rec)
    ((Re.seq (.alt (Re.lit ['s', 'y', 's']) (Re.lit ['a', 'z'])) (Re.chr '.')).run rec') s :=
  sim_seq (sim_alt (sim_lit _ (by decide) s) (sim_lit _ (by decide) s))
    fun r _ => sim_chr (by decide) (by decide) r

theorem sim_FUNCTION (s : List Char) :
    SimAt (Terminals.FUNCTION.run rec) (Terminals.FUNCTION.run rec') s :=
  sim_seq (sim_alt (sim_prefix s) sim_eps) fun r _ =>
    sim_seq (sim_plusSet isAsciiAlnum_breaks.1 isAsciiAlnum_breaks.2 r) fun q _ =>
      sim_chr (by decide) (by decide) q

theorem sim_LIST_FUNC_NAME (s : List Char) :
    SimAt (Terminals.LIST_FUNC_NAME.run rec) (Terminals.LIST_FUNC_NAME.run rec') s :=
  sim_seq (sim_look (sim_seq
    (sim_alt (sim_seq (sim_set (by decide) (by decide) s) fun r _ =>
      sim_seq (sim_lit _ (by decide) r) fun q _ => sim_starSet (by decide) (by decide) q)
      (sim_lit _ (by decide) s)) fun r _ => sim_chr (by decide) (by decide) r))
    fun r _ => sim_plusSet isAsciiAlpha_breaks.1 isAsciiAlpha_breaks.2 r

theorem sim_STRING (s : List Char) :
    SimAt (Terminals.STRING.run rec) (Terminals.STRING.run rec') s :=
  sim_seq (sim_nlook (sim_prefix s)) fun r _ =>
    sim_seq (sim_set (by decide) (by decide) r) fun q _ => sim_starSet isWord_breaks.1 isWord_breaks.2 q

theorem sim_QUOTED_STRING (s : List Char) :
    SimAt (Terminals.QUOTED_STRING.run rec) (Terminals.QUOTED_STRING.run rec') s :=
  sim_seq (sim_chr (by decide) (by decide) s) fun r _ =>
    sim_seq (sim_set (by decide) (by decide) r) fun q _ =>
      sim_seq (sim_starSet (by decide) (by decide) q) fun q _ => sim_chr (by decide) (by decide) q

/-- one line end -/
theorem body_newline (s : List Char) :
    Body ((Re.seq (Re.opt (Re.chr '\r')) (Re.chr '\n')).run rec)
      ((Re.seq (Re.opt (Re.chr '\r')) (Re.chr '\n')).run rec') s := by
  have hlf : ∀ (rec : Matcher) (x : List Char) k,
      (Re.seq (Re.opt (Re.chr '\r')) (Re.chr '\n')).run rec ('\n' :: x) k = k x := by
    intro rec x k
    rw [run_seq, Re.opt, run_alt, chr_run_ne (by decide), orElse_none]
    show (Re.chr '\n').run rec ('\n' :: x) k = k x
    exact chr_run
  have hcrlf : ∀ (rec : Matcher) (x : List Char) k,
      (Re.seq (Re.opt (Re.chr '\r')) (Re.chr '\n')).run rec ('\r' :: '\n' :: x) k = k x := by
    intro rec x k
    rw [run_seq, Re.opt, run_alt, chr_run, chr_run]
    cases h : k x with
    | some y => rfl
    | none =>
      rw [orElse_none]
      exact chr_run_ne (rec := rec) (s := '\n' :: x) (k := k) (c := '\n') (d := '\r') (by decide)
  have hcr : ∀ (rec : Matcher) (x : List Char) k, x.head? ≠ some '\n' →
      (Re.seq (Re.opt (Re.chr '\r')) (Re.chr '\n')).run rec ('\r' :: x) k = .none := by
    intro rec x k hx
    rw [run_seq, Re.opt, run_alt, chr_run]
    have : (Re.chr '\n').run rec x k = .none := by
      cases x with
      | nil => rfl
      | cons d x => exact chr_run_ne (by simpa using hx)
    rw [this, orElse_none]
    exact chr_run_ne (rec := rec) (s := x) (k := k) (c := '\n') (d := '\r') (by decide)
  have hother : ∀ (rec : Matcher) (c : Char) (x : List Char) k, c ≠ '\r' → c ≠ '\n' →
      (Re.seq (Re.opt (Re.chr '\r')) (Re.chr '\n')).run rec (c :: x) k = .none := by
    intro rec c x k h1 h2
    rw [run_seq, Re.opt, run_alt, chr_run_ne h1, orElse_none]
    exact chr_run_ne (rec := rec) h2
  refine ⟨fun _ => ⟨fun _ => rfl, fun _ => rfl⟩, fun hs => ?_, fun x e => ?_⟩
  · intro k k' hk
    cases s with
    | nil => exact .none
    | cons c s =>
      rw [unix_cons hs]
      by_cases h2 : c = '\n'
      · subst h2
        rw [hlf, hlf]; exact hk.tail.self
      · by_cases h1 : c = '\r'
        · subst h1
          have h3 : s.head? ≠ some '\n' := fun h => hs (atCrLf_cons.mpr ⟨rfl, h⟩)
          have h4 : (unix s).head? ≠ some '\n' := by
            cases s with
            | nil => simp [unix]
            | cons d s =>
              by_cases hd : AtCrLf (d :: s)
              · obtain ⟨y, e⟩ := hd.inv
                simp at e
                obtain ⟨rfl, rfl⟩ := e
                exact absurd ⟨[], y, rfl⟩ hk.fine
              · rw [unix_cons hd]; simpa using h3
          rw [hcr _ _ _ h3, hcr _ _ _ h4]; exact .none
        · rw [hother _ _ _ _ h1 h2, hother _ _ _ _ h1 h2]; exact .none
  · subst e
    rw [unix_crlf]
    exact .inr (.inr ⟨hcrlf _ _, hlf _ _⟩)

theorem Body.sim {b b' : Matcher} {s : List Char} (h : Body b b' s)
    (hh : ∀ x, s = '\r' :: '\n' :: x → (∀ k, b s k = .none) ∧ (∀ k, b' (unix s) k = .none) ∨
      (∀ k, b s k = k x) ∧ (∀ k, b' (unix s) k = k (unix x))) : SimAt b b' s := by
  by_cases hs : AtCrLf s
  · obtain ⟨x, rfl⟩ := hs.inv
    intro k k' hk
    rcases hh x rfl with ⟨h1, h2⟩ | ⟨h1, h2⟩
    · rw [h1, h2]; exact .none
    · rw [h1, h2]; exact hk.tail.tail.self
  · exact h.plain hs

theorem sim_newline1 (s : List Char) :
    SimAt ((Re.seq (Re.opt (Re.chr '\r')) (Re.chr '\n')).run rec)
      ((Re.seq (Re.opt (Re.chr '\r')) (Re.chr '\n')).run rec') s := by
  refine (body_newline s).sim fun x e => ?_
  rcases (body_newline (rec := rec) (rec' := rec') s).crlf x e with h | h
  · subst e
    exfalso
    have h1 := h (fun r => some r)
    rcases (body_newline (rec := rec) (rec' := rec') ('\r' :: '\n' :: x)).crlf x rfl with h' | h' | h'
    · have := h' (fun r => if r = x then some [] else .none)
      simp [run_seq, Re.opt, run_alt, chr_run, orElse] at this
    · rw [h'.1] at h1; simp at h1
    · rw [h'.1] at h1; simp at h1
  · exact h

theorem sim_NEWLINE (s : List Char) : SimAt (Terminals.NEWLINE.run rec) (Terminals.NEWLINE.run rec') s :=
  sim_seq (sim_newline1 s) fun _ _ => sim_star fun q _ => body_newline q

theorem sim_CPP_COMMENT (s : List Char) :
    SimAt (Terminals.CPP_COMMENT.run rec) (Terminals.CPP_COMMENT.run rec') s :=
  sim_seq (sim_lit _ (by decide) s) fun r _ => sim_starHalf (by decide) r

theorem sim_CPP_COMMENT_NL (s : List Char) :
    SimAt (Terminals._CPP_COMMENT_NL.run rec) (Terminals._CPP_COMMENT_NL.run rec') s :=
  sim_seq (sim_alt (sim_CPP_COMMENT s) sim_eps) fun r _ => sim_NEWLINE r

theorem sim_SH_COMMENT (s : List Char) :
    SimAt (Terminals.SH_COMMENT.run rec) (Terminals.SH_COMMENT.run rec') s :=
  sim_seq (sim_chr (by decide) (by decide) s) fun r _ => sim_starHalf (by decide) r

/-- `(.|\n)` is any character -/
theorem anyChar_run {rec : Matcher} {s : List Char} {k : Cont} :
    (Re.alt Re.dot (Re.chr '\n')).run rec s k = (Re.set fun _ => true).run rec s k := by
  cases s with
  | nil => rfl
  | cons c s =>
    rw [run_alt, run_set, if_pos rfl]
    by_cases h : c = '\n'
    · subst h; rw [dot_run_nl, orElse_none, chr_run]
    · rw [dot_run h, chr_run_ne h]; cases k s <;> rfl

theorem sim_C_COMMENT (s : List Char) :
    SimAt (Terminals.C_COMMENT.run rec) (Terminals.C_COMMENT.run rec') s := by
  refine sim_seq (sim_lit _ (by decide) s) fun r _ => sim_seq (sim_lazyStar fun q _ => ?_)
    fun q _ => sim_lit _ (by decide) q
  have e : ∀ rec : Matcher, (Re.alt Re.dot (Re.chr '\n')).run rec = (Re.set fun _ => true).run rec :=
    fun rec => by funext s k; exact anyChar_run
  rw [e, e]
  exact body_half rfl q

theorem sim_INT (s : List Char) : SimAt (Terminals.INT.run rec) (Terminals.INT.run rec') s :=
  sim_plusSet isAsciiDigit_breaks.1 isAsciiDigit_breaks.2 s

/-- `(\t|\ )` is one of two characters -/
theorem blank_run {rec : Matcher} {s : List Char} {k : Cont} :
    (Re.alt (Re.chr '\t') (Re.chr ' ')).run rec s k = (Re.set fun c => c == '\t' || c == ' ').run rec s k := by
  cases s with
  | nil => rfl
  | cons c s =>
    rw [run_alt, run_set]
    by_cases h : c = '\t'
    · subst h; rw [chr_run, chr_run_ne (by decide), if_pos (by decide)]; cases k s <;> rfl
    · rw [chr_run_ne h, orElse_none]
      by_cases h2 : c = ' '
      · subst h2; rw [chr_run, if_pos (by decide)]
      · rw [chr_run_ne h2, if_neg (by simp [h, h2])]

theorem sim_WS_INLINE (s : List Char) :
    SimAt (Terminals.WS_INLINE.run rec) (Terminals.WS_INLINE.run rec') s := by
  have e : ∀ rec : Matcher, (Re.alt (Re.chr '\t') (Re.chr ' ')).run rec =
      (Re.set fun c => c == '\t' || c == ' ').run rec := fun rec => by funext s k; exact blank_run
  refine sim_seq ?_ fun r _ => sim_star fun q _ => ?_
  · rw [e, e]; exact sim_set (by decide) (by decide) s
  · rw [e, e]; exact body_plain (by decide) (by decide) q

theorem sim_decoratorName (s : List Char) :
    SimAt (Terminals.decoratorName.run rec) (Terminals.decoratorName.run rec') s :=
  sim_seq (sim_alt (sim_lit _ (by decide) s) sim_eps) fun r _ =>
    sim_plusSet isAsciiAlnum_breaks.1 isAsciiAlnum_breaks.2 r

/-! ### Strings with interpolation -/

/-- what a possessive loop needs of its body -/
structure BodyT (b b' : Matcher) (s : List Char) : Prop where
  nil : s = [] → (∀ k, b [] k = .none) ∧ (∀ k, b' [] k = .none)
  plain : ¬ AtCrLf s → SimT b b' s
  crlf : ∀ x, s = '\r' :: '\n' :: x → ∀ k k', Total k → Total k' → Conts x k k' → Rl (b s k) (b' (unix s) k')

theorem Total.some : Total some := fun _ => rfl

theorem starLoop_total {b : Matcher} {k : Cont} (h : Total k) (n : Nat) : Total (starLoop b n · k) :=
  fun r => starLoop_isSome n (h r)

theorem starLoop_simT {b b' : Matcher} : ∀ (L : Nat) (s : List Char), s.length ≤ L →
    (∀ r, r <:+ s → BodyT b b' r) → ∀ n n', s.length ≤ n → (unix s).length ≤ n' →
    SimT (starLoop b n) (starLoop b' n') s := by
  intro L
  induction L with
  | zero =>
    intro s hs hb n n' _ _ k k' _ _ hk
    have : s = [] := List.length_eq_zero_iff.mp (by omega)
    subst this
    obtain ⟨h1, h2⟩ := (hb [] (List.suffix_refl _)).nil rfl
    rw [unix_nil, starLoop_nil h1, starLoop_nil h2]
    exact hk.self
  | succ L ih =>
    intro s hs hb n n' hn hn' k k' ht ht' hk
    by_cases hL : s.length ≤ L
    · exact ih s hL hb n n' hn hn' k k' ht ht' hk
    have hne : s ≠ [] := by rintro rfl; simp at hL
    have hune : unix s ≠ [] := fun h => hne (unix_eq_nil h)
    have hpos := List.length_pos_iff.mpr hne
    have hpos' := List.length_pos_iff.mpr hune
    obtain ⟨n, rfl⟩ : ∃ m, n = m + 1 := ⟨n - 1, by omega⟩
    obtain ⟨n', rfl⟩ : ∃ m, n' = m + 1 := ⟨n' - 1, by omega⟩
    have hB := hb s (List.suffix_refl _)
    have htot : ∀ (b : Matcher) (n : Nat) (s : List Char) (k : Cont), Total k →
        Total (fun r => if r.length < s.length then starLoop b n r k else k r) := by
      intro b n s k hk r
      show (if r.length < s.length then starLoop b n r k else k r).isSome = true
      split
      · exact starLoop_total hk n r
      · exact hk r
    by_cases hc : AtCrLf s
    · obtain ⟨x, rfl⟩ := hc.inv
      have hsuf2 : x <:+ '\r' :: '\n' :: x := (List.suffix_cons _ _).trans (List.suffix_cons _ _)
      unfold starLoop
      refine Rl.orElse (hB.crlf x rfl _ _ (htot _ _ _ _ ht) (htot _ _ _ _ ht')
        ⟨hk.fine.suffix hsuf2, fun r hr => ?_⟩) hk.self
      have h1 := hr.length_le
      have h2 := unix_suffix_le hr
      simp only [List.length_cons] at hs hn
      rw [unix_crlf] at hn' ⊢
      simp only [List.length_cons] at hn'
      rw [if_pos (by simp; omega), if_pos (by simp; omega)]
      exact ih r (by omega) (fun q hq => hb q (hq.trans (hr.trans hsuf2))) n n' (by omega) (by omega)
        k k' ht ht' (hk.mono (hr.trans hsuf2))
    · unfold starLoop
      refine Rl.orElse (hB.plain hc _ _ (htot _ _ _ _ ht) (htot _ _ _ _ ht')
        ⟨hk.fine, fun r hr => ?_⟩) hk.self
      by_cases hl : r.length < s.length
      · have hl' := (unix_shorter hr hc).mpr hl
        simp only [if_pos hl, if_pos hl']
        exact ih r (by omega) (fun q hq => hb q (hq.trans hr)) n n' (by omega) (by omega) k k' ht ht' (hk.mono hr)
      · have hl' : ¬ (unix r).length < (unix s).length := fun h => hl ((unix_shorter hr hc).mp h)
        simp only [if_neg hl, if_neg hl']
        exact hk.rel r hr

theorem sim_possStar {r : Re} {s : List Char} (hr : Sound rec (fun _ => True)) (h : ∀ q, q <:+ s → BodyT (r.run rec) (r.run rec') q) :
    SimAt ((Re.possStar r).run rec) ((Re.possStar r).run rec') s := by
  intro k k' hk
  have e := starLoop_simT _ s (Nat.le_refl _) h _ _ (Nat.le_refl _) (Nat.le_refl _) some some
    .some .some (.some hk.fine)
  show Rl (match starLoop (r.run rec) s.length s some with | some s' => k s' | .none => .none)
    (match starLoop (r.run rec') (unix s).length (unix s) some with | some s' => k' s' | .none => .none)
  rw [e]
  cases hv : starLoop (r.run rec) s.length s some with
  | none => exact .none
  | some q =>
    obtain ⟨x, y, e, _, hy⟩ := Re.run_sound hr (.star r) s some q hv
    simp only [Option.some.injEq] at hy
    subst hy
    exact hk.rel _ ⟨x, e.symm⟩

/-- `(?R)` on texts up to a given length -/
structure RecSim (N N' : Nat) (rec rec' : Matcher) : Prop where
  sound : Sound rec (fun _ => True)
  nil : ∀ k, rec [] k = .none
  nil' : ∀ k, rec' [] k = .none
  sim : ∀ s : List Char, s.length ≤ N → (unix s).length ≤ N' → SimT rec rec' s

variable {N N' : Nat}

theorem bodyT_hole (h : RecSim N N' rec rec') {s : List Char} (hs : s.length ≤ N)
    (hs' : (unix s).length ≤ N') : BodyT (holeUnit.run rec) (holeUnit.run rec') s where
  nil _ := ⟨fun k => by rw [run_alt]; exact h.nil k, fun k => by rw [run_alt]; exact h.nil' k⟩
  plain hc := by
    intro k k' hk hk' hkk
    rw [run_alt, run_alt]
    refine Rl.orElse ?_ (h.sim s hs hs' k k' hk hk' hkk)
    exact sim_seq (sim_set_at hc) (fun r _ => sim_starHalf rfl r) k k' hkk
  crlf x e := by
    intro k k' hk hk' hkk
    subst e
    rw [run_alt, run_alt, unix_crlf]
    have e1 : ∀ (rec : Matcher) (y : List Char) (k : Cont) (c : Char),
        (c != '}' && c != '\'' && c != '{') = true →
        (Re.plus (.set fun c => c != '}' && c != '\'' && c != '{')).run rec (c :: y) k =
          (Re.star (.set fun c => c != '}' && c != '\'' && c != '{')).run rec y k := by
      intro rec y k c hc
      rw [Re.plus, run_seq, run_set, if_pos hc]
    have e2 : ∀ (rec : Matcher) (y : List Char) (k : Cont), Total k →
        (Re.star (.set fun c => c != '}' && c != '\'' && c != '{')).run rec ('\n' :: y) k =
          (Re.star (.set fun c => c != '}' && c != '\'' && c != '{')).run rec y k := by
      intro rec y k hk
      rw [run_star, run_star]
      rw [List.length_cons]
      conv => lhs; unfold starLoop
      rw [run_set, if_pos (by decide), if_pos (by simp)]
      exact orElse_left (starLoop_total hk _ _)
    rw [e1 _ _ _ _ (by decide), e1 _ _ _ _ (by decide), e2 _ _ _ hk]
    have i := sim_starHalf (rec := rec) (rec' := rec') (p := fun c => c != '}' && c != '\'' && c != '{')
      rfl x k k' hkk
    have t1 : ((Re.star (.set fun c => c != '}' && c != '\'' && c != '{')).run rec x k).isSome = true :=
      starLoop_total hk _ _
    have t2 : ((Re.star (.set fun c => c != '}' && c != '\'' && c != '{')).run rec' (unix x) k').isSome = true :=
      starLoop_total hk' _ _
    rw [orElse_left t1, orElse_left t2]
    exact i

theorem sim_interp (h : RecSim N N' rec rec') {s : List Char} (hs : s.length ≤ N)
    (hs' : (unix s).length ≤ N') : SimAt
    ((Re.seq (Re.chr '$') (.seq (Re.chr '{') (.seq (.possStar holeUnit) (Re.chr '}')))).run rec)
    ((Re.seq (Re.chr '$') (.seq (Re.chr '{') (.seq (.possStar holeUnit) (Re.chr '}')))).run rec') s := by
  refine sim_seq (sim_chr (by decide) (by decide) s) fun r hr =>
    sim_seq (sim_chr (by decide) (by decide) r) fun q hq =>
      sim_seq (sim_possStar h.sound fun y hy => ?_) fun y _ => sim_chr (by decide) (by decide) y
  have hsuf := hy.trans (hq.trans hr)
  have h1 := hsuf.length_le
  have h2 := unix_suffix_le hsuf
  exact bodyT_hole h (by omega) (by omega)

theorem body_quotedUnit (h : RecSim N N' rec rec') {s : List Char} (hs : s.length ≤ N)
    (hs' : (unix s).length ≤ N') :
    Body (Terminals.quotedUnit.run rec) (Terminals.quotedUnit.run rec') s where
  nil _ := ⟨fun _ => rfl, fun _ => rfl⟩
  plain hc := sim_alt (sim_interp h hs hs') (sim_alt (sim_seq (sim_chr (by decide) (by decide) s)
    fun r _ => sim_chr (by decide) (by decide) r) (sim_set_at hc))
  crlf x e := by
    subst e
    refine .inl fun k => ?_
    rw [Terminals.quotedUnit, run_alt, run_seq, chr_run_ne (by decide), orElse_none, run_alt, run_seq,
      chr_run_ne (by decide), orElse_none, run_set, if_pos (by decide)]

/-- a string with interpolation, one character longer than what `(?R)` is good for -/
theorem sim_QUOTED_INTERPOLATION (h : RecSim N N' rec rec') {s : List Char} (hs : s.length ≤ N + 1)
    (hs' : (unix s).length ≤ N' + 1) :
    SimAt (Terminals.QUOTED_INTERPOLATION.run rec) (Terminals.QUOTED_INTERPOLATION.run rec') s := by
  intro k k' hk
  have h1 : SimAt ((Re.nlook (.seq (.star Re.dot) (Re.lit ['\'', '\'', '\'']))).run rec)
      ((Re.nlook (.seq (.star Re.dot) (Re.lit ['\'', '\'', '\'']))).run rec') s :=
    sim_nlook (sim_seq (sim_starHalf (by decide) s) fun r _ => sim_lit _ (by decide) r)
  refine sim_seq (a := .nlook _) h1 (fun r hr => ?_) k k' hk
  intro k k' hk
  cases r with
  | nil => exact .none
  | cons c r =>
    by_cases hc : c = '\''
    · subst hc
      rw [unix_ne (by decide), run_seq, run_seq, chr_run, chr_run]
      have h1 := hr.length_le
      have h2 := unix_suffix_le hr
      rw [unix_ne (by decide)] at h2
      simp only [List.length_cons] at h1 h2
      refine sim_seq (sim_star fun q hq => ?_) (fun q _ => sim_chr (by decide) (by decide) q) k k' hk.tail
      have h3 := hq.length_le
      have h4 := unix_suffix_le hq
      exact body_quotedUnit h (by omega) (by omega)
    · rw [run_seq, chr_run_ne hc]
      by_cases hd : AtCrLf (c :: r)
      · obtain ⟨x, e⟩ := hd.inv
        rw [e, unix_crlf, run_seq, chr_run_ne (by decide)]; exact .none
      · rw [unix_cons hd, run_seq, chr_run_ne hc]; exact .none

/-! ### Multi-line strings -/

theorem unix_append {x y : List Char} (h : ¬ (x.getLast? = some '\r' ∧ y.head? = some '\n')) :
    unix (x ++ y) = unix x ++ unix y := by
  induction x with
  | nil => rfl
  | cons c x ih =>
    cases x with
    | nil =>
      have : ¬ AtCrLf (c :: y) := by
        rw [atCrLf_cons]
        rintro ⟨rfl, hy⟩
        exact h ⟨rfl, hy⟩
      rw [List.singleton_append, unix_cons this]
      have : ¬ AtCrLf [c] := by rw [atCrLf_cons]; simp
      rw [unix_cons this]; rfl
    | cons d x =>
      have ih := ih (by simpa using h)
      rw [List.cons_append]
      rw [show unix (c :: (d :: x ++ y)) = if c = '\r' ∧ d = '\n' then unix (d :: x ++ y) else c :: unix (d :: x ++ y) by
        rw [unix]; simp]
      rw [show unix (c :: d :: x) = if c = '\r' ∧ d = '\n' then unix (d :: x) else c :: unix (d :: x) by
        rw [unix]; simp]
      rw [ih]
      split <;> rfl

/-- the Unix form has no other triple quotes -/
theorem unix_infix {l : List Char} (hl : ∀ c ∈ l, c ≠ '\r' ∧ c ≠ '\n') : ∀ {s : List Char},
    l <:+: unix s → l <:+: s := by
  have hpre : ∀ (l : List Char), (∀ c ∈ l, c ≠ '\r' ∧ c ≠ '\n') → ∀ {s : List Char}, l <+: unix s → l <+: s := by
    intro l
    induction l with
    | nil => intro _ s _; exact List.nil_prefix
    | cons d l ih =>
      intro hd s hp
      cases s with
      | nil => simp [unix] at hp
      | cons c s =>
        by_cases hc : AtCrLf (c :: s)
        · obtain ⟨x, e⟩ := hc.inv
          rw [e, unix_crlf, List.cons_prefix_cons] at hp
          exact absurd hp.1 (hd d (by simp)).2
        · rw [unix_cons hc, List.cons_prefix_cons] at hp
          rw [List.cons_prefix_cons]
          exact ⟨hp.1, ih (fun c hc => hd c (by simp [hc])) hp.2⟩
  intro s
  induction s with
  | nil => exact id
  | cons c s ih =>
    intro h
    by_cases hc : AtCrLf (c :: s)
    · rw [unix, if_pos (atCrLf_cons.mp hc)] at h
      exact (ih h).trans (List.suffix_cons _ _).isInfix
    · rw [unix_cons hc] at h
      rcases List.infix_cons_iff.mp h with h | h
      · rw [← unix_cons hc] at h
        exact (hpre l hl h).isInfix
      · exact (ih h).trans (List.suffix_cons _ _).isInfix

theorem orElse_bind {a : Option (List Char)} {b : Unit → Option (List Char)} {k : Cont} (hk : Total k) :
    orElse (a.bind k) (fun u => (b u).bind k) = (orElse a b).bind k := by
  cases a with
  | none => rfl
  | some x => exact orElse_left (hk x)

/-- what follows and never fails can be done afterwards -/
def Late (m : Matcher) : Prop :=
  ∀ s (f k : Cont), Total k → m s (fun r => (f r).bind k) = (m s f).bind k

theorem starLoop_late {b : Matcher} (hb : Late b) : ∀ n, Late (starLoop b n) := by
  intro n
  induction n with
  | zero => intro s f k _; rfl
  | succ n ih =>
    intro s f k hk
    unfold starLoop
    rw [← orElse_bind hk, ← hb _ _ _ hk]
    congr 1
    congr 1
    funext r
    split
    · exact ih _ _ _ hk
    · rfl

theorem lazyLoop_late {b : Matcher} (hb : Late b) : ∀ n, Late (lazyLoop b n) := by
  intro n
  induction n with
  | zero => intro s f k _; rfl
  | succ n ih =>
    intro s f k hk
    unfold lazyLoop
    rw [← orElse_bind hk]
    congr 1
    funext u
    rw [← hb _ _ _ hk]
    congr 1
    funext r
    split
    · exact ih _ _ _ hk
    · rfl

theorem Re.late {rec : Matcher} (hr : Late rec) (r : Re) : Late (r.run rec) := by
  induction r with
  | eps => intro s f k _; rfl
  | set p =>
    intro s f k _
    cases s with
    | nil => rfl
    | cons c s => rw [run_set, run_set]; split <;> rfl
  | seq a b iha ihb =>
    intro s f k hk
    rw [run_seq, run_seq, ← iha _ _ _ hk]
    congr 1
    funext r
    exact ihb _ _ _ hk
  | alt a b iha ihb =>
    intro s f k hk
    rw [run_alt, run_alt, ← orElse_bind hk, iha _ _ _ hk]
    congr 1
    funext u
    exact ihb _ _ _ hk
  | star r ih => intro s f k hk; exact starLoop_late ih _ _ _ _ hk
  | lazyStar r ih => intro s f k hk; exact lazyLoop_late ih _ _ _ _ hk
  | possStar r _ =>
    intro s f k _
    show (match starLoop (r.run rec) s.length s some with | some s' => (f s').bind k | .none => .none) =
      Option.bind (match starLoop (r.run rec) s.length s some with | some s' => f s' | .none => .none) k
    split <;> rfl
  | look r _ =>
    intro s f k _
    show (if (r.run rec s some).isSome then (f s).bind k else .none) =
      Option.bind (if (r.run rec s some).isSome then f s else .none) k
    split <;> rfl
  | nlook r _ =>
    intro s f k _
    show (if (r.run rec s some).isSome then .none else (f s).bind k) =
      Option.bind (if (r.run rec s some).isSome then .none else f s) k
    split <;> rfl
  | recur => exact hr

theorem recMatcher_late (top : Re) : ∀ n, Late (recMatcher top n)
  | 0 => fun _ _ _ _ => rfl
  | n + 1 => Re.late (recMatcher_late top n) top

theorem Late.eq {m : Matcher} (h : Late m) {s : List Char} {k : Cont} (hk : Total k) :
    m s k = (m s some).bind k := h s some k hk

/-- the first triple quote of a text -/
theorem first_triple : ∀ s : List Char,
    (∃ x r, s = x ++ ['\'', '\'', '\''] ++ r ∧ ¬ ['\'', '\'', '\''] <:+: x ++ ['\'', '\'']) ∨
      ¬ ['\'', '\'', '\''] <:+: s
  | [] => .inr (by simp)
  | c :: s => by
    by_cases hp : ['\'', '\'', '\''] <+: c :: s
    · obtain ⟨r, e⟩ := hp
      exact .inl ⟨[], r, by simpa using e.symm, by decide⟩
    · rcases first_triple s with ⟨x, r, e, h⟩ | h
      · refine .inl ⟨c :: x, r, by rw [e]; simp, fun hi => ?_⟩
        rw [List.cons_append] at hi
        rcases List.infix_cons_iff.mp hi with h' | h'
        · refine hp (h'.trans ?_)
          rw [e]
          exact ⟨'\'' :: r, by simp⟩
        · exact h h'
      · refine .inr fun hi => ?_
        rcases List.infix_cons_iff.mp hi with h' | h'
        · exact hp h'
        · exact h h'

theorem multi_some {rec : Matcher} (hr : Sound rec (fun _ => True)) {s out : List Char}
    (h : Terminals.MULTI_LINE_STRING.run rec s some = some out) :
    ∃ y, s = ['\'', '\'', '\''] ++ y ∧ ['\'', '\'', '\''] <:+: y := by
  obtain ⟨x, y, e, hx, _⟩ := Re.run_sound hr _ s some out h
  obtain ⟨b, rfl⟩ := lang_multi hx
  exact ⟨b ++ (['\'', '\'', '\''] ++ y), by rw [e]; simp, ⟨b, y, by simp⟩⟩

theorem unix_quotes {r : List Char} : unix (['\'', '\'', '\''] ++ r) = ['\'', '\'', '\''] ++ unix r :=
  unix_append (by simp)

theorem unix_prefix : ∀ {l s y : List Char}, (∀ c ∈ l, c ≠ '\r' ∧ c ≠ '\n') → unix s = l ++ y →
    ∃ z, s = l ++ z ∧ unix z = y
  | [], s, _, _, e => ⟨s, rfl, e⟩
  | d :: l, s, y, hd, e => by
    cases s with
    | nil => simp [unix] at e
    | cons c s =>
      by_cases hc : AtCrLf (c :: s)
      · obtain ⟨x, ex⟩ := hc.inv
        rw [ex, unix_crlf, List.cons_append, List.cons.injEq] at e
        exact absurd e.1.symm (hd d (by simp)).2
      · rw [unix_cons hc, List.cons_append, List.cons.injEq] at e
        obtain ⟨rfl, e⟩ := e
        obtain ⟨z, rfl, hz⟩ := unix_prefix (fun c hc => hd c (by simp [hc])) e
        exact ⟨z, rfl, hz⟩

theorem sim_MULTI_LINE_STRING (h : Sound rec (fun _ => True)) (h' : Sound rec' (fun _ => True))
    (hl : Late rec) (hl' : Late rec') (s : List Char) :
    SimT (Terminals.MULTI_LINE_STRING.run rec) (Terminals.MULTI_LINE_STRING.run rec') s := by
  intro k k' hk hk' hkk
  rw [(Re.late hl _).eq hk, (Re.late hl' _).eq hk']
  have hno : (¬ ∃ y, s = ['\'', '\'', '\''] ++ y ∧ ['\'', '\'', '\''] <:+: y) →
      Terminals.MULTI_LINE_STRING.run rec s some = .none ∧
      Terminals.MULTI_LINE_STRING.run rec' (unix s) some = .none := by
    intro hn
    constructor
    · by_contra hne
      obtain ⟨out, ho⟩ := Option.ne_none_iff_exists'.mp hne
      exact hn (multi_some h ho)
    · by_contra hne
      obtain ⟨out, ho⟩ := Option.ne_none_iff_exists'.mp hne
      obtain ⟨y, e, hi⟩ := multi_some h' ho
      obtain ⟨y, rfl, rfl⟩ := unix_prefix (by decide) e
      exact hn ⟨y, rfl, unix_infix (by decide) hi⟩
  by_cases hq : ∃ y, s = ['\'', '\'', '\''] ++ y ∧ ['\'', '\'', '\''] <:+: y
  · obtain ⟨y, rfl, hi⟩ := hq
    rcases first_triple y with ⟨x, r, rfl, hx⟩ | hn
    · have e1 : unix (['\'', '\'', '\''] ++ (x ++ ['\'', '\'', '\''] ++ r)) =
          ['\'', '\'', '\''] ++ (unix x ++ ['\'', '\'', '\''] ++ unix r) := by
        rw [unix_quotes, List.append_assoc, unix_append (by simp), unix_quotes, List.append_assoc]
      have e2 : ¬ ['\'', '\'', '\''] <:+: unix x ++ ['\'', '\''] := by
        intro hi
        apply hx
        apply unix_infix (by decide)
        rw [unix_append (by simp)]
        exact hi
      have r1 := multi_run (rec := rec) (s := r) hx
      have r2 := multi_run (rec := rec') (s := unix r) e2
      rw [e1]
      simp only [List.cons_append, List.nil_append, List.append_assoc] at r1 r2 ⊢
      rw [r1, r2]
      refine hkk.rel r ⟨['\'', '\'', '\''] ++ x ++ ['\'', '\'', '\''], by simp⟩
    · exact absurd hi hn
  · obtain ⟨e1, e2⟩ := hno hq
    rw [e1, e2]; exact .none

/-! ### All terminals -/

theorem strTerm_chars {t : Nat} (ht : t < tEND) (h : t ∉ reIds) :
    ∃ l, termRe t = Re.lit l ∧ ∀ c ∈ l, c ≠ '\r' ∧ c ≠ '\n' := by
  unfold tEND at ht
  interval_cases t <;> first
    | exact absurd (by decide) h
    | (refine ⟨_, rfl, ?_⟩; decide +kernel)

/-- what the terminals need to know of `(?R)` -/
structure RecOK (N N' : Nat) (rec rec' : Matcher) : Prop extends RecSim N N' rec rec' where
  sound' : Sound rec' (fun _ => True)
  late : Late rec
  late' : Late rec'

theorem sim_term (h : RecOK N N' rec rec') {t : Nat} (ht : t < tEND) {s : List Char}
    (hs : s.length ≤ N + 1) (hs' : (unix s).length ≤ N' + 1) :
    SimT ((termRe t).run rec) ((termRe t).run rec') s := by
  by_cases hr : t ∈ reIds
  · simp only [reIds, List.mem_cons, List.not_mem_nil, or_false] at hr
    rcases hr with rfl | rfl | rfl | rfl | rfl | rfl | rfl | rfl | rfl | rfl | rfl | rfl | rfl | rfl
    · exact (sim_LIST_FUNC_NAME s).total
    · exact (sim_FUNCTION s).total
    · exact (sim_QUOTED_INTERPOLATION h.toRecSim hs hs').total
    · exact sim_MULTI_LINE_STRING h.sound h.sound' h.late h.late' s
    · exact (sim_STRING s).total
    · exact (sim_CPP_COMMENT_NL s).total
    · exact (sim_QUOTED_STRING s).total
    · exact (sim_decoratorName s).total
    · exact (sim_C_COMMENT s).total
    · exact (sim_WS_INLINE s).total
    · exact (sim_NEWLINE s).total
    · exact (sim_INT s).total
    · exact (sim_SH_COMMENT s).total
    · exact (sim_chr (by decide) (by decide) s).total
  · obtain ⟨l, e, hl⟩ := strTerm_chars ht hr
    rw [e]
    exact (sim_lit l hl s).total

theorem sim_scanRe (h : RecOK N N' rec rec') {s : List Char} (hs : s.length ≤ N + 1)
    (hs' : (unix s).length ≤ N' + 1) : ∀ ids : List Nat, (∀ t ∈ ids, t < tEND) →
    SimT ((scanRe ids).run rec) ((scanRe ids).run rec') s
  | [], _ => by intro k k' _ _ _; exact .none
  | t :: ids, hlt => by
    intro k k' hk hk' hkk
    show Rl ((Re.alt (termRe t) (scanRe ids)).run rec s k) ((Re.alt (termRe t) (scanRe ids)).run rec' (unix s) k')
    rw [run_alt, run_alt]
    exact Rl.orElse (sim_term h (hlt t (by simp)) hs hs' k k' hk hk' hkk)
      (sim_scanRe h hs hs' ids (fun t ht => hlt t (by simp [ht])) k k' hk hk' hkk)

theorem rec_ok {ids : List Nat} (hlt : ∀ t ∈ ids, t < tEND) : ∀ n n' : Nat,
    RecOK n n' (recMatcher (scanRe ids) n) (recMatcher (scanRe ids) n') := by
  have hnil : ∀ n k, recMatcher (scanRe ids) n [] k = .none := by
    intro n k
    by_contra hne
    obtain ⟨out, ho⟩ := Option.ne_none_iff_exists'.mp hne
    obtain ⟨x, y, e, hx, _⟩ := recMatcher_ne_nil hlt n [] k out ho
    simp at e
    exact hx e.1
  intro n
  induction n with
  | zero =>
    intro n'
    refine ⟨⟨recMatcher_sound _ _, hnil _, hnil _, fun s hs hs' => ?_⟩, recMatcher_sound _ _,
      recMatcher_late _ _, recMatcher_late _ _⟩
    have : s = [] := List.length_eq_zero_iff.mp (by omega)
    subst this
    intro k k' _ _ _
    rw [unix_nil, hnil, hnil]; exact .none
  | succ n ih =>
    intro n'
    refine ⟨⟨recMatcher_sound _ _, hnil _, hnil _, fun s hs hs' => ?_⟩, recMatcher_sound _ _,
      recMatcher_late _ _, recMatcher_late _ _⟩
    cases n' with
    | zero =>
      have : s = [] := unix_eq_nil (List.length_eq_zero_iff.mp (by omega))
      subst this
      intro k k' _ _ _
      rw [unix_nil, hnil, hnil]; exact .none
    | succ n' => exact sim_scanRe (ih n') hs hs' ids hlt

/-- **Every terminal matches a text and its Unix form alike.** -/
theorem sim_matchIn {ids : List Nat} (hlt : ∀ t ∈ ids, t < tEND) {t : Nat} (ht : t < tEND)
    {s : List Char} (hs : NoCrCrLf s) :
    Rl (Re.matchIn (scanRe ids) (termRe t) s) (Re.matchIn (scanRe ids) (termRe t) (unix s)) :=
  sim_term (rec_ok hlt s.length (unix s).length) ht (Nat.le_succ _) (Nat.le_succ _) some some
    .some .some (.some hs)

theorem sim_scanWith {ids : List Nat} (hlt : ∀ t ∈ ids, t < tEND) {s : List Char} (hs : NoCrCrLf s) :
    ∀ l : List Nat, (∀ t ∈ l, t < tEND) → scanWith (scanRe ids) l (unix s) =
      (scanWith (scanRe ids) l s).map fun p => (p.1, unix p.2)
  | [], _ => rfl
  | t :: l, h => by
    have e := sim_matchIn hlt (h t (by simp)) hs
    unfold scanWith
    rw [e]
    cases Re.matchIn (scanRe ids) (termRe t) s with
    | some r => rfl
    | none => exact sim_scanWith hlt hs l fun t ht => h t (by simp [ht])

end Pycep
