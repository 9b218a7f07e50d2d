import Verif.Regex
/-
Soundness of the backtracking matcher: what it consumes belongs to the language of the expression.
-/
namespace Pycep

/-- Language of an expression, over-approximated: look-aheads are ignored and `(?R)` may be any
text. -/
inductive Lang : Re → List Char → Prop where
  | eps : Lang .eps []
  | set {p c} : p c = true → Lang (.set p) [c]
  | seq {a b x y} : Lang a x → Lang b y → Lang (.seq a b) (x ++ y)
  | altl {a b x} : Lang a x → Lang (.alt a b) x
  | altr {a b x} : Lang b x → Lang (.alt a b) x
  | starNil {r} : Lang (.star r) []
  | starCons {r x y} : Lang r x → Lang (.star r) y → Lang (.star r) (x ++ y)
  | lazy {r x} : Lang (.star r) x → Lang (.lazyStar r) x
  | poss {r x} : Lang (.star r) x → Lang (.possStar r) x
  | look {r} : Lang (.look r) []
  | nlook {r} : Lang (.nlook r) []
  | recur {x} : Lang .recur x

/-- A matcher consumes a text satisfying `P` and hands the rest to its continuation. -/
def Sound (m : Matcher) (P : List Char → Prop) : Prop :=
  ∀ s k out, m s k = some out → ∃ pre suf, s = pre ++ suf ∧ P pre ∧ k suf = some out

theorem orElse_some {a : Option (List Char)} {b : Unit → Option (List Char)} {o : List Char}
    (h : orElse a b = some o) : a = some o ∨ (a = .none ∧ b () = some o) := by
  unfold orElse at h
  cases a with
  | none => exact .inr ⟨rfl, h⟩
  | some x => exact .inl h

theorem starLoop_sound {m : Matcher} {r : Re} (hm : Sound m (Lang r)) (n : Nat) :
    Sound (starLoop m n) (Lang (.star r)) := by
  induction n with
  | zero => intro s k out h; exact ⟨[], s, rfl, .starNil, h⟩
  | succ n ih =>
    intro s k out h
    unfold starLoop at h
    rcases orElse_some h with h | ⟨_, h⟩
    · obtain ⟨pre, suf, rfl, hp, hk⟩ := hm _ _ _ h
      split at hk
      · obtain ⟨pre', suf', rfl, hp', hk'⟩ := ih _ _ _ hk
        exact ⟨pre ++ pre', suf', by simp, .starCons hp hp', hk'⟩
      · exact ⟨pre, suf, rfl, by simpa using Lang.starCons hp .starNil, hk⟩
    · exact ⟨[], s, rfl, .starNil, h⟩

theorem lazyLoop_sound {m : Matcher} {r : Re} (hm : Sound m (Lang r)) (n : Nat) :
    Sound (lazyLoop m n) (Lang (.star r)) := by
  induction n with
  | zero => intro s k out h; exact ⟨[], s, rfl, .starNil, h⟩
  | succ n ih =>
    intro s k out h
    unfold lazyLoop at h
    rcases orElse_some h with h | ⟨_, h⟩
    · exact ⟨[], s, rfl, .starNil, h⟩
    · obtain ⟨pre, suf, rfl, hp, hk⟩ := hm _ _ _ h
      split at hk
      · obtain ⟨pre', suf', rfl, hp', hk'⟩ := ih _ _ _ hk
        exact ⟨pre ++ pre', suf', by simp, .starCons hp hp', hk'⟩
      · exact ⟨pre, suf, rfl, by simpa using Lang.starCons hp .starNil, hk⟩

theorem Re.run_sound {rec : Matcher} (hr : Sound rec (fun _ => True)) (r : Re) :
    Sound (r.run rec) (Lang r) := by
  induction r with
  | eps => intro s k out h; exact ⟨[], s, rfl, .eps, h⟩
  | set p =>
    intro s k out h
    unfold Re.run at h
    cases s with
    | nil => simp at h
    | cons c cs =>
      simp only at h
      split at h
      · exact ⟨[c], cs, rfl, .set (by assumption), h⟩
      · simp at h
  | seq a b iha ihb =>
    intro s k out h
    unfold Re.run at h
    obtain ⟨p, q, rfl, hp, h⟩ := iha _ _ _ h
    obtain ⟨p', q', rfl, hp', h⟩ := ihb _ _ _ h
    exact ⟨p ++ p', q', by simp, .seq hp hp', h⟩
  | alt a b iha ihb =>
    intro s k out h
    unfold Re.run at h
    rcases orElse_some h with h | ⟨_, h⟩
    · obtain ⟨p, q, rfl, hp, h⟩ := iha _ _ _ h
      exact ⟨p, q, rfl, .altl hp, h⟩
    · obtain ⟨p, q, rfl, hp, h⟩ := ihb _ _ _ h
      exact ⟨p, q, rfl, .altr hp, h⟩
  | star r ih =>
    intro s k out h
    unfold Re.run at h
    exact starLoop_sound ih _ _ _ _ h
  | lazyStar r ih =>
    intro s k out h
    unfold Re.run at h
    obtain ⟨p, q, rfl, hp, h⟩ := lazyLoop_sound ih _ _ _ _ h
    exact ⟨p, q, rfl, .lazy hp, h⟩
  | possStar r ih =>
    intro s k out h
    unfold Re.run at h
    split at h
    · rename_i s' hs
      obtain ⟨p, q, rfl, hp, hq⟩ := starLoop_sound ih _ _ _ _ hs
      simp only [Option.some.injEq] at hq
      subst hq
      exact ⟨p, q, rfl, .poss hp, h⟩
    · simp at h
  | look r ih =>
    intro s k out h
    unfold Re.run at h
    split at h
    · exact ⟨[], s, rfl, .look, h⟩
    · simp at h
  | nlook r ih =>
    intro s k out h
    unfold Re.run at h
    split at h
    · simp at h
    · exact ⟨[], s, rfl, .nlook, h⟩
  | recur =>
    intro s k out h
    unfold Re.run at h
    obtain ⟨p, q, rfl, _, h⟩ := hr _ _ _ h
    exact ⟨p, q, rfl, .recur, h⟩

theorem recMatcher_sound (top : Re) (n : Nat) : Sound (recMatcher top n) (fun _ => True) := by
  induction n with
  | zero => intro s k out h; simp [recMatcher] at h
  | succ n ih =>
    intro s k out h
    unfold recMatcher at h
    obtain ⟨p, q, e, _, h⟩ := Re.run_sound ih top _ _ _ h
    exact ⟨p, q, e, trivial, h⟩

theorem Re.matchIn_sound {top r : Re} {s rest : List Char} (h : Re.matchIn top r s = some rest) :
    ∃ pre, s = pre ++ rest ∧ Lang r pre := by
  unfold Re.matchIn at h
  obtain ⟨p, q, e, hp, hq⟩ := Re.run_sound (recMatcher_sound top _) r _ _ _ h
  simp only [Option.some.injEq] at hq
  subst hq
  exact ⟨p, e, hp⟩

/-! ### Inversion of languages -/

theorem Lang.set_inv {p x} (h : Lang (.set p) x) : ∃ c, x = [c] ∧ p c = true := by
  cases h with | set hp => exact ⟨_, rfl, hp⟩

theorem Lang.chr_inv {c x} (h : Lang (Re.chr c) x) : x = [c] := by
  obtain ⟨d, rfl, hd⟩ := Lang.set_inv h
  simp at hd; simp [hd]

theorem Lang.seq_inv {a b z} (h : Lang (.seq a b) z) : ∃ x y, z = x ++ y ∧ Lang a x ∧ Lang b y := by
  cases h with | seq ha hb => exact ⟨_, _, rfl, ha, hb⟩

theorem Lang.alt_inv {a b z} (h : Lang (.alt a b) z) : Lang a z ∨ Lang b z := by
  cases h with
  | altl h => exact .inl h
  | altr h => exact .inr h

theorem Lang.eps_inv {z} (h : Lang .eps z) : z = [] := by cases h; rfl
theorem Lang.look_inv {r z} (h : Lang (.look r) z) : z = [] := by cases h; rfl
theorem Lang.nlook_inv {r z} (h : Lang (.nlook r) z) : z = [] := by cases h; rfl

theorem Lang.star_ind {r : Re} {P : List Char → Prop} (h0 : P [])
    (h1 : ∀ x y, Lang r x → P y → P (x ++ y)) {z} (h : Lang (.star r) z) : P z := by
  generalize hr : Re.star r = q at h
  induction h with
  | starNil => exact h0
  | starCons hx hy _ ih => cases hr; exact h1 _ _ hx (ih rfl)
  | _ => cases hr

theorem Lang.starSet_inv {p z} (h : Lang (.star (.set p)) z) : ∀ c ∈ z, p c = true := by
  refine Lang.star_ind (P := fun z => ∀ c ∈ z, p c = true) (by simp) ?_ h
  intro x y hx hy c hc
  obtain ⟨d, rfl, hd⟩ := Lang.set_inv hx
  rcases List.mem_append.mp hc with h | h
  · simp at h; rw [h]; exact hd
  · exact hy c h

theorem Lang.plus_inv {r z} (h : Lang (Re.plus r) z) : ∃ x y, z = x ++ y ∧ Lang r x ∧ Lang (.star r) y :=
  Lang.seq_inv h

theorem Lang.opt_inv {r z} (h : Lang (Re.opt r) z) : Lang r z ∨ z = [] := by
  rcases Lang.alt_inv h with h | h
  · exact .inl h
  · exact .inr h.eps_inv

theorem Lang.lit_inv {l z} (h : Lang (Re.lit l) z) : z = l := by
  induction l generalizing z with
  | nil => exact h.eps_inv
  | cons c l ih =>
    obtain ⟨x, y, rfl, hx, hy⟩ := Lang.seq_inv h
    rw [hx.chr_inv, ih hy]; rfl

theorem Lang.plusSet_inv {p z} (h : Lang (Re.plus (.set p)) z) : z ≠ [] ∧ ∀ c ∈ z, p c = true := by
  obtain ⟨x, y, rfl, hx, hy⟩ := h.plus_inv
  obtain ⟨d, rfl, hd⟩ := hx.set_inv
  refine ⟨by simp, ?_⟩
  intro c hc
  rcases List.mem_append.mp hc with h | h
  · simp at h; rw [h]; exact hd
  · exact hy.starSet_inv c h

end Pycep
