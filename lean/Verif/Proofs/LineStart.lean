import Verif.Spec.LineStart
import Verif.Proofs.Adjacent
import Verif.Props.Brackets
/-
What a line can begin with: the tokens behind a line break.
-/
namespace Pycep

/-! ### Tokens by their first character -/

theorem TokText.mark {t x c} (h : TokText t x) (hx : x.head? = some c)
    (hc : isWord c = false ∧ c ≠ '\'' ∧ c ≠ '\r' ∧ c ≠ '\n') :
    (∃ d s, term? t = some d ∧ d.strVal = some s ∧ x = s.toList) ∨ (t = T.__ANON_1 ∧ x = ['*']) ∨ ['/', '/'] <+: x := by
  have hm : c ∈ x := List.mem_of_head? hx
  obtain ⟨hw, h1, h2, h3⟩ := hc
  have na : isAsciiAlnum c ≠ true := fun h => by rw [alnum_word h] at hw; cases hw
  have np : ∀ {p n : List Char}, (p = [] ∨ p = "sys.".toList ∨ p = "az.".toList) →
      (∀ d ∈ n, isAsciiAlnum d = true) → n ≠ [] → ∀ {y}, (p ++ n ++ y).head? ≠ some c := by
    rintro p n (rfl | rfl | rfl) hn hne y e
    · cases n with
      | nil => exact hne rfl
      | cons d n =>
        simp only [List.nil_append, List.cons_append, List.head?_cons, Option.some.injEq] at e
        exact na (hn c (by simp [e]))
    · have : c = 's' := by simpa using e.symm
      rw [this] at na
      exact na (by decide)
    · have : c = 'a' := by simpa using e.symm
      rw [this] at na
      exact na (by decide)
  unfold TokText at h
  split at h
  · exact absurd (alpha_alnum (h.2 _ hm)) na
  · obtain ⟨p, n, rfl, hp, hne, hn⟩ := h
    exact absurd hx (np hp hn hne)
  · obtain ⟨b, rfl⟩ := h; simp at hx; exact absurd hx.symm h1
  · obtain ⟨b, rfl⟩ := h; simp at hx; exact absurd hx.symm h1
  · rw [IsIdentText.word h _ hm] at hw; cases hw
  · rcases h with h | ⟨b, n, rfl, hb, hn⟩
    · rcases h.chars _ hm with h | h
      · exact absurd h h2
      · exact absurd h h3
    · exact .inr (.inr ⟨b ++ n, by simp⟩)
  · obtain ⟨b, rfl, _⟩ := h; simp at hx; exact absurd hx.symm h1
  · obtain ⟨p, n, rfl, hp, hne, hn⟩ := h
    have := np (hp.imp_right .inl) hn hne (y := [])
    rw [List.append_nil] at this
    exact absurd hx this
  · rcases IsNewlines.chars h _ hm with h | h
    · exact absurd h h2
    · exact absurd h h3
  · exact absurd (digit_alnum (h.2 _ hm)) na
  · exact .inr (.inl ⟨rfl, h⟩)
  · exact .inl h

theorem check_heads : (List.range tEND).all (fun t => match (term? t).bind (·.strVal) with
    | some s => s.toList.head? != some ' ' && s.toList.head? != some '\t'
    | .none => true) = true := by decide +kernel

theorem TokText.not_blank {t x} (h : TokText t x) (ht : t < tEND) : x.head? ≠ some ' ' ∧ x.head? ≠ some '\t' := by
  have key : ∀ c, c = ' ' ∨ c = '\t' → x.head? ≠ some c := by
    intro c hc hx
    have hw : isWord c = false ∧ c ≠ '\'' ∧ c ≠ '\r' ∧ c ≠ '\n' := by rcases hc with rfl | rfl <;> decide
    rcases h.mark hx hw with ⟨d, s, h1, h2, h3⟩ | ⟨_, h3⟩ | ⟨y, h3⟩
    · have := List.all_eq_true.mp check_heads t (List.mem_range.mpr ht)
      simp only [h1, Option.bind_some, h2, Bool.and_eq_true, bne_iff_ne] at this
      rw [h3] at hx
      rcases hc with rfl | rfl
      · exact this.1 hx
      · exact this.2 hx
    · rw [h3] at hx; rcases hc with rfl | rfl <;> cases hx
    · rw [← h3] at hx; rcases hc with rfl | rfl <;> cases hx
  exact ⟨key _ (.inl rfl), key _ (.inr rfl)⟩

/-- a token that is a line break -/
def breakType (t : Nat) : Bool := t == T._NEWLINE || t == T._CPP_COMMENT_NL

theorem check_breaks : (List.range numStates).all (fun st => !breakType (prevOf st) ||
    (!acts st T.__ANON_1 && (List.range tEND).all (fun t => !acts st t || match (term? t).bind (·.strVal) with
      | some s => infixChars.all (fun c => s.toList.head? != some c)
      | .none => true))) = true := by decide +kernel

/-- Behind a line break, no token begins like an operator, except `//` comments. -/
theorem break_infix {p t x c} (hp : breakType p = true) (hf : Follows p t) (h : TokText t x) (ht : t < tEND)
    (hx : x.head? = some c) (hc : c ∈ infixChars) : ['/', '/'] <+: x := by
  obtain ⟨st, h1, rfl, h3⟩ := hf
  have hk := List.all_eq_true.mp check_breaks st (List.mem_range.mpr h1)
  simp only [hp, Bool.not_true, Bool.false_or, Bool.and_eq_true, Bool.not_eq_true'] at hk
  have hall : infixChars.all (fun c => !isWord c && c != '\'' && c != '\r' && c != '\n') = true := by decide +kernel
  have hw := List.all_eq_true.mp hall c hc
  simp only [Bool.and_eq_true, Bool.not_eq_true', bne_iff_ne] at hw
  rcases h.mark hx ⟨hw.1.1.1, hw.1.1.2, hw.1.2, hw.2⟩ with ⟨d, s, h4, h5, h6⟩ | ⟨rfl, _⟩ | h4
  · have := List.all_eq_true.mp hk.2 t (List.mem_range.mpr ht)
    simp only [h3, Bool.not_true, Bool.false_or, h4, Option.bind_some, h5] at this
    have := List.all_eq_true.mp this c hc
    simp only [bne_iff_ne] at this
    rw [h6] at hx
    exact absurd hx this
  · rw [h3] at hk; cases hk.1
  · exact h4

end Pycep
