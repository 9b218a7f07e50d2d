import Verif.Spec.Brackets
import Verif.Spec.Text
import Verif.Derivation
import Verif.Props.Stray
/-
Brackets in derivations match, because they do on the right hand side of every rule.
-/
namespace Pycep

/-- A machine that keeps the closing brackets still to come. -/
def track : List Char → List Char → Option (List Char)
  | stk, [] => some stk
  | stk, c :: x => match bracketPairs.find? (fun p => p.1 == c) with
    | some p => track (p.2 :: stk) x
    | .none => match stk with
      | d :: stk => if c = d then track stk x else .none
      | [] => .none

theorem track_append (x y : List Char) : ∀ stk, track stk (x ++ y) = (track stk x).bind (fun s => track s y) := by
  induction x with
  | nil => intro stk; rfl
  | cons c x ih =>
    intro stk
    simp only [List.cons_append, track]
    split
    · exact ih _
    · split
      · split
        · exact ih _
        · rfl
      · rfl

theorem track_below (x r : List Char) : ∀ stk stk', track stk x = some stk' →
    track (stk ++ r) x = some (stk' ++ r) := by
  induction x with
  | nil => intro stk stk' h; simp only [track, Option.some.injEq] at h ⊢; rw [h]
  | cons c x ih =>
    intro stk stk' h
    simp only [track] at h ⊢
    split at h
    · exact ih _ _ h
    · split at h
      · split at h
        · rename_i hc
          simp only [List.cons_append, hc, if_true]
          exact ih _ _ h
        · cases h
      · cases h

/-- what is left to close the brackets of the stack -/
def Closes : List Char → List Char → Prop
  | [], a => Bracketed a
  | c :: st, a => ∃ x y, a = x ++ c :: y ∧ Bracketed x ∧ Closes st y

theorem closes_of_track (a : List Char) : ∀ stk, track stk a = some [] → Closes stk a := by
  induction a with
  | nil =>
    intro stk h
    simp only [track, Option.some.injEq] at h
    subst h
    exact .nil
  | cons c a ih =>
    intro stk h
    simp only [track] at h
    split at h
    · rename_i p hp
      have hm := List.mem_of_find?_eq_some hp
      have hc : p.1 = c := by simpa using List.find?_some hp
      obtain ⟨x, y, rfl, hx, hy⟩ := ih _ h
      rw [← hc]
      cases stk with
      | nil => exact .pair hm hx hy
      | cons d st =>
        obtain ⟨x₂, y₂, rfl, hx₂, hy₂⟩ := hy
        exact ⟨p.1 :: x ++ p.2 :: x₂, y₂, by simp, .pair hm hx hx₂, hy₂⟩
    · split at h
      · split at h
        · rename_i hc
          subst hc
          exact ⟨[], a, rfl, .nil, ih _ h⟩
        · cases h
      · cases h

theorem bracketed_of_track {a} (h : track [] a = some []) : Bracketed a := closes_of_track a [] h

theorem track_of_bracketed {a} (h : Bracketed a) : ∀ stk, track stk a = some stk := by
  induction h with
  | nil => intro stk; rfl
  | @pair o c a b hm _ _ iha ihb =>
    intro stk
    have h1 : bracketPairs.find? (fun p => p.1 == o) = some (o, c) ∧
        bracketPairs.find? (fun p => p.1 == c) = .none := by
      simp only [bracketPairs, List.mem_cons, Prod.mk.injEq, List.not_mem_nil, or_false] at hm
      rcases hm with ⟨rfl, rfl⟩ | ⟨rfl, rfl⟩ | ⟨rfl, rfl⟩ <;> decide
    simp only [List.cons_append, track, h1.1, track_append, iha, Option.bind_some, h1.2, if_true]
    exact ihb stk

/-! ### Brackets by type -/

/-- the brackets in the text of a token of this type -/
def bracketsOf (t : Nat) : List Char :=
  if t = T.FUNCTION then ['('] else match (term? t).bind (·.strVal) with
    | some s => s.toList.filter isBracket
    | .none => []

theorem check_rules : rules.all (fun r => track [] (r.rhs.flatMap bracketsOf) == some [] &&
    (bracketsOf r.lhs).isEmpty) = true := by decide +kernel

theorem der_track {ss ts w} (h : Der ss ts w) :
    ∀ stk, track stk (w.flatMap (fun u => bracketsOf u.type)) = track stk (ss.flatMap bracketsOf) := by
  induction h with
  | nil => intro stk; rfl
  | tok t _ ih => intro stk; simp only [List.flatMap_cons, track_append, ih]
  | node r hr _ _ ih1 ih2 =>
    intro stk
    have := List.all_eq_true.mp check_rules r hr
    simp only [Bool.and_eq_true, beq_iff_eq, List.isEmpty_iff] at this
    have h0 := track_below _ stk _ _ this.1
    simp only [List.nil_append] at h0
    simp only [List.flatMap_append, List.flatMap_cons, track_append, ih1, ih2, this.2, h0, track]

theorem check_fixed : (List.range tEND).all (fun t => match (term? t).bind (·.strVal) with
    | some s => match s.toList with
      | '\'' :: _ => false
      | '/' :: '/' :: _ => false
      | _ => true
    | .none => true) = true := by decide +kernel

theorem filter_none {x : List Char} (h : ∀ c ∈ x, isBracket c = false) : x.filter isBracket = [] := by
  rw [List.filter_eq_nil_iff]
  intro c hc
  simp [h c hc]

/-- the text of a token that is neither a literal nor a comment -/
def plainStart : List Char → Bool
  | '\'' :: _ => false
  | '/' :: '/' :: _ => false
  | _ => true

theorem Tok.brackets_plain {u : Tok} (h : plainStart u.text = true) : u.brackets = u.text.filter isBracket := by
  unfold Tok.brackets
  split
  · rename_i e; rw [e] at h; cases h
  · rename_i e; rw [e] at h; cases h
  · rfl

theorem plainStart_of {x : List Char} (h1 : '\'' ∉ x) (h2 : '/' ∉ x) : plainStart x = true := by
  unfold plainStart
  split
  · simp at h1
  · simp at h2
  · rfl

theorem alnum_code {c : Char} (h : isAsciiAlnum c = true) : isBracket c = false ∧ c ≠ '\'' ∧ c ≠ '/' := by
  refine ⟨?_, ?_, ?_⟩
  · cases hb : isBracket c with
    | false => rfl
    | true =>
      simp only [isBracket, bracketPairs, List.any_cons, List.any_nil, Bool.or_eq_true, beq_iff_eq, Bool.or_false] at hb
      rcases hb with (rfl | rfl) | (rfl | rfl) | (rfl | rfl) <;> exact absurd h (by decide)
  · rintro rfl; exact absurd h (by decide)
  · rintro rfl; exact absurd h (by decide)

theorem word_code {c : Char} (h : isWord c = true) : isBracket c = false ∧ c ≠ '\'' ∧ c ≠ '/' := by
  refine ⟨?_, ?_, ?_⟩
  · cases hb : isBracket c with
    | false => rfl
    | true =>
      simp only [isBracket, bracketPairs, List.any_cons, List.any_nil, Bool.or_eq_true, beq_iff_eq, Bool.or_false] at hb
      rcases hb with (rfl | rfl) | (rfl | rfl) | (rfl | rfl) <;> exact absurd h (by decide)
  · rintro rfl; exact absurd h (by decide)
  · rintro rfl; exact absurd h (by decide)

theorem code_text {u : Tok} (h : ∀ c ∈ u.text, isBracket c = false ∧ c ≠ '\'' ∧ c ≠ '/') : u.brackets = [] := by
  rw [Tok.brackets_plain (plainStart_of (fun hc => (h _ hc).2.1 rfl) (fun hc => (h _ hc).2.2 rfl))]
  exact filter_none fun c hc => (h c hc).1

/-- the brackets of a token are those of its type -/
theorem brackets_type {u : Tok} (h : TokText u.type u.text) (ht : u.type < tEND) :
    u.brackets = bracketsOf u.type := by
  have pre : ∀ {p : List Char}, (p = [] ∨ p = "sys.".toList ∨ p = "az.".toList) →
      ∀ c ∈ p, isBracket c = false ∧ c ≠ '\'' ∧ c ≠ '/' := by
    rintro p (rfl | rfl | rfl) <;> decide +kernel
  obtain ⟨t, x, l, l'⟩ := u
  simp only at h ht ⊢
  unfold TokText at h
  split at h
  · exact (code_text fun c hc => alnum_code (alpha_alnum (h.2 c hc))).trans (by decide +kernel)
  · obtain ⟨p, n, rfl, hp, _, hn⟩ := h
    have hc : ∀ c ∈ p ++ n, isBracket c = false ∧ c ≠ '\'' ∧ c ≠ '/' := fun c hc =>
      (List.mem_append.mp hc).elim (pre hp c) (fun h => alnum_code (hn c h))
    rw [Tok.brackets_plain]
    · simp only [List.filter_append]
      rw [← List.filter_append, filter_none fun c h => (hc c h).1]
      decide +kernel
    · refine plainStart_of (fun h => ?_) (fun h => ?_)
      · rcases List.mem_append.mp h with h | h
        · exact (hc _ h).2.1 rfl
        · simp at h
      · rcases List.mem_append.mp h with h | h
        · exact (hc _ h).2.2 rfl
        · simp at h
  · obtain ⟨b, rfl⟩ := h; exact Eq.trans rfl (by decide +kernel : [] = bracketsOf _)
  · obtain ⟨b, rfl⟩ := h; exact Eq.trans rfl (by decide +kernel : [] = bracketsOf _)
  · refine (code_text fun c hc => word_code ?_).trans (by decide +kernel)
    exact IsIdentText.word h c hc
  · rcases h with h | ⟨b, n, rfl, hb, hn⟩
    · refine (code_text fun c hc => ?_).trans (by decide +kernel)
      rcases h.chars c hc with rfl | rfl <;> decide
    · exact Eq.trans rfl (by decide +kernel : [] = bracketsOf _)
  · obtain ⟨b, rfl, _⟩ := h; exact Eq.trans rfl (by decide +kernel : [] = bracketsOf _)
  · obtain ⟨p, n, rfl, hp, _, hn⟩ := h
    refine (code_text fun c hc => ?_).trans (by decide +kernel)
    exact (List.mem_append.mp hc).elim (pre (hp.imp_right .inl) c) (fun h => alnum_code (hn c h))
  · refine (code_text fun c hc => ?_).trans (by decide +kernel)
    rcases IsNewlines.chars h c hc with rfl | rfl <;> decide
  · exact (code_text fun c hc => alnum_code (digit_alnum (h.2 c hc))).trans (by decide +kernel)
  · subst h
    exact Eq.trans rfl (by decide +kernel : [] = bracketsOf _)
  · rename_i hne _ _ _ _ _ _ _ _ _
    obtain ⟨d, s, h1, h2, rfl⟩ := h
    have hk := List.all_eq_true.mp check_fixed t (List.mem_range.mpr ht)
    simp only [h1, Option.bind_some, h2] at hk
    rw [Tok.brackets_plain]
    · unfold bracketsOf
      rw [if_neg (by assumption)]
      simp only [h1, Option.bind_some, h2]
    · exact hk

theorem brackets_types {w : List Tok} (h : ∀ u ∈ w, u.type < tEND ∧ TokText u.type u.text) :
    w.flatMap Tok.brackets = w.flatMap (fun u => bracketsOf u.type) := by
  induction w with
  | nil => rfl
  | cons u w ih =>
    simp only [List.mem_cons, forall_eq_or_imp] at h
    rw [List.flatMap_cons, List.flatMap_cons, ih h.2, brackets_type h.1.2 h.1.1]

/-- The brackets of everything the grammar derives match. -/
theorem der_bracketed {t w} (h : Der [N.start] [t] w) (hw : ∀ u ∈ w, u.type < tEND ∧ TokText u.type u.text) :
    Bracketed (w.flatMap Tok.brackets) := by
  rw [brackets_types hw]
  refine bracketed_of_track ((der_track h []).trans ?_)
  decide +kernel

end Pycep
