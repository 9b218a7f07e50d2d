import Verif.Tree
/-
Specification of parsing, independent of the automaton: which trees are derivations.
-/
namespace Pycep

/-- `Der syms trees toks`: the sequence of grammar symbols `syms` derives the token sequence `toks`,
and `trees` are the trees that Lark's tree builder makes of that derivation.  A terminal derives one
token of its type; a nonterminal derives what the right-hand side of one of its rules derives. -/
inductive Der : List Nat → List Tree → List Tok → Prop where
  | nil : Der [] [] []
  | tok {ss ts w} (t : Tok) : Der ss ts w → Der (t.type :: ss) (.tok t :: ts) (t :: w)
  | node {ss ts w kids w₁} (r : Rule) : r ∈ rules → Der r.rhs kids w₁ → Der ss ts w →
      Der (r.lhs :: ss) (buildNode r kids :: ts) (w₁ ++ w)

theorem Der.append {s₁ t₁ w₁ s₂ t₂ w₂} (h₁ : Der s₁ t₁ w₁) (h₂ : Der s₂ t₂ w₂) :
    Der (s₁ ++ s₂) (t₁ ++ t₂) (w₁ ++ w₂) := by
  induction h₁ with
  | nil => exact h₂
  | tok t _ ih => exact .tok t ih
  | node r hr hk _ _ ih =>
    rw [List.append_assoc]; exact .node r hr hk ih

theorem Der.split {s₁ s₂ ts w} (h : Der (s₁ ++ s₂) ts w) :
    ∃ t₁ t₂ w₁ w₂, ts = t₁ ++ t₂ ∧ w = w₁ ++ w₂ ∧ Der s₁ t₁ w₁ ∧ Der s₂ t₂ w₂ := by
  generalize hs : s₁ ++ s₂ = ss at h
  induction h generalizing s₁ with
  | nil =>
    have : s₁ = [] ∧ s₂ = [] := List.append_eq_nil_iff.mp hs
    obtain ⟨rfl, rfl⟩ := this
    exact ⟨[], [], [], [], rfl, rfl, .nil, .nil⟩
  | @tok ss ts w t h ih =>
    cases s₁ with
    | nil =>
      have hs' : s₂ = t.type :: ss := hs
      subst hs'
      exact ⟨[], _, [], _, rfl, rfl, .nil, .tok t h⟩
    | cons a s₁ =>
      simp only [List.cons_append, List.cons.injEq] at hs
      obtain ⟨rfl, hs⟩ := hs
      obtain ⟨t₁, t₂, w₁, w₂, rfl, rfl, h₁, h₂⟩ := ih hs
      exact ⟨_ :: t₁, t₂, _ :: w₁, w₂, rfl, rfl, .tok t h₁, h₂⟩
  | @node ss ts w kids w₁ r hr hk h _ ih =>
    cases s₁ with
    | nil =>
      have hs' : s₂ = r.lhs :: ss := hs
      subst hs'
      exact ⟨[], _, [], _, rfl, rfl, .nil, .node r hr hk h⟩
    | cons a s₁ =>
      simp only [List.cons_append, List.cons.injEq] at hs
      obtain ⟨rfl, hs⟩ := hs
      obtain ⟨t₁, t₂, w₁', w₂, rfl, rfl, h₁, h₂⟩ := ih hs
      exact ⟨_ :: t₁, t₂, _ ++ w₁', w₂, rfl, by simp, .node r hr hk h₁, h₂⟩

theorem Der.length {ss ts w} (h : Der ss ts w) : ss.length = ts.length := by
  induction h with
  | nil => rfl
  | tok _ _ ih => simp [ih]
  | node _ _ _ _ _ ih => simp [ih]

/-! ### Derivations with look-ahead

What the automaton builds is a derivation in which, in addition, every rule was applied in front of
a token for which the table contains that reduction. -/

/-- the type of the token that follows: the first of `w`, or `n` if there is none -/
def nextT (w : List Tok) (n : Nat) : Nat :=
  match w with
  | [] => n
  | t :: _ => t.type

theorem nextT_nil (n : Nat) : nextT [] n = n := rfl
theorem nextT_cons (u : Tok) (w : List Tok) (n : Nat) : nextT (u :: w) n = u.type := rfl

theorem nextT_append (a b : List Tok) (n : Nat) : nextT (a ++ b) n = nextT a (nextT b n) := by
  cases a <;> rfl

/-- the table contains a reduction by `r` in front of `n` -/
def CanReduce (r : Rule) (n : Nat) : Prop :=
  ∃ i s, rules[i]? = some r ∧ s < numStates ∧ action s n = .reduce i

/-- `Der` where `n` is the type of the token after `toks`. -/
inductive DerL : List Nat → List Tree → List Tok → Nat → Prop where
  | nil {n} : DerL [] [] [] n
  | tok {ss ts w n} (t : Tok) : DerL ss ts w n → DerL (t.type :: ss) (.tok t :: ts) (t :: w) n
  | node {ss ts w kids w₁ n} (r : Rule) : r ∈ rules → CanReduce r (nextT w n) →
      DerL r.rhs kids w₁ (nextT w n) → DerL ss ts w n →
      DerL (r.lhs :: ss) (buildNode r kids :: ts) (w₁ ++ w) n

theorem DerL.der {ss ts w n} (h : DerL ss ts w n) : Der ss ts w := by
  induction h with
  | nil => exact .nil
  | tok t _ ih => exact .tok t ih
  | node r hr _ _ _ ih1 ih2 => exact .node r hr ih1 ih2

theorem DerL.length {ss ts w n} (h : DerL ss ts w n) : ss.length = ts.length := h.der.length

theorem DerL.append {s₁ t₁ w₁ s₂ t₂ w₂ n} (h₁ : DerL s₁ t₁ w₁ (nextT w₂ n)) (h₂ : DerL s₂ t₂ w₂ n) :
    DerL (s₁ ++ s₂) (t₁ ++ t₂) (w₁ ++ w₂) n := by
  generalize hm : nextT w₂ n = m at h₁
  induction h₁ with
  | nil => exact h₂
  | tok t _ ih => exact .tok t (ih hm)
  | node r hr hc hk _ _ ih =>
    subst hm
    rw [List.append_assoc]
    refine .node r hr ?_ ?_ (ih rfl) <;> rw [nextT_append] <;> assumption

theorem DerL.split {s₁ s₂ ts w n} (h : DerL (s₁ ++ s₂) ts w n) :
    ∃ t₁ t₂ w₁ w₂, ts = t₁ ++ t₂ ∧ w = w₁ ++ w₂ ∧ DerL s₁ t₁ w₁ (nextT w₂ n) ∧ DerL s₂ t₂ w₂ n := by
  generalize hs : s₁ ++ s₂ = ss at h
  induction h generalizing s₁ with
  | nil =>
    have : s₁ = [] ∧ s₂ = [] := List.append_eq_nil_iff.mp hs
    obtain ⟨rfl, rfl⟩ := this
    exact ⟨[], [], [], [], rfl, rfl, .nil, .nil⟩
  | @tok ss ts w n t h ih =>
    cases s₁ with
    | nil =>
      have hs' : s₂ = t.type :: ss := hs
      subst hs'
      exact ⟨[], _, [], _, rfl, rfl, .nil, .tok t h⟩
    | cons a s₁ =>
      simp only [List.cons_append, List.cons.injEq] at hs
      obtain ⟨rfl, hs⟩ := hs
      obtain ⟨t₁, t₂, w₁, w₂, rfl, rfl, h₁, h₂⟩ := ih hs
      exact ⟨_ :: t₁, t₂, _ :: w₁, w₂, rfl, rfl, .tok t h₁, h₂⟩
  | @node ss ts w kids w₁ n r hr hc hk h _ ih =>
    cases s₁ with
    | nil =>
      have hs' : s₂ = r.lhs :: ss := hs
      subst hs'
      exact ⟨[], _, [], _, rfl, rfl, .nil, .node r hr hc hk h⟩
    | cons a s₁ =>
      simp only [List.cons_append, List.cons.injEq] at hs
      obtain ⟨rfl, hs⟩ := hs
      obtain ⟨t₁, t₂, w₁', w₂, rfl, rfl, h₁, h₂⟩ := ih hs
      rw [nextT_append] at hc hk
      exact ⟨_ :: t₁, t₂, _ ++ w₁', w₂, rfl, by simp, .node r hr hc hk h₁, h₂⟩

end Pycep
