import Verif.Props.Lines
/-
C45, C46: the text is cut into pieces without loss; the tree is a derivation of the grammar.
-/
namespace Pycep

/-- A piece of a text: skipped (`none`) or a token of the given type. -/
structure Cut where
  type : Option Nat
  text : List Char

/-- what a piece may look like -/
def Cut.OK (q : Cut) : Prop :=
  match q.type with
  | .none => Trivia q.text
  | some t => t < tEND ∧ TokText t q.text

/-- the tokens among the pieces of a text that begins on line `l` -/
def tokensOf (l : Nat) : List Cut → List Tok
  | [] => []
  | q :: qs =>
    match q.type with
    | .none => tokensOf (l + countNL q.text) qs
    | some t => ⟨t, q.text, l, l + countNL q.text⟩ :: tokensOf (l + countNL q.text) qs

theorem tiling_pieces {l : Nat} {x : List Char} {w : List Tok} (h : Tiling l x w) :
    ∃ qs : List Cut, x = qs.flatMap Cut.text ∧ (∀ q ∈ qs, q.OK) ∧ w = tokensOf l qs := by
  induction h with
  | nil => exact ⟨[], rfl, by simp, rfl⟩
  | @skip l x s w ht _ ih =>
    obtain ⟨qs, rfl, h1, rfl⟩ := ih
    refine ⟨⟨.none, x⟩ :: qs, rfl, ?_, rfl⟩
    intro q hq
    rcases List.mem_cons.mp hq with rfl | hq
    · exact ht
    · exact h1 q hq
  | @tok l x s w t ht hlt _ ih =>
    obtain ⟨qs, rfl, h1, rfl⟩ := ih
    refine ⟨⟨some t, x⟩ :: qs, rfl, ?_, rfl⟩
    intro q hq
    rcases List.mem_cons.mp hq with rfl | hq
    · exact ⟨hlt, ht⟩
    · exact h1 q hq

/-! ### the tokens that a tree keeps -/

mutual
/-- the tokens in a tree, from left to right -/
def Tree.leaves : Tree → List Tok
  | .tok t => [t]
  | .none => []
  | .node _ ks _ => Tree.leavesL ks
/-- the tokens in several trees -/
def Tree.leavesL : List Tree → List Tok
  | [] => []
  | t :: ts => t.leaves ++ Tree.leavesL ts
end

theorem leavesL_append (a b : List Tree) : Tree.leavesL (a ++ b) = Tree.leavesL a ++ Tree.leavesL b := by
  induction a with
  | nil => simp [Tree.leavesL]
  | cons t a ih => simp [Tree.leavesL, ih]

theorem leavesL_nones (n : Nat) : Tree.leavesL (List.replicate n Tree.none) = [] := by
  induction n with
  | zero => rfl
  | succ n ih => rw [List.replicate_succ, Tree.leavesL, ih]; rfl

/-- positions that increase from `n` on -/
def increasing : Nat → List (Nat × Bool × Nat) → Bool
  | _, [] => true
  | n, (i, _, _) :: l => decide (n ≤ i) && increasing (i + 1) l

/-- No rule reorders or duplicates its children. -/
theorem rules_increasing : ∀ r ∈ rules, increasing 0 r.keep = true := by
  have : rules.all (fun r => increasing 0 r.keep) = true := by decide +kernel
  simpa using this

theorem leavesL_kept (kids : List Tree) : ∀ (l : List (Nat × Bool × Nat)) (n : Nat), increasing n l = true →
    (Tree.leavesL (l.flatMap (fun (i, inline, nones) =>
    List.replicate nones Tree.none ++
      (match kids[i]? with
       | .none => []
       | some k => if inline then (match k with | .node _ ks _ => ks | _ => []) else [k])))).Sublist
      (Tree.leavesL (kids.drop n)) := by
  intro l
  induction l with
  | nil => intro n _; exact List.nil_sublist _
  | cons q l ih =>
    obtain ⟨i, inline, nones⟩ := q
    intro n h
    simp only [increasing, Bool.and_eq_true, decide_eq_true_eq] at h
    obtain ⟨hi, h⟩ := h
    have ih := ih _ h
    rw [List.flatMap_cons, leavesL_append, leavesL_append, leavesL_nones, List.nil_append]
    have hd : (Tree.leavesL (kids.drop i)).Sublist (Tree.leavesL (kids.drop n)) := by
      obtain ⟨m, rfl⟩ := Nat.exists_eq_add_of_le hi
      rw [← List.drop_drop]
      conv => rhs; rw [← List.take_append_drop m (kids.drop n)]
      rw [leavesL_append]
      exact List.sublist_append_right _ _
    refine List.Sublist.trans ?_ hd
    cases hk : kids[i]? with
    | none =>
      simp only [Tree.leavesL, List.nil_append]
      rw [List.getElem?_eq_none_iff] at hk
      rw [List.drop_eq_nil_of_le (by omega)] at ih
      exact List.Sublist.trans ih (List.nil_sublist _)
    | some k =>
      obtain ⟨hlt, rfl⟩ := List.getElem?_eq_some_iff.mp hk
      rw [List.drop_eq_getElem_cons hlt, Tree.leavesL]
      refine List.Sublist.append ?_ ih
      cases inline with
      | false => simp [Tree.leavesL]
      | true =>
        simp only [if_true]
        cases hkk : kids[i] with
        | node d ks sp => simp [Tree.leaves]
        | tok t => simp [Tree.leavesL]
        | none => simp [Tree.leavesL]

theorem leaves_setSpan (t : Tree) (kids : List Tree) : (setSpan t kids).leaves = t.leaves := by
  unfold setSpan
  repeat' split
  all_goals simp [Tree.leaves]

theorem leaves_buildNode {r : Rule} (hr : r ∈ rules) (kids : List Tree) :
    (buildNode r kids).leaves.Sublist (Tree.leavesL kids) := by
  have hk : (Tree.leavesL (keepKids r kids)).Sublist (Tree.leavesL kids) := by
    unfold keepKids
    rw [leavesL_append, leavesL_nones, List.append_nil]
    have := leavesL_kept kids r.keep 0 (rules_increasing r hr)
    rwa [List.drop_zero] at this
  unfold buildNode
  simp only [leaves_setSpan]
  split
  · rename_i k hk1 hk2
    rw [hk2] at hk
    simpa [Tree.leavesL] using hk
  · simpa [Tree.leaves] using hk

theorem der_leaves {ss ts w} (h : Der ss ts w) : (Tree.leavesL ts).Sublist w := by
  induction h with
  | nil => exact List.nil_sublist _
  | tok t _ ih => rw [Tree.leavesL, Tree.leaves]; exact ih.cons_cons t
  | node r hr _ _ ih1 ih2 =>
    rw [Tree.leavesL]
    exact ((leaves_buildNode hr _).trans ih1).append ih2

/-! ### the theorems -/

/-- **C45.** If a text is accepted, it is exactly the concatenation of pieces; each piece is skipped
(blanks, `#` comment, `/* */` comment) or a token with a text its type allows; the tokens,
each with the line on which it begins, are the ones that the tree is a derivation of. -/
theorem C45_lossless {text path tree} (h : createTree' text path = .ok tree) :
    ∃ (t : String) (qs : List Cut), chosenText text path = .ok t ∧
      t.toList = qs.flatMap Cut.text ∧ (∀ q ∈ qs, q.OK) ∧
      Der [N.start] [tree] (tokensOf 1 qs) := by
  rcases createTree'_cases text path with ⟨e, h1, h2⟩ | ⟨t, m, h1, h2, h3, h4⟩ | ⟨t, h1, h2, _, h3⟩ |
    ⟨t, tree', p, h1, h2, h3, h4, h5, h6⟩
  · rw [h] at h2; cases h2
  · rw [h] at h3; cases h3
  · rw [h] at h3; cases h3
  · rw [h] at h6; cases h6
    obtain ⟨w, hw, hd⟩ := (larkParse_sound t).2.2 tree h3
    obtain ⟨qs, h7, h8, rfl⟩ := tiling_pieces hw
    exact ⟨t, qs, h1, h7, h8, hd.der⟩

/-- The same for `parse`: whatever it returns is made of such a tree. -/
theorem C45_lossless_parse {P : Parser} {text path v} (h : P.parse text path = .ok v) :
    ∃ (t : String) (qs : List Cut) (tree : Tree), chosenText text path = .ok t ∧
      t.toList = qs.flatMap Cut.text ∧ (∀ q ∈ qs, q.OK) ∧
      Der [N.start] [tree] (tokensOf 1 qs) ∧ createTree' text path = .ok tree ∧
      bicepToJson P.addLineNumbers tree = .ok v := by
  rw [parse_eq] at h
  cases ht : createTree' text path with
  | error e => rw [ht] at h; cases h
  | ok tree =>
    rw [ht] at h
    simp only [Except.bind] at h
    obtain ⟨t, qs, h1, h2, h3, h4⟩ := C45_lossless ht
    refine ⟨t, qs, tree, h1, h2, h3, h4, rfl, ?_⟩
    unfold liftV at h
    split at h <;> simp_all

/-- **C46.** A tree that `create_tree` returns is a derivation of `start` in the grammar: every node
is what the tree builder makes of the right hand side of a rule, the leaves of the derivation are the
tokens of the text in order.  The tokens that are still in the tree after the tree builder dropped
the anonymous ones are a subsequence of the tokens of the text. -/
theorem C46_derivation {text path tree} (h : createTree' text path = .ok tree) :
    ∃ t w, chosenText text path = .ok t ∧ Tiling 1 t.toList w ∧ Der [N.start] [tree] w ∧
      tree.leaves.Sublist w := by
  rcases createTree'_cases text path with ⟨e, h1, h2⟩ | ⟨t, m, h1, h2, h3, h4⟩ | ⟨t, h1, h2, _, h3⟩ |
    ⟨t, tree', p, h1, h2, h3, h4, h5, h6⟩
  · rw [h] at h2; cases h2
  · rw [h] at h3; cases h3
  · rw [h] at h3; cases h3
  · rw [h] at h6; cases h6
    obtain ⟨w, hw, hd⟩ := (larkParse_sound t).2.2 tree h3
    have := der_leaves hd.der
    rw [Tree.leavesL, Tree.leavesL, List.append_nil] at this
    exact ⟨t, w, h1, hw, hd.der, this⟩

/-- a text with comments, blanks and two declarations is accepted, its tree keeps three tokens -/
example : ∃ tree, createTree' (some "var a = /* c */ 12 # d\nvar b = a\n") .none = .ok tree ∧
    tree.leaves.map (fun u => (txt u.text, u.line)) = [("a", 1), ("12", 1), ("b", 2), ("a", 2)] := by
  have : (match createTree' (some "var a = /* c */ 12 # d\nvar b = a\n") .none with
    | .ok tree => decide (tree.leaves.map (fun u => (txt u.text, u.line)) = [("a", 1), ("12", 1), ("b", 2), ("a", 2)])
    | .error _ => false) = true := by decide +kernel
  split at this
  · rename_i tree h; exact ⟨tree, h, of_decide_eq_true this⟩
  · cases this

end Pycep
