import Verif.Proofs.LRComplete
import Verif.Proofs.Syn
/-
Building admissible derivations bottom-up: which (position-free) trees a symbol yields for which
tokens.  The opposite direction of `SynDef`.
-/
set_option linter.style.nameCheck false
namespace Pycep

/-- The symbols `ss` yield the trees `cs` (without positions) for the tokens `w` in front of `n`. -/
def YL (ss : List Nat) (cs : List Tree) (w : List Tok) (n : Nat) : Prop :=
  (∀ u ∈ w, u.type < tEND) ∧ ∃ ts, DerB ss ts w n ∧ coreList ts = cs

/-- The symbol `X` yields the tree `c` (without positions) for the tokens `w` in front of `n`. -/
def Y (X : Nat) (c : Tree) (w : List Tok) (n : Nat) : Prop := YL [X] [c] w n

theorem YL.nil {n} : YL [] [] [] n := ⟨by simp, [], .nil, rfl⟩

theorem YL.tok {X ss cs u w n} (k : u.type = X) (hX : X < tEND) (h : YL ss cs w n) :
    YL (X :: ss) (tk X u.text :: cs) (u :: w) n := by
  obtain ⟨hw, ts, hd, hc⟩ := h
  subst k
  refine ⟨?_, .tok u :: ts, .tok u hd, ?_⟩
  · intro v hv
    rcases List.mem_cons.mp hv with rfl | hv
    · exact hX
    · exact hw v hv
  · simp only [coreList, hc, Tree.core, tk]

theorem YL.nt {X ss c cs w1 w2 n} (h1 : Y X c w1 (nextT w2 n)) (h2 : YL ss cs w2 n)
    (hg : X = N.value_brackets → ss.head? = some N.value_brackets →
      nextT w2 n ≠ T.MINUS ∧ nextT w2 n ≠ T.LSQB) :
    YL (X :: ss) (c :: cs) (w1 ++ w2) n := by
  obtain ⟨hw1, ts1, hd1, hc1⟩ := h1
  obtain ⟨hw2, ts2, hd2, hc2⟩ := h2
  have hw : ∀ u ∈ w1 ++ w2, u.type < tEND := by
    intro u hu
    rcases List.mem_append.mp hu with hu | hu
    · exact hw1 u hu
    · exact hw2 u hu
  cases hd1 with
  | tok t h =>
    cases h
    simp only [coreList, List.cons.injEq, and_true] at hc1
    exact ⟨hw, _, .tok t hd2, by simp only [coreList, hc1, hc2]⟩
  | node r hr hb _ hk h =>
    cases h
    simp only [coreList, List.cons.injEq, and_true] at hc1
    have hd := DerB.node (w := w2) (n := n) r hr hb hg hk hd2
    rw [List.append_nil] at hw ⊢
    exact ⟨hw, _, hd, by simp only [coreList, hc1, hc2]⟩

/-- The lines of trees are those of their tokens. -/
theorem der_lines {ss ts w} (h : Der ss ts w) (hw : ∀ t ∈ w, t.type < tEND) :
    treeLines ts = wordLines w ∧ List.Forall₂ NodeOrTok ss ts := by
  induction h with
  | nil => exact ⟨rfl, .nil⟩
  | @tok ss ts w t _ ih =>
    obtain ⟨ih1, ih2⟩ := ih (fun u hu => hw u (by simp [hu]))
    refine ⟨?_, .cons ⟨by simp, fun _ _ => ?_⟩ ih2⟩
    · rw [treeLines_cons, show t :: w = [t] ++ w from rfl, wordLines_append, ih1]; rfl
    · have := hw t (by simp)
      unfold tEND at this
      simp only [tokenSym, Bool.or_eq_true, decide_eq_true_eq]
      left; omega
  | @node ss ts w kids w₁ r hr hk h ih1 ih2 =>
    obtain ⟨a1, a2⟩ := ih1 (fun u hu => hw u (by simp [hu]))
    obtain ⟨b1, b2⟩ := ih2 (fun u hu => hw u (by simp [hu]))
    obtain ⟨c1, c2⟩ := build_lines hr a2
    refine ⟨?_, .cons c2 b2⟩
    rw [treeLines_cons, wordLines_append, b1, c1, a1]
    rfl

theorem linesOf_wordLines {w l} (h : LinesOf l w) : wordLines w = some l := by
  obtain ⟨u, v, h1, h2, rfl⟩ := h
  simp only [wordLines, h1, h2]

theorem Rule.mem_of_any {r : Rule} (h : rules.any r.same = true) : r ∈ rules := by
  obtain ⟨b, hb, e⟩ := List.any_eq_true.mp h
  rw [Rule.same_eq e]
  exact hb

/-- one node -/
theorem Y.rule (r : Rule) {cs c w n} (l : Lines) (hr : rules.any r.same = true)
    (hk : YL r.rhs cs w n) (hb : badNode r n = false)
    (hl : metaNodes.contains r.name = true → LinesOf l w)
    (hx : r.expand1 = true → isMeta c = false) (hc : coreBuild r cs l = c) : Y r.lhs c w n := by
  subst hc
  obtain ⟨hw, ts, hd, rfl⟩ := hk
  refine ⟨hw, [buildNode r ts], ?_, ?_⟩
  · have := DerB.node (ss := []) (ts := []) (w := []) (n := n) r (Rule.mem_of_any hr) hb
      (fun _ h => by simp at h) hd .nil
    rwa [List.append_nil] at this
  · simp only [coreList, List.cons.injEq, and_true]
    refine core_build (fun hm => ?_) hx
    rw [(der_lines hd.der hw).1]
    exact linesOf_wordLines (hl hm)

theorem kidsOf_nd (d : String) (ks : List Tree) : kidsOf (nd d ks) = ks := rfl

/-- an ordinary node -/
theorem Y.node (r : Rule) {cs ks w n} (hr : rules.any r.same = true) (hx : r.expand1 = false)
    (hm : metaNodes.contains r.name = false) (hb : badNode r n = false) (hk : YL r.rhs cs w n)
    (hks : keepKids' r cs = ks) : Y r.lhs (nd r.name ks) w n := by
  refine Y.rule r (0, 0) hr hk hb (fun h => by rw [hm] at h; cases h) (by simp [hx]) ?_
  unfold coreBuild mkCore
  rw [keepKids_eq, hks, hx, hm]
  rfl

/-- a node with line numbers -/
theorem Y.nodeL (r : Rule) {cs ks w n} {l : Lines} (hr : rules.any r.same = true)
    (hx : r.expand1 = false) (hm : metaNodes.contains r.name = true) (hb : badNode r n = false)
    (hl : LinesOf l w) (hk : YL r.rhs cs w n) (hks : keepKids' r cs = ks) :
    Y r.lhs (ndl r.name ks l) w n := by
  refine Y.rule r l hr hk hb (fun _ => hl) (by simp [hx]) ?_
  unfold coreBuild mkCore
  rw [keepKids_eq, hks, hx, hm]
  rfl

/-- a `?rule` that is replaced by its child -/
theorem Y.ex (r : Rule) {cs c w n} (hr : rules.any r.same = true) (hx : r.expand1 = true)
    (hm : metaNodes.contains r.name = false) (hb : badNode r n = false) (hk : YL r.rhs cs w n)
    (hks : keepKids' r cs = [c]) (hc : isMeta c = false) : Y r.lhs c w n := by
  refine Y.rule r (0, 0) hr hk hb (fun h => by rw [hm] at h; cases h) (fun _ => hc) ?_
  unfold coreBuild
  rw [keepKids_eq, hks, hx]

/-- a `?rule` with several children -/
theorem Y.long (r : Rule) {cs a b ks w n} (hr : rules.any r.same = true) (hx : r.expand1 = true)
    (hm : metaNodes.contains r.name = false) (hb : badNode r n = false) (hk : YL r.rhs cs w n)
    (hks : keepKids' r cs = a :: b :: ks) : Y r.lhs (nd r.name (a :: b :: ks)) w n := by
  refine Y.rule r (0, 0) hr hk hb (fun h => by rw [hm] at h; cases h) (fun _ => by simpa [isMeta, nd] using hm) ?_
  unfold coreBuild mkCore
  rw [keepKids_eq, hks, hx, hm]
  rfl

/-! ### Look-ahead -/

theorem NoInfix.is {n} (h : NoInfix n) : isInfix n = false := by
  unfold isInfix
  cases hf : fixedText n with
  | none => rfl
  | some s =>
    simp only [List.contains_eq_mem, decide_eq_false_iff_not]
    exact fun hs => h s hs hf

theorem NoBang.ne {n} (h : NoBang n) : n ≠ T.BANG := by
  rintro rfl
  exact h (by decide +kernel)

/-- a rule that may be applied in front of everything, apart from operators if it ends with an
operand -/
def freeRule (r : Rule) : Bool :=
  !(r.lhs == N.value_brackets && r.rhs.getLast? != some T.BANG) &&
  r.rhs != [N.key, T.COLON, N.value_brackets, T.QMARK] && r.lhs != N.child_resource &&
  r.rhs != [N.__function_accessor_plus_13] &&
  !(r.rhs == [] && r.lhs == N.__function_accessor_plus_13) &&
  !(r.lhs == N.__start_star_0 && r.rhs.getLast? == some N.element)

theorem free_plain {r : Rule} {n} (h : freeRule r = true)
    (hl : r.rhs.getLast? ≠ some N.value_brackets) : badNode r n = false := by
  have hl' : (r.rhs.getLast? == some N.value_brackets) = false := by simpa using hl
  unfold freeRule at h
  unfold badNode badReduce
  rw [hl']
  simp only [Bool.and_eq_true, Bool.not_eq_true', bne_iff_ne, ne_eq] at h
  obtain ⟨⟨⟨⟨⟨h1, h2⟩, h3⟩, h4⟩, h5⟩, h6⟩ := h
  have h2' : (r.rhs == [N.key, T.COLON, N.value_brackets, T.QMARK]) = false := by simpa using h2
  have h3' : (r.lhs == N.child_resource) = false := by simpa using h3
  have h4' : (r.rhs == [N.__function_accessor_plus_13]) = false := by simpa using h4
  rw [h1, h2', h3', h4', h5, h6]
  rfl

theorem free_infix {r : Rule} {n} (h : freeRule r = true) (hn : NoInfix n) :
    badNode r n = false := by
  unfold freeRule at h
  unfold badNode badReduce
  rw [hn.is]
  simp only [Bool.and_eq_true, Bool.not_eq_true', bne_iff_ne, ne_eq] at h
  obtain ⟨⟨⟨⟨⟨h1, h2⟩, h3⟩, h4⟩, h5⟩, h6⟩ := h
  have h2' : (r.rhs == [N.key, T.COLON, N.value_brackets, T.QMARK]) = false := by simpa using h2
  have h3' : (r.lhs == N.child_resource) = false := by simpa using h3
  have h4' : (r.rhs == [N.__function_accessor_plus_13]) = false := by simpa using h4
  rw [h1, h2', h3', h4', h5, h6]
  simp

theorem beq_false {n t : Nat} (h : n ≠ t) : (n == t) = false := by simpa using h

end Pycep
