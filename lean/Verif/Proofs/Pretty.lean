import Verif.Parser
import Mathlib.Data.List.Forall2
/-
What the text printed by `create_tree` says about the tree: everything but the places, the types of
tokens, and the difference between leaves that look alike.
-/
namespace Pycep

/-- `create_tree` prints the trees alike: they differ in places and in the types of tokens only, or
have a token `None` where the other has an absent part, or a token where the other has an empty
node of that name. -/
inductive Alike : Tree → Tree → Prop where
  | tok {u u' : Tok} : u.text = u'.text → Alike (.tok u) (.tok u')
  | none : Alike .none .none
  | tokNone {u : Tok} : u.text = "None".toList → Alike (.tok u) .none
  | noneTok {u : Tok} : u.text = "None".toList → Alike .none (.tok u)
  | tokNode {u : Tok} {d sp} : u.text = d.toList → Alike (.tok u) (.node d [] sp)
  | nodeTok {u : Tok} {d sp} : u.text = d.toList → Alike (.node d [] sp) (.tok u)
  | node {d ks ks' sp sp'} : List.Forall₂ Alike ks ks' → Alike (.node d ks sp) (.node d ks' sp')

/-! ### Lines -/

/-- a line that is indented `n` steps -/
abbrev Row := Nat × List Char

/-- `n` steps -/
def indent (n : Nat) : List Char := List.replicate (2 * n) ' '

/-- the text of some lines -/
def rowsText : List Row → List Char
  | [] => []
  | r :: rs => indent r.1 ++ (r.2 ++ ('\n' :: rowsText rs))

theorem rowsText_append (a b : List Row) : rowsText (a ++ b) = rowsText a ++ rowsText b := by
  induction a with
  | nil => rfl
  | cons r a ih => simp [rowsText, ih]

/-- no line break in it, no blank at its front -/
def Row.Good (r : Row) : Prop := '\n' ∉ r.2 ∧ r.2.head? ≠ some ' '

theorem indent_inj {n m : Nat} {x y : List Char} (hx : x.head? ≠ some ' ') (hy : y.head? ≠ some ' ')
    (h : indent n ++ x = indent m ++ y) : n = m ∧ x = y := by
  unfold indent at h
  have key : ∀ (a b : Nat) (x y : List Char), x.head? ≠ some ' ' → y.head? ≠ some ' ' →
      List.replicate a ' ' ++ x = List.replicate b ' ' ++ y → a = b ∧ x = y := by
    intro a
    induction a with
    | zero =>
      intro b x y hx _ h
      cases b with
      | zero => exact ⟨rfl, by simpa using h⟩
      | succ b =>
        simp only [List.replicate_zero, List.nil_append, List.replicate_succ, List.cons_append] at h
        subst h
        exact absurd rfl hx
    | succ a ih =>
      intro b x y hx hy h
      cases b with
      | zero =>
        simp only [List.replicate_zero, List.nil_append, List.replicate_succ, List.cons_append] at h
        subst h
        exact absurd rfl hy
      | succ b =>
        simp only [List.replicate_succ, List.cons_append, List.cons.injEq, true_and] at h
        obtain ⟨h1, h2⟩ := ih b x y hx hy h
        exact ⟨by omega, h2⟩
  obtain ⟨h1, h2⟩ := key _ _ x y hx hy h
  exact ⟨by omega, h2⟩

/-- the part of a list in front of the first `c` -/
theorem split_at {α : Type} {c : α} {x y a b : List α} (hx : c ∉ x) (hy : c ∉ y)
    (h : x ++ c :: a = y ++ c :: b) : x = y ∧ a = b := by
  induction x generalizing y with
  | nil =>
    cases y with
    | nil => simpa using h
    | cons d y =>
      simp only [List.nil_append, List.cons_append, List.cons.injEq] at h
      exact absurd (by simp [h.1]) hy
  | cons d x ih =>
    cases y with
    | nil =>
      simp only [List.nil_append, List.cons_append, List.cons.injEq] at h
      exact absurd (by simp [h.1]) hx
    | cons e y =>
      simp only [List.cons_append, List.cons.injEq] at h
      obtain ⟨h1, h2⟩ := ih (fun hc => hx (by simp [hc])) (fun hc => hy (by simp [hc])) h.2
      exact ⟨by rw [h.1, h1], h2⟩

theorem nl_indent {n : Nat} {x : List Char} (h : '\n' ∉ x) : '\n' ∉ indent n ++ x := by
  simp [indent, List.mem_replicate, h]

/-- the lines can be read off the text -/
theorem rowsText_inj : ∀ {a b : List Row}, (∀ r ∈ a, r.Good) → (∀ r ∈ b, r.Good) → rowsText a = rowsText b → a = b
  | [], [], _, _, _ => rfl
  | [], r :: b, _, _, h => by
    have := congrArg List.length h
    simp [rowsText] at this
  | r :: a, [], _, _, h => by
    have := congrArg List.length h
    simp [rowsText] at this
  | (n, x) :: a, (m, y) :: b, ha, hb, h => by
    have hx := ha (n, x) (by simp)
    have hy := hb (m, y) (by simp)
    have h' : (indent n ++ x) ++ '\n' :: rowsText a = (indent m ++ y) ++ '\n' :: rowsText b := by
      simpa [rowsText] using h
    obtain ⟨h1, h2⟩ := split_at (nl_indent hx.1) (nl_indent hy.1) h'
    obtain ⟨rfl, rfl⟩ := indent_inj hx.2 hy.2 h1
    rw [rowsText_inj (fun r hr => ha r (by simp [hr])) (fun r hr => hb r (by simp [hr])) h2]

/-! ### The lines of a tree -/

/-- the line of a tree, and the children that have lines of their own -/
def Tree.row : Tree → List Char × List Tree
  | .tok u => (u.text, [])
  | .none => ("None".toList, [])
  | .node d [] _ => (d.toList, [])
  | .node d [.tok u] _ => (d.toList ++ '\t' :: u.text, [])
  | .node d [.none] _ => (d.toList ++ '\t' :: "None".toList, [])
  | .node d ks _ => (d.toList, ks)

theorem row_size (t : Tree) : sizeOf t.row.2 < 1 + sizeOf t := by
  match t with
  | .tok u => simp [Tree.row]; omega
  | .none => simp [Tree.row]
  | .node d [] _ => simp [Tree.row]; omega
  | .node d [.tok u] _ => simp [Tree.row]; omega
  | .node d [.none] _ => simp [Tree.row]; omega
  | .node d [.node d' ks' sp'] _ => simp [Tree.row]; omega
  | .node d (x :: y :: ks) _ => simp [Tree.row]; omega

mutual
/-- the lines of a tree -/
def Tree.rows (n : Nat) : Tree → List Row
  | .tok u => [(n, u.text)]
  | .none => [(n, "None".toList)]
  | .node d [] _ => [(n, d.toList)]
  | .node d [.tok u] _ => [(n, d.toList ++ '\t' :: u.text)]
  | .node d [.none] _ => [(n, d.toList ++ '\t' :: "None".toList)]
  | .node d ks _ => (n, d.toList) :: Tree.rowsL (n + 1) ks
/-- the lines of some trees -/
def Tree.rowsL (n : Nat) : List Tree → List Row
  | [] => []
  | t :: ts => t.rows n ++ Tree.rowsL n ts
end

theorem rows_row (n : Nat) (t : Tree) : t.rows n = (n, t.row.1) :: Tree.rowsL (n + 1) t.row.2 := by
  match t with
  | .tok u => simp [Tree.row, Tree.rows, Tree.rowsL]
  | .none => simp [Tree.row, Tree.rows, Tree.rowsL]
  | .node d [] _ => simp [Tree.row, Tree.rows, Tree.rowsL]
  | .node d [.tok u] _ => simp [Tree.row, Tree.rows, Tree.rowsL]
  | .node d [.none] _ => simp [Tree.row, Tree.rows, Tree.rowsL]
  | .node d [.node d' ks' sp'] _ => simp [Tree.row, Tree.rows]
  | .node d (x :: y :: ks) _ => cases x <;> simp [Tree.row, Tree.rows]

theorem join_indent (n : Nat) : (List.replicate n "  ").flatMap String.toList = indent n := by
  induction n with
  | zero => rfl
  | succ n ih =>
    have : indent (n + 1) = ' ' :: ' ' :: indent n := by
      unfold indent
      rw [show 2 * (n + 1) = 2 * n + 1 + 1 by omega, List.replicate_succ, List.replicate_succ]
    rw [this, ← ih]
    simp [List.replicate_succ]

mutual
theorem pretty_rows : ∀ (t : Tree) (n : Nat), (t.prettyAux n).toList = rowsText (t.rows n)
  | .tok u, n => by simp [Tree.prettyAux, Tree.rows, rowsText, join_indent]
  | .none, n => by simp [Tree.prettyAux, Tree.rows, rowsText, join_indent]
  | .node d [] sp, n => by simp [Tree.prettyAux, Tree.rows, rowsText, join_indent]
  | .node d [.tok u] sp, n => by simp [Tree.prettyAux, Tree.rows, rowsText, join_indent]
  | .node d [.none] sp, n => by simp [Tree.prettyAux, Tree.rows, rowsText, join_indent]
  | .node d [.node d' ks' sp'] sp, n => by
    have := prettyKids_rows [.node d' ks' sp'] (n + 1)
    simp [Tree.prettyAux, Tree.rows, rowsText, join_indent, this]
  | .node d (x :: y :: ks) sp, n => by
    have := prettyKids_rows (x :: y :: ks) (n + 1)
    cases x <;> simp [Tree.prettyAux, Tree.rows, rowsText, join_indent, this]
theorem prettyKids_rows : ∀ (ts : List Tree) (n : Nat), (Tree.prettyKids n ts).toList = rowsText (Tree.rowsL n ts)
  | [], n => by simp [Tree.prettyKids, Tree.rowsL, rowsText]
  | t :: ts, n => by
    simp [Tree.prettyKids, Tree.rowsL, rowsText_append, pretty_rows t n, prettyKids_rows ts n]
end

/-! ### Reading the tree off its lines -/

/-- a name that can be told from the texts of tokens -/
def NiceName (d : List Char) : Prop :=
  '\n' ∉ d ∧ '\t' ∉ d ∧ d.head? ≠ some ' ' ∧ d.head? ≠ some '\'' ∧ d ≠ [] ∧ d ≠ "None".toList

/-- the text of a token that is one line -/
def NiceText (x : List Char) : Prop :=
  '\n' ∉ x ∧ x.head? ≠ some ' ' ∧ ('\t' ∈ x → x.head? = some '\'')

mutual
/-- all names and texts are nice -/
def Tree.Nice : Tree → Prop
  | .tok u => NiceText u.text
  | .none => True
  | .node d ks _ => NiceName d.toList ∧ Tree.NiceL ks
/-- `Tree.Nice` of a list -/
def Tree.NiceL : List Tree → Prop
  | [] => True
  | t :: ts => t.Nice ∧ Tree.NiceL ts
end

theorem niceL_iff : ∀ {ts : List Tree}, Tree.NiceL ts ↔ ∀ t ∈ ts, t.Nice
  | [] => by simp [Tree.NiceL]
  | t :: ts => by simp [Tree.NiceL, niceL_iff (ts := ts)]

theorem row_nice {t : Tree} (h : t.Nice) : Row.Good (n, t.row.1) ∧ Tree.NiceL t.row.2 := by
  match t, h with
  | .tok u, h =>
    simp only [Tree.Nice] at h
    exact ⟨⟨h.1, h.2.1⟩, by simp [Tree.row, Tree.NiceL]⟩
  | .none, _ => exact ⟨⟨by simp [Tree.row], by simp [Tree.row]⟩, by simp [Tree.row, Tree.NiceL]⟩
  | .node d [] _, h =>
    simp only [Tree.Nice] at h
    exact ⟨⟨h.1.1, h.1.2.2.1⟩, by simp [Tree.row, Tree.NiceL]⟩
  | .node d [.tok u] _, h =>
    simp only [Tree.Nice, Tree.NiceL] at h
    refine ⟨⟨?_, ?_⟩, by simp [Tree.row, Tree.NiceL]⟩
    · simp [Tree.row, h.1.1, h.2.1.1]
    · have h1 := h.1.2.2.1
      have h2 := h.1.2.2.2.2.1
      simp only [Tree.row]
      cases hd : d.toList with
      | nil => exact absurd hd h2
      | cons c d' => rw [hd] at h1; simpa using h1
  | .node d [.none] _, h =>
    simp only [Tree.Nice, Tree.NiceL] at h
    refine ⟨⟨?_, ?_⟩, by simp [Tree.row, Tree.NiceL]⟩
    · simp [Tree.row, h.1.1]
    · have h1 := h.1.2.2.1
      have h2 := h.1.2.2.2.2.1
      simp only [Tree.row]
      cases hd : d.toList with
      | nil => exact absurd hd h2
      | cons c d' => rw [hd] at h1; simpa using h1
  | .node d [.node d' ks' sp'] _, h =>
    rw [Tree.Nice] at h
    exact ⟨⟨h.1.1, h.1.2.2.1⟩, h.2⟩
  | .node d (x :: y :: ks) sp, h =>
    rw [Tree.Nice] at h
    have : (Tree.node d (x :: y :: ks) sp).row = (d.toList, x :: y :: ks) := by cases x <;> rfl
    rw [this]
    exact ⟨⟨h.1.1, h.1.2.2.1⟩, h.2⟩

theorem rows_good : ∀ (k : Nat) (t : Tree), sizeOf t ≤ k → t.Nice → ∀ (n : Nat), ∀ r ∈ t.rows n, r.Good := by
  intro k
  induction k with
  | zero => intro t h; cases t <;> simp at h
  | succ k ih =>
    intro t hk ht n
    obtain ⟨h1, h2⟩ := row_nice (n := n) ht
    rw [rows_row]
    intro r hr
    rcases List.mem_cons.mp hr with rfl | hr
    · exact h1
    · have hs : sizeOf t.row.2 ≤ k + 1 := by have := row_size t; omega
      have key : ∀ (ts : List Tree), sizeOf ts ≤ k + 1 → Tree.NiceL ts → ∀ r ∈ Tree.rowsL (n + 1) ts, r.Good := by
        intro ts
        induction ts with
        | nil => intro _ _ r hr; simp [Tree.rowsL] at hr
        | cons t ts iht =>
          intro hs hn r hr
          simp only [List.cons.sizeOf_spec] at hs
          rw [Tree.NiceL] at hn
          rw [Tree.rowsL, List.mem_append] at hr
          rcases hr with hr | hr
          · exact ih t (by omega) hn.1 _ r hr
          · exact iht (by omega) hn.2 r hr
      exact key _ hs h2 r hr

theorem quote_head {d x y : List Char} (hd : NiceName d) (hx : NiceText x) : d ++ '\t' :: y ≠ x := by
  intro h
  have h1 := hx.2.2 (by rw [← h]; simp)
  rw [← h] at h1
  have h2 := hd.2.2.2.1
  cases d with
  | nil => exact hd.2.2.2.2.1 rfl
  | cons c d => simp at h1 h2; exact h2 h1

theorem name_tab {d d' y : List Char} (hd : NiceName d') : d ++ '\t' :: y ≠ d' := by
  intro h
  exact hd.2.1 (by rw [← h]; simp)

theorem none_tab {d y : List Char} : d ++ '\t' :: y ≠ "None".toList := by
  intro h
  have : '\t' ∈ "None".toList := by rw [← h]; simp
  exact absurd this (by decide)

/-- forms of a line -/
inductive RowForm : Tree → Prop where
  | tok (u : Tok) : RowForm (.tok u)
  | none : RowForm .none
  | one (d : String) (u : Tok) (sp) : RowForm (.node d [.tok u] sp)
  | oneNone (d : String) (sp) : RowForm (.node d [.none] sp)
  | block (d : String) (ks : List Tree) (sp) : (Tree.node d ks sp).row = (d.toList, ks) → RowForm (.node d ks sp)

theorem rowForm (t : Tree) : RowForm t := by
  match t with
  | .tok u => exact .tok u
  | .none => exact .none
  | .node d [] _ => exact .block _ _ _ rfl
  | .node d [.tok u] _ => exact .one _ _ _
  | .node d [.none] _ => exact .oneNone _ _
  | .node d [.node d' ks' sp'] _ => exact .block _ _ _ rfl
  | .node d (x :: y :: ks) _ => exact .block _ _ _ (by cases x <;> rfl)

theorem row_alike {t t' : Tree} (h : t.Nice) (h' : t'.Nice) (h1 : t.row.1 = t'.row.1)
    (h2 : List.Forall₂ Alike t.row.2 t'.row.2) : Alike t t' := by
  cases rowForm t with
  | tok u =>
    have hu : NiceText u.text := by simpa [Tree.Nice] using h
    cases rowForm t' with
    | tok u' => exact .tok h1
    | none => exact .tokNone h1
    | one d v sp =>
      simp only [Tree.Nice] at h'
      exact absurd h1.symm (quote_head h'.1 hu)
    | oneNone d sp =>
      simp only [Tree.Nice] at h'
      exact absurd h1.symm (quote_head h'.1 hu)
    | block d ks sp hr =>
      rw [hr] at h1 h2
      cases h2
      exact .tokNode h1
  | none =>
    cases rowForm t' with
    | tok u' => exact .noneTok h1.symm
    | none => exact .none
    | one d v sp => exact absurd h1.symm none_tab
    | oneNone d sp => exact absurd h1.symm none_tab
    | block d ks sp hr =>
      rw [hr] at h1
      rw [Tree.Nice] at h'
      exact absurd h1.symm h'.1.2.2.2.2.2
  | one d v sp =>
    rw [Tree.Nice] at h
    cases rowForm t' with
    | tok u' =>
      have hu : NiceText u'.text := by simpa [Tree.Nice] using h'
      exact absurd h1 (quote_head h.1 hu)
    | none => exact absurd h1 none_tab
    | one d' v' sp' =>
      rw [Tree.Nice] at h'
      obtain ⟨e1, e2⟩ := split_at h.1.2.1 h'.1.2.1 h1
      rw [String.toList_inj] at e1
      subst e1
      exact .node (.cons (.tok e2) .nil)
    | oneNone d' sp' =>
      rw [Tree.Nice] at h'
      obtain ⟨e1, e2⟩ := split_at h.1.2.1 h'.1.2.1 h1
      rw [String.toList_inj] at e1
      subst e1
      exact .node (.cons (.tokNone e2) .nil)
    | block d' ks sp' hr =>
      rw [hr] at h1
      rw [Tree.Nice] at h'
      exact absurd h1 (name_tab h'.1)
  | oneNone d sp =>
    rw [Tree.Nice] at h
    cases rowForm t' with
    | tok u' =>
      have hu : NiceText u'.text := by simpa [Tree.Nice] using h'
      exact absurd h1 (quote_head h.1 hu)
    | none => exact absurd h1 none_tab
    | one d' v' sp' =>
      rw [Tree.Nice] at h'
      obtain ⟨e1, e2⟩ := split_at h.1.2.1 h'.1.2.1 h1
      rw [String.toList_inj] at e1
      subst e1
      exact .node (.cons (.noneTok e2.symm) .nil)
    | oneNone d' sp' =>
      rw [Tree.Nice] at h'
      obtain ⟨e1, e2⟩ := split_at h.1.2.1 h'.1.2.1 h1
      rw [String.toList_inj] at e1
      subst e1
      exact .node (.cons .none .nil)
    | block d' ks sp' hr =>
      rw [hr] at h1
      rw [Tree.Nice] at h'
      exact absurd h1 (name_tab h'.1)
  | block d ks sp hr =>
    rw [Tree.Nice] at h
    rw [hr] at h1 h2
    cases rowForm t' with
    | tok u' =>
      cases h2
      exact .nodeTok h1.symm
    | none => exact absurd h1 h.1.2.2.2.2.2
    | one d' v' sp' => exact absurd h1.symm (name_tab h.1)
    | oneNone d' sp' => exact absurd h1.symm (name_tab h.1)
    | block d' ks' sp' hr' =>
      rw [hr'] at h1 h2
      have e1 := String.toList_inj.mp h1
      subst e1
      exact .node h2

/-- the lines `r` are empty or start less than `n` steps indented -/
def Low (n : Nat) : List Row → Prop
  | [] => True
  | r :: _ => r.1 < n

theorem low_rowsL {n m : Nat} (h : n < m) : ∀ (ts : List Tree) {r : List Row}, Low m r → Low m (Tree.rowsL n ts ++ r)
  | [], r, hr => by simpa [Tree.rowsL] using hr
  | t :: ts, r, _ => by rw [Tree.rowsL, rows_row]; exact h

theorem rowsL_alike : ∀ (k : Nat) (ts ts' : List Tree) (n : Nat) (r r' : List Row), sizeOf ts ≤ k → Tree.NiceL ts →
    Tree.NiceL ts' → Low n r → Low n r' → Tree.rowsL n ts ++ r = Tree.rowsL n ts' ++ r' →
    List.Forall₂ Alike ts ts' ∧ r = r' := by
  intro k
  induction k with
  | zero => intro ts ts' n r r' h; cases ts <;> simp at h
  | succ k ih =>
    intro ts ts' n r r' hk hn hn' hl hl' h
    match ts, ts', hk, hn, hn', h with
    | [], [], _, _, _, h => exact ⟨.nil, by simpa [Tree.rowsL] using h⟩
    | [], t' :: ts', _, _, _, h =>
      rw [Tree.rowsL, Tree.rowsL, rows_row] at h
      simp only [List.nil_append, List.cons_append] at h
      rw [h] at hl
      exact absurd hl (Nat.lt_irrefl _)
    | t :: ts, [], _, _, _, h =>
      rw [Tree.rowsL, Tree.rowsL, rows_row] at h
      simp only [List.nil_append, List.cons_append] at h
      rw [← h] at hl'
      exact absurd hl' (Nat.lt_irrefl _)
    | t :: ts, t' :: ts', hk, hn, hn', h =>
      rw [Tree.NiceL] at hn hn'
      simp only [List.cons.sizeOf_spec] at hk
      rw [Tree.rowsL, Tree.rowsL, rows_row, rows_row] at h
      simp only [List.cons_append, List.cons.injEq, Prod.mk.injEq, true_and, List.append_assoc] at h
      obtain ⟨h1, h2⟩ := h
      have hlow : ∀ {s : List Row} (us : List Tree), Low n s → Low (n + 1) (Tree.rowsL n us ++ s) := by
        intro s us hs
        refine low_rowsL (by omega) us ?_
        cases s with
        | nil => trivial
        | cons a s => exact Nat.lt_succ_of_lt hs
      have hs := row_size t
      obtain ⟨g1, g2⟩ := ih t.row.2 t'.row.2 (n + 1) _ _ (by omega) (row_nice (n := n) hn.1).2 (row_nice (n := n) hn'.1).2
        (hlow ts hl) (hlow ts' hl') h2
      obtain ⟨g3, g4⟩ := ih ts ts' n r r' (by omega) hn.2 hn'.2 hl hl' g2
      exact ⟨.cons (row_alike hn.1 hn'.1 h1 g1) g3, g4⟩

/-- **What is printed determines the tree** up to `Alike`. -/
theorem pretty_alike {t t' : Tree} (h : t.Nice) (h' : t'.Nice) (he : t.prettyAux 0 = t'.prettyAux 0) : Alike t t' := by
  have he := congrArg String.toList he
  rw [pretty_rows, pretty_rows] at he
  have he := rowsText_inj (rows_good _ t (Nat.le_refl _) h 0) (rows_good _ t' (Nat.le_refl _) h' 0) he
  have := rowsL_alike _ [t] [t'] 0 [] [] (Nat.le_refl _) (by simp [Tree.NiceL, h]) (by simp [Tree.NiceL, h']) trivial
    trivial (by simp [Tree.rowsL, he])
  cases this.1 with
  | cons h _ => exact h

end Pycep
