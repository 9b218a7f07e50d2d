import Verif.Props.Modules
/-
C13, C14: line numbers.
-/
namespace Pycep

/-! ### pieces of a tiled text -/

theorem countNL_append (x y : List Char) : countNL (x ++ y) = countNL x + countNL y := by
  simp [countNL, List.count_append]

theorem Tiling.split {l : Nat} {x : List Char} {w : List Tok} (h : Tiling l x w) : ∀ {w1 w2}, w = w1 ++ w2 →
    ∃ a b, x = a ++ b ∧ Tiling l a w1 ∧ Tiling (l + countNL a) b w2 := by
  induction h with
  | nil =>
    intro w1 w2 h
    obtain ⟨rfl, rfl⟩ := List.append_eq_nil_iff.mp h.symm
    exact ⟨[], [], rfl, .nil, .nil⟩
  | @skip l x s w ht _ ih =>
    intro w1 w2 h
    obtain ⟨a, b, rfl, h1, h2⟩ := ih h
    exact ⟨x ++ a, b, by simp, .skip ht h1, by rw [countNL_append, ← Nat.add_assoc]; exact h2⟩
  | @tok l x s w t ht hlt hs ih =>
    intro w1 w2 h
    cases w1 with
    | nil =>
      simp only [List.nil_append] at h
      subst h
      exact ⟨[], x ++ s, rfl, .nil, .tok ht hlt hs⟩
    | cons u w1 =>
      simp only [List.cons_append, List.cons.injEq] at h
      obtain ⟨rfl, rfl⟩ := h
      obtain ⟨a, b, rfl, h1, h2⟩ := ih rfl
      exact ⟨x ++ a, b, by simp, .tok ht hlt h1, by rw [countNL_append, ← Nat.add_assoc]; exact h2⟩

/-- blanks and comments before the first token -/
theorem Tiling.trimLeft {l : Nat} {x : List Char} {u : Tok} {w : List Tok} (h : Tiling l x (u :: w)) :
    ∃ a s, x = a ++ (u.text ++ s) ∧ u.line = l + countNL a ∧ u.endLine = u.line + countNL u.text ∧
      Tiling u.endLine s w ∧ ∀ s' w', Tiling u.endLine s' w' → Tiling u.line (u.text ++ s') (u :: w') := by
  generalize hw : u :: w = w' at h
  induction h with
  | nil => cases hw
  | @skip l x s w' ht _ ih =>
    obtain ⟨a, s, rfl, h1, h2, h3, h4⟩ := ih hw
    refine ⟨x ++ a, s, by simp, ?_, h2, h3, h4⟩
    rw [countNL_append, ← Nat.add_assoc]; exact h1
  | @tok l x s w' t ht hlt hs ih =>
    cases hw
    exact ⟨[], s, rfl, rfl, rfl, hs, fun s' w' h => .tok ht hlt h⟩

/-- a text followed by another one -/
theorem Tiling.append {l : Nat} {a : List Char} {w : List Tok} (h : Tiling l a w) :
    ∀ {b w'}, Tiling (l + countNL a) b w' → Tiling l (a ++ b) (w ++ w') := by
  induction h with
  | nil => intro b w' h; exact h
  | @skip l x s w ht _ ih =>
    intro b w' h
    rw [List.append_assoc]
    exact .skip ht (ih (by rw [Nat.add_assoc, ← countNL_append]; exact h))
  | @tok l x s w t ht hlt _ ih =>
    intro b w' h
    rw [List.append_assoc]
    exact .tok ht hlt (ih (by rw [Nat.add_assoc, ← countNL_append]; exact h))

/-- blanks and comments after the last token -/
theorem Tiling.trimRight {l : Nat} {x : List Char} {w : List Tok} (h : Tiling l x w) (hne : w ≠ []) :
    ∃ s b u, x = s ++ b ∧ Tiling l s w ∧ w.getLast? = some u ∧ u.text <:+ s ∧ u.endLine = l + countNL s ∧
      Tiling (l + countNL s) b [] := by
  induction h with
  | nil => exact absurd rfl hne
  | @skip l x s w ht _ ih =>
    obtain ⟨s, b, u, rfl, h1, h2, h3, h4, h5⟩ := ih hne
    refine ⟨x ++ s, b, u, by simp, .skip ht h1, h2, h3.trans (List.suffix_append ..), ?_, ?_⟩
    · rw [countNL_append, ← Nat.add_assoc]; exact h4
    · rw [countNL_append, ← Nat.add_assoc]; exact h5
  | @tok l x s w t ht hlt hs ih =>
    cases w with
    | nil => exact ⟨x, s, _, rfl, by simpa using Tiling.tok ht hlt (.nil (l := l + countNL x)), rfl, List.suffix_rfl, rfl, hs⟩
    | cons v w =>
      obtain ⟨s, b, u, rfl, h1, h2, h3, h4, h5⟩ := ih (by simp)
      refine ⟨x ++ s, b, u, by simp, .tok ht hlt h1, ?_, h3.trans (List.suffix_append ..), ?_, ?_⟩
      · simpa using h2
      · rw [countNL_append, ← Nat.add_assoc]; exact h4
      · rw [countNL_append, ← Nat.add_assoc]; exact h5

/-- The text `t` is `a`, then the slice `s`, then `b`; the slice is spelled by the tokens `w` and
begins with the first and ends with the last of them. -/
structure SliceOf (t : List Char) (a s b : List Char) (w : List Tok) : Prop where
  text : t = a ++ s ++ b
  tiling : Tiling (1 + countNL a) s w
  first : ∃ u, w.head? = some u ∧ u.text <+: s
  last : ∃ u, w.getLast? = some u ∧ u.text <:+ s

/-- lines of a slice -/
theorem slice_lines {t : List Char} {w1 w w2 : List Tok} (h : Tiling 1 t (w1 ++ w ++ w2)) {l : Lines}
    (hl : LinesOf l w) : ∃ a s b, SliceOf t a s b w ∧ l = (1 + countNL a, 1 + countNL (a ++ s)) ∧
      Tiling (1 + countNL (a ++ s)) b w2 := by
  obtain ⟨x, c, rfl, h1, hrest⟩ := h.split rfl
  obtain ⟨a, y, rfl, _, h3⟩ := h1.split rfl
  obtain ⟨u, v, hu, hv, rfl⟩ := hl
  cases w with
  | nil => simp at hu
  | cons u' w =>
    simp only [List.head?_cons, Option.some.injEq] at hu
    subst hu
    obtain ⟨a', z, rfl, h4, h5, h6, h7⟩ := h3.trimLeft
    rcases w with _ | ⟨u2, w⟩
    · simp only [List.getLast?_singleton, Option.some.injEq] at hv
      subst hv
      have h8 := h7 [] [] .nil
      rw [List.append_nil, h4] at h8
      refine ⟨a ++ a', u'.text, z ++ c, ⟨by simp, ?_, ⟨_, rfl, List.prefix_rfl⟩, ⟨_, rfl, List.suffix_rfl⟩⟩, ?_, ?_⟩
      · rw [countNL_append, ← Nat.add_assoc]; exact h8
      · rw [h5, h4]
        simp only [countNL_append]
        rw [Prod.mk.injEq]
        omega
      · rw [h5, h4] at h6
        have := h6.append (b := c) (w' := w2) (by
          simp only [countNL_append, ← Nat.add_assoc] at hrest ⊢; exact hrest)
        simpa only [countNL_append, ← Nat.add_assoc, List.nil_append] using this
    · obtain ⟨s, b, v', rfl, h8, h9, h10, h11, h14⟩ := h6.trimRight (by simp)
      have h12 : (u' :: u2 :: w).getLast? = some v' := by simpa using h9
      rw [h12] at hv
      cases hv
      have h13 := h7 _ _ h8
      rw [h4] at h13
      refine ⟨a ++ a', u'.text ++ s, b ++ c, ⟨by simp, ?_, ⟨_, rfl, List.prefix_append ..⟩,
        ⟨_, h12, h10.trans (List.suffix_append ..)⟩⟩, ?_, ?_⟩
      · rw [countNL_append, ← Nat.add_assoc]; exact h13
      · rw [h11, h5, h4]
        simp only [countNL_append]
        rw [Prod.mk.injEq]
        omega
      · rw [h5, h4] at h14
        have := h14.append (b := c) (w' := w2) (by
          simp only [countNL_append, ← Nat.add_assoc] at hrest ⊢; exact hrest)
        simpa only [countNL_append, ← Nat.add_assoc, List.nil_append] using this

/-! ### places of the declarations -/

/-- every declaration of a program is a slice of the text -/
theorem prog_slices {p : Program} {w : List Tok} {n : Nat} (h : ProgSyn p w n) {l : Lines} {d : Decl}
    (hd : (l, d) ∈ p) : ∃ w1 w2 w3 n', w = w1 ++ w2 ++ w3 ∧ DeclSyn d w2 n' ∧ LinesOf l w2 := by
  induction h with
  | nil => simp at hd
  | @decl p l' d' w1 w2 n hp hs hl ih =>
    rcases List.mem_append.mp hd with hd | hd
    · obtain ⟨a, b, c, n', rfl, h1, h2⟩ := ih hd
      exact ⟨a, b, c ++ w2, n', by simp, h1, h2⟩
    · rw [List.mem_singleton] at hd
      cases hd
      exact ⟨w1, w2, [], n, by simp, hs, hl⟩
  | @nl p w u n hp hu ih =>
    obtain ⟨a, b, c, n', rfl, h1, h2⟩ := ih hd
    exact ⟨a, b, c ++ [u], n', by simp, h1, h2⟩

/-- the line entries of the attributes of a declaration -/
theorem dGet_append_none {k : String} {a b : List (String × Val)} (h : dGet k a = .none) :
    dGet k (a ++ b) = dGet k b := by
  induction a with
  | nil => rfl
  | cons q a ih =>
    obtain ⟨k', x⟩ := q
    rw [List.cons_append, dGet]
    rw [dGet] at h
    split at h
    · cases h
    · rename_i hk
      rw [if_neg hk]
      exact ih h

theorem lines_get {a : List (String × Val)} {l : Lines} (h1 : dGet "__start_line__" a = .none)
    (h2 : dGet "__end_line__" a = .none) :
    dGet "__start_line__" (a ++ lineItems true l) = some (.int l.1) ∧
      dGet "__end_line__" (a ++ lineItems true l) = some (.int l.2) := by
  rw [dGet_append_none h1, dGet_append_none h2]
  simp [lineItems, dGet]

theorem out_lines {l : Lines} {d : Decl} {o : Out} (h : d.out true l = .ok o) {e : Entry} (he : e ∈ o.own) :
    dGet "__start_line__" e.attrs = some (.int l.1) ∧ dGet "__end_line__" e.attrs = some (.int l.2) := by
  have ha : ∀ al, dGet "__start_line__" (aliasItem al) = .none ∧ dGet "__end_line__" (aliasItem al) = .none := by
    intro al; cases al <;> simp [aliasItem, dGet]
  cases d with
  | scope b =>
    rw [Decl.out] at h
    split at h
    · cases h
      rw [List.mem_singleton] at he
      subst he
      exact lines_get (a := [_]) (by simp [dGet]) (by simp [dGet])
    · cases h
  | importNs b => rw [Decl.out] at h; cases h; simp at he
  | importFrom => rw [Decl.out] at h; cases h; simp at he
  | extension x c al =>
    rw [Decl.out] at h
    obtain ⟨ci, hci, h⟩ := bind_ok' h
    cases h
    rw [List.mem_singleton] at he
    subst he
    have hc : dGet "__start_line__" ci = .none ∧ dGet "__end_line__" ci = .none := by
      cases c with
      | none => rw [configItem] at hci; cases hci; simp [dGet]
      | some is =>
        rw [configItem] at hci
        obtain ⟨y, _, hci⟩ := bind_ok' hci
        cases hci
        split <;> simp [dGet]
    simp only
    rw [dGet_append_none hc.1, dGet_append_none hc.2]
    exact lines_get (ha al).1 (ha al).2
  | metadata x b =>
    rw [Decl.out] at h
    cases h
    rw [List.mem_singleton] at he
    subst he
    exact lines_get (a := [_]) (by simp [dGet]) (by simp [dGet])
  | param ds x t o =>
    rw [Decl.out] at h
    obtain ⟨_, _, h⟩ := bind_ok' h
    obtain ⟨_, _, h⟩ := bind_ok' h
    cases h
    rw [List.mem_singleton] at he
    subst he
    exact lines_get (by simp [dGet]) (by simp [dGet])
  | var ds x t e =>
    rw [Decl.out] at h
    obtain ⟨_, _, h⟩ := bind_ok' h
    obtain ⟨_, _, h⟩ := bind_ok' h
    cases h
    rw [List.mem_singleton] at he
    subst he
    simp only
    rw [← List.append_assoc]
    refine lines_get ?_ ?_ <;> cases t <;> simp [dGet, typeItem]
  | output ds x t e =>
    rw [Decl.out] at h
    obtain ⟨_, _, h⟩ := bind_ok' h
    obtain ⟨_, _, h⟩ := bind_ok' h
    cases h
    rw [List.mem_singleton] at he
    subst he
    exact lines_get (by simp [dGet]) (by simp [dGet])
  | resource ds x b ex c =>
    rw [Decl.out] at h
    obtain ⟨_, _, h⟩ := bind_ok' h
    obtain ⟨⟨_, _⟩, _, h⟩ := bind_ok' h
    simp only at h
    obtain ⟨_, _, h⟩ := bind_ok' h
    obtain ⟨⟨_, _⟩, _, h⟩ := bind_ok' h
    simp only at h
    cases h
    rw [List.mem_singleton] at he
    subst he
    exact lines_get (by simp [dGet]) (by simp [dGet])
  | module ds x b c =>
    rw [Decl.out] at h
    obtain ⟨_, _, h⟩ := bind_ok' h
    obtain ⟨_, _, h⟩ := bind_ok' h
    obtain ⟨_, _, h⟩ := bind_ok' h
    obtain ⟨_, _, h⟩ := bind_ok' h
    obtain ⟨_, _, h⟩ := bind_ok' h
    cases h
    rw [List.mem_singleton] at he
    subst he
    exact lines_get (by simp [dGet]) (by simp [dGet])
  | typ ds x e es =>
    rw [Decl.out] at h
    obtain ⟨_, _, h⟩ := bind_ok' h
    obtain ⟨_, _, h⟩ := bind_ok' h
    cases h
    rw [List.mem_singleton] at he
    subst he
    exact lines_get (by simp [dGet]) (by simp [dGet])
  | func ds x ps t e =>
    rw [Decl.out] at h
    obtain ⟨_, _, h⟩ := bind_ok' h
    obtain ⟨_, _, h⟩ := bind_ok' h
    cases h
    rw [List.mem_singleton] at he
    subst he
    exact lines_get (by simp [dGet]) (by simp [dGet])

/-- **C13 for declarations.** With line numbers, every reported declaration has the lines of the
slice of the text that is this declaration. -/
theorem C13_lines {text path v} (h : Parser.parse ⟨true⟩ text path = .ok v) :
    ∃ t p, chosenText text path = .ok t ∧ Spells t p ∧
      ∀ {sec n l d}, Reported p sec n l d → ∃ a s b w m, SliceOf t.toList a s b w ∧ DeclSyn d w m ∧
        v.at? [.key sec, .key n, .key "__start_line__"] = some (.int (1 + countNL a)) ∧
        v.at? [.key sec, .key n, .key "__end_line__"] = some (.int (1 + countNL (a ++ s))) := by
  obtain ⟨t, p, h1, h2, hv⟩ := parse_ok h
  refine ⟨t, p, h1, h2, fun {sec n l d} hr => ?_⟩
  rw [Program.val] at hv
  obtain ⟨os, hos, hv⟩ := bind_ok' hv
  cases hv
  obtain ⟨o, attrs, ho, hown, hat⟩ := reported_entry (contribs_of hos) hr
  obtain ⟨h3, h4⟩ := out_lines ho (e := ⟨sec, n, attrs⟩) (by rw [hown]; simp)
  obtain ⟨before, later, hp, _⟩ := hr
  obtain ⟨⟨w, hw, hs⟩, _⟩ := h2
  replace hw := hw.tiling
  obtain ⟨w1, w2, w3, m, rfl, h5, h6⟩ := prog_slices hs (l := l) (d := d) (by rw [hp]; simp)
  obtain ⟨a, s, b, h7, rfl, _⟩ := slice_lines hw h6
  refine ⟨a, s, b, w2, m, h7, h5, ?_, ?_⟩
  · rw [show [PStep.key sec, .key n, .key "__start_line__"] = [.key sec, .key n] ++ [.key "__start_line__"] from rfl,
      Val.at?_append, hat]
    simp [Val.at?, Val.step?, h3]
  · rw [show [PStep.key sec, .key n, .key "__end_line__"] = [.key sec, .key n] ++ [.key "__end_line__"] from rfl,
      Val.at?_append, hat]
    simp [Val.at?, Val.step?, h4]

/-- **C13 for imports.** The same for names imported from a file. -/
theorem C13_import_lines {text path v} (h : Parser.parse ⟨true⟩ text path = .ok v) :
    ∃ t p, chosenText text path = .ok t ∧ Spells t p ∧
      ∀ {n l file al}, LastImport p n l file al → ∃ a s b i is w m, SliceOf t.toList a s b w ∧
        DeclSyn (.importFrom i is file) w m ∧
        v.at? [.key "imports", .key n, .key "__start_line__"] = some (.int (1 + countNL a)) ∧
        v.at? [.key "imports", .key n, .key "__end_line__"] = some (.int (1 + countNL (a ++ s))) := by
  obtain ⟨t, p, h1, h2, h3⟩ := C38_imports h
  refine ⟨t, p, h1, h2, fun {n l file al} hr => ?_⟩
  have hat := h3 hr
  obtain ⟨before, i, is, later, _, _, hp, _⟩ := hr
  obtain ⟨⟨w, hw, hs⟩, _⟩ := h2
  replace hw := hw.tiling
  obtain ⟨w1, w2, w3, m, rfl, h5, h6⟩ := prog_slices hs (l := l) (d := .importFrom i is file) (by rw [hp]; simp)
  obtain ⟨a, s, b, h7, rfl, _⟩ := slice_lines hw h6
  have hg := lines_get (a := importAttrs file al) (l := (1 + countNL a, 1 + countNL (a ++ s)))
    (by cases al <;> simp [importAttrs, dGet]) (by cases al <;> simp [importAttrs, dGet])
  refine ⟨a, s, b, i, is, w2, m, h7, h5, ?_, ?_⟩
  · rw [show [PStep.key "imports", .key n, .key "__start_line__"] =
      [.key "imports", .key n] ++ [.key "__start_line__"] from rfl, Val.at?_append, hat]
    simp only [Option.bind_some, Val.at?, Val.step?]
    rw [hg.1]; rfl
  · rw [show [PStep.key "imports", .key n, .key "__end_line__"] =
      [.key "imports", .key n] ++ [.key "__end_line__"] from rfl, Val.at?_append, hat]
    simp only [Option.bind_some, Val.at?, Val.step?]
    rw [hg.2]; rfl

/-! ### nested resources -/

theorem ptail_child : ∀ {is w n}, PTail is w n → ∀ l x b ex c, Item.child l x b ex c ∉ is
  | _, _, _, .nil, _, _, _, _, _, h => by simp at h
  | _, _, _, .snoc ht _ hp, l, x, b, ex, c, h => by
    rcases List.mem_append.mp h with h | h
    · exact ptail_child ht l x b ex c h
    · rw [List.mem_singleton] at h
      subst h
      cases hp

theorem items_child : ∀ {is : List Item} {w : List Tok} {n : Nat}, Items is w n → ∀ {l x b ex c},
    Item.child l x b ex c ∈ is → ∃ w1 w2 w3, w = w1 ++ w2 ++ w3 ∧ ChildSyn (.child l x b ex c) w2 (nextT w3 n)
  | _, _, _, .nil, _, _, _, _, _, h => by simp at h
  | _, _, _, @Items.pairs is i is' w1 w2 w3 w4 n hi hp ht _, l, x, b, ex, c, h => by
    rcases List.mem_append.mp h with h | h
    · obtain ⟨a, y, z, rfl, h2⟩ := items_child hi h
      exact ⟨a, y, z ++ (w2 ++ (w3 ++ w4)), by simp, by rw [nextT_append]; exact h2⟩
    · rcases List.mem_cons.mp h with h | h
      · subst h; cases hp
      · exact absurd h (ptail_child ht _ _ _ _ _)
  | _, _, _, @Items.child is i w1 w2 w3 n hi hc _, l, x, b, ex, c, h => by
    rcases List.mem_append.mp h with h | h
    · obtain ⟨a, y, z, rfl, h2⟩ := items_child hi h
      exact ⟨a, y, z ++ (w2 ++ w3), by simp, by rw [nextT_append]; exact h2⟩
    · rw [List.mem_singleton] at h
      subst h
      exact ⟨w1, w2, w3, by simp, hc⟩

/-- a chain of nested resources is found in the text of its body -/
theorem chain_slices {c : Config} {rs : List Nested} (hc : Chain c rs) : ∀ {w n}, ConfigSyn c w n → ∀ {r}, r ∈ rs →
    ∃ w1 w2 k w3, w = w1 ++ w2 ++ (k :: w3) ∧ ChildSyn r.item w2 k.type := by
  induction hc with
  | nil => intro w n _ r hr; simp at hr
  | @cons c s rs hch _ ih =>
    intro w n hw r hr
    obtain ⟨is, rfl, a, b, rfl, _, _⟩ := hch
    cases hw with
    | obj ho =>
      cases ho with
      | @mk _ u w1 w2 v _ _ _ hi _ =>
        obtain ⟨x, y, z, rfl, h2⟩ := items_child hi (l := s.lines) (x := s.name) (b := s.type) (ex := s.existing)
          (c := s.config) (by simp [Nested.item])
        rcases List.mem_cons.mp hr with rfl | hr
        · cases z with
          | nil => exact ⟨u :: (w1 ++ x), y, v, [], by simp, h2⟩
          | cons k z => exact ⟨u :: (w1 ++ x), y, k, z ++ [v], by simp, h2⟩
        · cases h2 with
          | @mk _ _ _ _ _ k1 k2 k3 w3 k4 w4 w5 _ _ _ _ _ _ hcfg _ _ _ _ =>
            obtain ⟨x', y', k', z', rfl, h3⟩ := ih hcfg hr
            exact ⟨u :: (w1 ++ (x ++ (k1 :: k2 :: k3 :: (w3 ++ (k4 :: x'))))), y', k', z' ++ (w5 ++ (z ++ [v])), by simp, h3⟩

/-- the text of the declaration of a nested resource, without the line breaks that follow -/
inductive NestedSyn : Nested → List Tok → Prop where
  | mk {r : Nested} {u v q w1 e w2 n} : Kw "resource" u → Id r.name v → Quoted r.type q →
      ExistingSyn r.existing w1 → Kw "=" e → ConfigSyn r.config w2 n →
      NestedSyn r (u :: v :: q :: (w1 ++ (e :: w2)))

/-- **C53.** The lines of nested resources. The first line is right. The text `z` consists of all line breaks
(and comments ended by them) that follow the declaration, up to the next token `q`; the last line is the
one before the line reached behind `z`. So it is right if exactly one line feed follows. -/
theorem C53_nested_lines {text path v} (h : Parser.parse ⟨true⟩ text path = .ok v) :
    ∃ t p, chosenText text path = .ok t ∧ Spells t p ∧
      ∀ {n x b rs i r}, NestedReported p n x b rs i r → ∃ a s z b w w3 q w4, SliceOf t.toList a s (z ++ b) w ∧
        NestedSyn r w ∧ Breaks w3 ∧ w3 ≠ [] ∧ Tiling (1 + countNL (a ++ s)) z w3 ∧
        Tiling (1 + countNL (a ++ s ++ z)) b (q :: w4) ∧ q.type ≠ T._CPP_COMMENT_NL ∧
        v.at? [.key "resources", .key n, .key "__start_line__"] = some (.int (1 + countNL a)) ∧
        v.at? [.key "resources", .key n, .key "__end_line__"] = some (.int (countNL (a ++ s ++ z))) := by
  obtain ⟨t, p, h1, h2, hv⟩ := parse_ok h
  refine ⟨t, p, h1, h2, fun {n x b rs i r} hr => ?_⟩
  rw [Program.val] at hv
  obtain ⟨os, hos, hv⟩ := bind_ok' hv
  cases hv
  obtain ⟨ty, api, T, parent, d, deps, hta, hT, hpar, hd, hdeps, hat⟩ := nested_entry (contribs_of hos) hr
  obtain ⟨before, l, ds, ex, c, later, hp, hch, hri, _⟩ := hr
  obtain ⟨⟨w, hw, hs⟩, _⟩ := h2
  replace hw := hw.tiling
  obtain ⟨w1, w2, w3, m, rfl, h5, _⟩ := prog_slices hs (l := l) (d := .resource ds x b ex c) (by rw [hp]; simp)
  have : ∃ x1 x2 k x3, w2 = x1 ++ x2 ++ (k :: x3) ∧ ChildSyn r.item x2 k.type := by
    cases h5 with
    | @resource _ _ _ _ _ w0 u v t w1 q w2 n _ _ _ _ _ _ hc =>
      obtain ⟨x1, x2, k, x3, rfl, h6⟩ := chain_slices hch hc (List.mem_of_getElem? hri)
      exact ⟨w0 ++ (u :: v :: t :: (w1 ++ (q :: x1))), x2, k, x3, by simp, h6⟩
  obtain ⟨x1, x2, kk, x3, rfl, h6⟩ := this
  generalize hkt : kk.type = kt at h6
  generalize hit : r.item = it at h6
  cases h6 with
  | @mk l' x' b' ex' c' u v q y1 e y2 y3 n' k1 k2 k3 k4 k5 k6 k7 k8 k9 k10 =>
    rw [Nested.item] at hit
    simp only [Item.child.injEq] at hit
    obtain ⟨rfl, rfl, rfl, rfl, rfl⟩ := hit
    have hw' : Tiling 1 t.toList ((w1 ++ x1) ++ (u :: v :: q :: (y1 ++ (e :: y2))) ++ (y3 ++ (kk :: x3 ++ w3))) := by
      simpa using hw
    have hl : LinesOf r.lines (u :: v :: q :: (y1 ++ (e :: y2)) ++ y3) := by simpa using k10
    generalize hg : u :: v :: q :: (y1 ++ (e :: y2)) = g at hw' hl
    have hne : g ≠ [] := by rw [← hg]; simp
    obtain ⟨f, f', hf, hf', hlines⟩ := hl
    have hf2 : g.head? = some f := by
      cases g with
      | nil => exact absurd rfl hne
      | cons => simpa using hf
    obtain ⟨a, s, rest, h7, h8, h9⟩ := slice_lines hw' (l := (f.line, (g.getLast hne).endLine))
      ⟨f, g.getLast hne, hf2, List.getLast?_eq_some_getLast hne, rfl⟩
    obtain ⟨zb, rest', rfl, h10, hr1⟩ := h9.split rfl
    obtain ⟨z, b', k, rfl, h11, h12, _, h13, hr2⟩ := h10.trimRight k8
    have hk : f' = k := by
      rw [List.getLast?_append_of_ne_nil _ k8, h12] at hf'
      exact (Option.some.inj hf').symm
    subst hk
    have e1 : f.line = 1 + countNL a := congrArg Prod.fst h8
    have e2 : r.lines = (1 + countNL a, 1 + countNL (a ++ s ++ z)) := by
      rw [hlines, e1, h13]
      simp only [countNL_append, Nat.add_assoc]
    have hr3 := hr2.append (b := rest') (w' := kk :: x3 ++ w3) (by
      simp only [countNL_append, ← Nat.add_assoc] at hr1 ⊢; exact hr1)
    refine ⟨a, s, z, b' ++ rest', g, y3, kk, x3 ++ w3, ?_, ?_, k7, k8, h11, ?_, hkt ▸ k9, ?_, ?_⟩
    · simpa using h7
    · rw [← hg]; exact .mk k1 k2 k3 k4 k5 k6
    · simpa only [countNL_append, ← Nat.add_assoc, List.nil_append, List.cons_append] using hr3
    · rw [show [PStep.key "resources", .key n, .key "__start_line__"] =
        [.key "resources", .key n] ++ [.key "__start_line__"] from rfl, Val.at?_append, hat, e2]
      simp [Val.at?, Val.step?, dGet, lineItems]
    · rw [show [PStep.key "resources", .key n, .key "__end_line__"] =
        [.key "resources", .key n] ++ [.key "__end_line__"] from rfl, Val.at?_append, hat, e2]
      simp [Val.at?, Val.step?, dGet, lineItems]

/-- **C13 for nested resources, partial.** Both lines are right if a single line feed follows.
Missing: the last line if blank or comment lines follow, which is wrong (see below). -/
theorem C13_nested_partial {text path v} (h : Parser.parse ⟨true⟩ text path = .ok v) :
    ∃ t p, chosenText text path = .ok t ∧ Spells t p ∧
      ∀ {n x b rs i r}, NestedReported p n x b rs i r → ∃ a s z b w w3, SliceOf t.toList a s (z ++ b) w ∧
        NestedSyn r w ∧ Breaks w3 ∧ w3 ≠ [] ∧ Tiling (1 + countNL (a ++ s)) z w3 ∧
        v.at? [.key "resources", .key n, .key "__start_line__"] = some (.int (1 + countNL a)) ∧
        (countNL z = 1 →
          v.at? [.key "resources", .key n, .key "__end_line__"] = some (.int (1 + countNL (a ++ s)))) := by
  obtain ⟨t, p, h1, h2, h3⟩ := C53_nested_lines h
  refine ⟨t, p, h1, h2, fun hr => ?_⟩
  obtain ⟨a, s, z, b, w, w3, q, w4, k1, k2, k3, k4, k5, _, _, k6, k7⟩ := h3 hr
  refine ⟨a, s, z, b, w, w3, k1, k2, k3, k4, k5, k6, fun hz => ?_⟩
  rw [k7, countNL_append (a ++ s) z, hz, Nat.add_comm]
  simp

/-- **C13 does not hold in general**: the nested resource `b` ends in line 3, not 4, because a blank
line follows. -/
theorem C13_counterexample : Parser.parse ⟨true⟩ (some "resource a 'T@1' = {\n  resource b 'u' = {\n  }\n\n}\n") .none =
    .ok (.dict [("globals", .dict [("scope", .dict [("value", .str "resourceGroup"), ("__start_line__", .int 0),
        ("__end_line__", .int 0)])]),
      ("resources", .dict [("a", .dict [("decorators", .list []), ("type", .str "T"), ("api_version", .str "1"),
        ("existing", .bool false), ("config", .dict []), ("__start_line__", .int 1), ("__end_line__", .int 5)]),
        ("a__b", .dict [("decorators", .list []), ("type", .str "T/u"), ("api_version", .str "1"),
        ("existing", .bool false), ("config", .dict [("depends_on", .list [.elem "a"])]),
        ("__start_line__", .int 2), ("__end_line__", .int 4)])])]) :=
  eq_of_outIs (by decide +kernel)

/-! ### C14 -/

theorem linesOf_le {t : List Char} {w1 w w2 : List Tok} (h : Tiling 1 t (w1 ++ w ++ w2)) {l : Lines}
    (hl : LinesOf l w) : 1 ≤ l.1 ∧ l.1 ≤ l.2 ∧ l.2 ≤ 1 + countNL t := by
  obtain ⟨a, s, b, h1, rfl, _⟩ := slice_lines h hl
  rw [h1.text]
  simp only [countNL_append]
  omega

/-- the lines of the declarations of a program -/
theorem prog_ordered {p : Program} {w : List Tok} {n : Nat} (h : ProgSyn p w n) : ∀ {t : List Char} {w'},
    Tiling 1 t (w ++ w') → p.Pairwise (fun q r => q.1.2 ≤ r.1.1) ∧
      ∀ q ∈ p, 1 ≤ q.1.1 ∧ q.1.1 ≤ q.1.2 ∧ q.1.2 ≤ 1 + countNL t := by
  induction h with
  | nil => intro t w' _; simp
  | @decl p l' d' w1 w2 n hp hs hl ih =>
    intro t w' h
    have h' : Tiling 1 t (w1 ++ (w2 ++ w')) := by simpa using h
    obtain ⟨ih1, ih2⟩ := ih h'
    obtain ⟨x, y, rfl, hx, hy⟩ := h'.split rfl
    have ih3 := (ih (t := x) (w' := []) (by simpa using hx)).2
    obtain ⟨a, s, b, h1, hl', _⟩ := slice_lines h hl
    have hge : 1 + countNL x ≤ l'.1 := by
      -- the declaration begins after everything before it
      obtain ⟨u, v, hu, hv, rfl⟩ := hl
      cases w2 with
      | nil => simp at hu
      | cons u' w2 =>
        simp only [List.head?_cons, Option.some.injEq] at hu
        subst hu
        obtain ⟨a', z, _, h4, _⟩ := hy.trimLeft
        rw [h4]; simp
    refine ⟨List.pairwise_append.mpr ⟨ih1, by simp, ?_⟩, ?_⟩
    · intro q hq r hr
      rw [List.mem_singleton] at hr
      subst hr
      exact (ih3 q hq).2.2.trans hge
    · intro q hq
      rcases List.mem_append.mp hq with hq | hq
      · exact ih2 q hq
      · rw [List.mem_singleton] at hq
        subst hq
        exact linesOf_le h hl
  | @nl p w u n hp hu ih =>
    intro t w' h
    exact ih (w' := u :: w') (by simpa using h)

/-- **C14.** The line ranges of the declarations follow each other in the order of the text, and lie
within its lines; the reported lines are those ranges. -/
theorem C14_ordered {text path v} (h : Parser.parse ⟨true⟩ text path = .ok v) :
    ∃ t p, chosenText text path = .ok t ∧ Spells t p ∧
      p.Pairwise (fun q r => q.1.2 ≤ r.1.1) ∧
      (∀ q ∈ p, 1 ≤ q.1.1 ∧ q.1.1 ≤ q.1.2 ∧ q.1.2 ≤ 1 + t.toList.count '\n') ∧
      ∀ {sec n l d}, Reported p sec n l d →
        v.at? [.key sec, .key n, .key "__start_line__"] = some (.int l.1) ∧
        v.at? [.key sec, .key n, .key "__end_line__"] = some (.int l.2) := by
  obtain ⟨t, p, h1, h2, hv⟩ := parse_ok h
  obtain ⟨⟨w, hw, hs⟩, _⟩ := id h2
  replace hw := hw.tiling
  obtain ⟨h3, h4⟩ := prog_ordered hs (t := t.toList) (w' := []) (by simpa using hw)
  refine ⟨t, p, h1, h2, h3, h4, fun {sec n l d} hr => ?_⟩
  rw [Program.val] at hv
  obtain ⟨os, hos, hv⟩ := bind_ok' hv
  cases hv
  obtain ⟨o, attrs, ho, hown, hat⟩ := reported_entry (contribs_of hos) hr
  obtain ⟨h5, h6⟩ := out_lines ho (e := ⟨sec, n, attrs⟩) (by rw [hown]; simp)
  refine ⟨?_, ?_⟩
  · rw [show [PStep.key sec, .key n, .key "__start_line__"] = [.key sec, .key n] ++ [.key "__start_line__"] from rfl,
      Val.at?_append, hat]
    simp [Val.at?, Val.step?, h5]
  · rw [show [PStep.key sec, .key n, .key "__end_line__"] = [.key sec, .key n] ++ [.key "__end_line__"] from rfl,
      Val.at?_append, hat]
    simp [Val.at?, Val.step?, h6]

/-- two declarations, the first one over three lines and with a decorator -/
example : Parser.parse ⟨true⟩ (some "\n@secure()\nparam p object = {\n}\nvar x = 1 var y = 2\n") .none =
    .ok (.dict [("globals", .dict [("scope", .dict [("value", .str "resourceGroup"), ("__start_line__", .int 0),
        ("__end_line__", .int 0)])]),
      ("parameters", .dict [("p", .dict [("decorators", .list [.dict [("type", .str "secure")]]),
        ("type", .str "object"), ("default", .dict []), ("__start_line__", .int 2), ("__end_line__", .int 4)])]),
      ("variables", .dict [("x", .dict [("decorators", .list []), ("value", .int 1), ("__start_line__", .int 5), ("__end_line__", .int 5)]),
        ("y", .dict [("decorators", .list []), ("value", .int 2), ("__start_line__", .int 5), ("__end_line__", .int 5)])])]) :=
  eq_of_outIs (by decide +kernel)

end Pycep
