import Verif.Spec.Ebnf
import Verif.LarkCompile
import Verif.Derivation
/-
Compiling extended Backus-Naur form to plain rules changes neither the language nor the trees.
-/
namespace Pycep

theorem bareL_eq (ts : List Tree) : Tree.bareL ts = ts.map Tree.bare := by
  induction ts with
  | nil => rfl
  | cons t ts ih => rw [Tree.bareL, ih, List.map_cons]

theorem setSpan_bare (t : Tree) (kids) : (setSpan t kids).bare = t.bare := by
  cases t with
  | tok => rfl
  | none => rfl
  | node d ks sp =>
    rw [setSpan]
    split
    · split <;> simp [Tree.bare]
    · rfl

namespace Lark

/-- Children of a node. -/
def kidsOf : Tree → List Tree
  | .node _ ks _ => ks
  | _ => []

/-- The children an alternative keeps. -/
def itemKids (inl : Nat → Bool) : List Item → List Tree → List Tree
  | [], _ => []
  | .none :: xs, ts => .none :: itemKids inl xs ts
  | .tok _ _ :: _, [] => []
  | .tok _ keep :: xs, t :: ts => (if keep then [t] else []) ++ itemKids inl xs ts
  | .rule _ :: _, [] => []
  | .rule n :: xs, t :: ts => (if inl n then kidsOf t else [t]) ++ itemKids inl xs ts

/-- What `keepKids` makes of a list of kept children. -/
def pick (kids : List Tree) (ks : List (Nat × Bool × Nat) × Nat) : List Tree :=
  (ks.1.flatMap (fun (i, inline, nones) =>
    List.replicate nones Tree.none ++
      (match kids[i]? with
       | .none => []
       | some k => if inline then (match k with | .node _ ks _ => ks | _ => []) else [k]))) ++
    List.replicate ks.2 Tree.none

theorem pick_kept (inl) (x : List Item) : ∀ (pre ts : List Tree) (n : Nat),
    (symbols x).length = ts.length →
    pick (pre ++ ts) (keptFrom inl x pre.length n) =
      List.replicate n .none ++ itemKids inl x ts := by
  induction x with
  | nil => intro pre ts n h; simp [keptFrom, pick, itemKids]
  | cons a x ih =>
    intro pre ts n h
    cases a with
    | none =>
      rw [keptFrom, ih pre ts (n + 1) (by simpa [symbols] using h), itemKids,
        List.replicate_succ']
      simp
    | tok t keep =>
      cases ts with
      | nil => simp [symbols] at h
      | cons u ts =>
        have hl : (symbols x).length = ts.length := by simpa [symbols] using h
        have hp : pre ++ u :: ts = (pre ++ [u]) ++ ts := by simp
        have hn : pre.length + 1 = (pre ++ [u]).length := by simp
        cases keep with
        | false =>
          rw [keptFrom, if_neg (by simp), hp, hn, ih _ _ _ hl, itemKids]
          simp
        | true =>
          have := ih (pre ++ [u]) ts 0 hl
          rw [← hn, ← hp] at this
          rw [keptFrom, if_pos rfl, itemKids]
          simp only [pick, List.flatMap_cons] at this ⊢
          simp only [List.getElem?_append_right (Nat.le_refl _), Nat.sub_self, List.getElem?_cons_zero,
            List.append_assoc, this]
          simp
    | rule m =>
      cases ts with
      | nil => simp [symbols] at h
      | cons u ts =>
        have hl : (symbols x).length = ts.length := by simpa [symbols] using h
        have hp : pre ++ u :: ts = (pre ++ [u]) ++ ts := by simp
        have hn : pre.length + 1 = (pre ++ [u]).length := by simp
        have := ih (pre ++ [u]) ts 0 hl
        rw [← hn, ← hp] at this
        rw [keptFrom, itemKids]
        simp only [pick, List.flatMap_cons] at this ⊢
        simp only [List.getElem?_append_right (Nat.le_refl _), Nat.sub_self, List.getElem?_cons_zero,
          List.append_assoc, this]
        cases u <;> simp [kidsOf]

/-- The children of a node built for an alternative. -/
theorem keepKids_plain (inl lhs name e1) (x : List Item) (ts : List Tree)
    (h : (symbols x).length = ts.length) :
    keepKids (plainRule inl lhs name e1 x).rule ts = itemKids inl x ts := by
  have := pick_kept inl x [] ts 0 h
  rw [List.nil_append, List.length_nil, List.replicate_zero, List.nil_append] at this
  exact this

theorem bareL_append (a b : List Tree) : Tree.bareL (a ++ b) = Tree.bareL a ++ Tree.bareL b := by
  simp [bareL_eq]

theorem bareL_kidsOf (t : Tree) : Tree.bareL (kidsOf t) = kidsOf t.bare := by
  cases t <;> simp [kidsOf, Tree.bare, Tree.bareL]

theorem itemKids_append (inl) (x y : List Item) : ∀ (ts us : List Tree),
    (symbols x).length = ts.length →
    itemKids inl (x ++ y) (ts ++ us) = itemKids inl x ts ++ itemKids inl y us := by
  induction x with
  | nil => intro ts us h; cases ts with
    | nil => simp [itemKids]
    | cons => simp [symbols] at h
  | cons a x ih =>
    intro ts us h
    cases a with
    | none =>
      have := ih ts us (by simpa [symbols] using h)
      simp [itemKids, this]
    | tok t keep =>
      cases ts with
      | nil => simp [symbols] at h
      | cons u ts =>
        have := ih ts us (by simpa [symbols] using h)
        simp [itemKids, this]
    | rule m =>
      cases ts with
      | nil => simp [symbols] at h
      | cons u ts =>
        have := ih ts us (by simpa [symbols] using h)
        simp [itemKids, this]

theorem symbols_append (x y : List Item) : symbols (x ++ y) = symbols x ++ symbols y := by
  induction x with
  | nil => rfl
  | cons a x ih => cases a <;> simp [symbols, ih]

theorem symbols_replicate (n : Nat) : symbols (List.replicate n .none) = [] := by
  induction n with
  | zero => rfl
  | succ n ih => simpa [List.replicate_succ, symbols] using ih

theorem itemKids_replicate (inl) (n : Nat) (ts) :
    itemKids inl (List.replicate n .none) ts = List.replicate n .none := by
  induction n with
  | zero => rfl
  | succ n ih => simp [List.replicate_succ, itemKids, ih]

theorem bareL_replicate (n : Nat) : Tree.bareL (List.replicate n .none) = List.replicate n .none := by
  simp [bareL_eq, Tree.bare]

theorem size_children (G) (e : Ebnf) : e.size G = e.children G := by
  induction e with
  | rule n =>
    simp only [Ebnf.size, Ebnf.children, List.any_eq_true, Bool.and_eq_true, beq_iff_eq]
  | _ => simp_all [Ebnf.size, Ebnf.children]

/-! ### Alternatives of compound expressions -/

theorem flat_cat {G H a b xs ys} (h : Ebnf.flat G H a = some xs) (h' : Ebnf.flat G H b = some ys) :
    Ebnf.flat G H (.cat a b) = some (xs.flatMap fun x => ys.map fun y => x ++ y) := by
  simp only [Ebnf.flat, h, h', Option.bind_eq_bind, Option.bind_some]

theorem flat_alt {G H a b xs ys} (h : Ebnf.flat G H a = some xs) (h' : Ebnf.flat G H b = some ys) :
    Ebnf.flat G H (.alt a b) = some (xs ++ ys) := by
  simp only [Ebnf.flat, h, h', Option.bind_eq_bind, Option.bind_some]

theorem flat_opt {G H a xs} (h : Ebnf.flat G H a = some xs) :
    Ebnf.flat G H (.opt a) = some (xs ++ [[]]) := by
  simp only [Ebnf.flat, h, Option.bind_eq_bind, Option.bind_some]

theorem flat_maybe {G H a xs} (h : Ebnf.flat G H a = some xs) :
    Ebnf.flat G H (.maybe a) = some (xs ++ [List.replicate (a.size G) .none]) := by
  simp only [Ebnf.flat, h, Option.bind_eq_bind, Option.bind_some]

/-! ### Grammars for which the expansion is right -/

/-- Token numbers are below 128, rule numbers are those of the grammar, repeated expressions have
helper rules. -/
def Ebnf.ok (lim : Nat) (H : List Helper) : Ebnf → Bool
  | .tok t _ => t < 128
  | .rule n => 128 ≤ n && n < lim
  | .eps => true
  | .cat a b | .alt a b => a.ok lim H && b.ok lim H
  | .opt a | .maybe a => a.ok lim H
  | .plus a | .star a => a.ok lim H && H.any (·.body == a)

/-- What is needed of a grammar and its helper rules. -/
structure Wf (G : List RuleDef) (H : List Helper) (lim : Nat) : Prop where
  base : 128 ≤ lim
  lo : ∀ d ∈ G, 128 ≤ d.id ∧ d.id < lim
  hi : ∀ h ∈ H, lim ≤ h.id
  ids : ∀ d ∈ G, ∀ d' ∈ G, d.id = d'.id → d.inline = d'.inline
  uniq : ∀ h ∈ H, ∀ h' ∈ H, h.id = h'.id → h = h'
  expand : ∀ d ∈ G, d.inline = true → d.expand1 = false
  alts : ∀ d ∈ G, ∀ a ∈ d.alts, a.1.ok lim H = true
  bodies : ∀ h ∈ H, h.body.ok lim H = true

/-- The plain rules of a grammar, one by one. -/
inductive Plain (G : List RuleDef) (H : List Helper) : Rule → Prop where
  | rule {d e al xs x} : d ∈ G → (e, al) ∈ d.alts → e.flat G H = some xs → x ∈ xs →
      Plain G H (plainRule (inlined G H) d.id (al.getD d.name) (d.expand1 && al.isNone) x).rule
  | one {h xs x} : h ∈ H → h.body.flat G H = some xs → x ∈ xs →
      Plain G H (plainRule (inlined G H) h.id h.name false x).rule
  | more {h xs x} : h ∈ H → h.body.flat G H = some xs → x ∈ xs →
      Plain G H (plainRule (inlined G H) h.id h.name false (.rule h.id :: x)).rule

section
variable {G : List RuleDef} {H : List Helper} {lim : Nat} (wf : Wf G H lim)
include wf

theorem inlined_rule {d} (hd : d ∈ G) : inlined G H d.id = d.inline := by
  have h1 : H.any (·.id == d.id) = false := by
    rw [List.any_eq_false]
    intro h hh
    have := (wf.lo d hd).2; have := wf.hi h hh
    simp; omega
  rw [inlined, h1, Bool.or_false, Bool.eq_iff_iff, List.any_eq_true]
  constructor
  · rintro ⟨d', hd', h⟩
    simp only [Bool.and_eq_true, beq_iff_eq] at h
    rw [← wf.ids d' hd' d hd h.1]; exact h.2
  · intro h
    exact ⟨d, hd, by simp [h]⟩

omit wf in
theorem inlined_helper {h} (hh : h ∈ H) : inlined G H h.id = true := by
  rw [inlined, Bool.or_eq_true]
  exact .inr (List.any_eq_true.mpr ⟨h, hh, by simp⟩)

omit wf in
theorem helperId_some {e n} (h : helperId H e = some n) : ∃ h ∈ H, h.body = e ∧ h.id = n := by
  rw [helperId, Option.map_eq_some_iff] at h
  obtain ⟨x, hx, rfl⟩ := h
  exact ⟨x, List.mem_of_find?_eq_some hx, by simpa using List.find?_some hx, rfl⟩

/-- What a symbol of a plain rule stands for. -/
inductive Means (G : List RuleDef) (H : List Helper) : Nat → Tree → List Tok → Prop where
  | tok (u : Tok) : u.type < 128 → Means G H u.type (.tok u) [u]
  | rule {d t w} : d ∈ G →
      Yields G (.rule d.id) (if d.inline then kidsOf t.bare else [t.bare]) w → Means G H d.id t w
  | helper {h t w} : h ∈ H → Yields G (.plus h.body) (kidsOf t.bare) w → Means G H h.id t w

/-- The same for sequences. -/
inductive MeansL (G : List RuleDef) (H : List Helper) : List Nat → List Tree → List Tok → Prop where
  | nil : MeansL G H [] [] []
  | cons {n ns t ts w w'} : Means G H n t w → MeansL G H ns ts w' →
      MeansL G H (n :: ns) (t :: ts) (w ++ w')

omit wf in
theorem MeansL.length {ns ts w} (h : MeansL G H ns ts w) : ns.length = ts.length := by
  induction h with
  | nil => rfl
  | cons _ _ ih => simp [ih]

omit wf in
theorem MeansL.split {ns ms ts w} (h : MeansL G H (ns ++ ms) ts w) :
    ∃ t₁ t₂ w₁ w₂, ts = t₁ ++ t₂ ∧ w = w₁ ++ w₂ ∧ MeansL G H ns t₁ w₁ ∧ MeansL G H ms t₂ w₂ := by
  induction ns generalizing ts w with
  | nil => exact ⟨[], ts, [], w, rfl, rfl, .nil, h⟩
  | cons n ns ih =>
    cases h with
    | @cons _ _ t ts v v' hm hr =>
      obtain ⟨t₁, t₂, w₁, w₂, rfl, rfl, h1, h2⟩ := ih hr
      exact ⟨t :: t₁, t₂, v ++ w₁, w₂, rfl, by simp, .cons hm h1, h2⟩

theorem helper_sound {a n ts w} (hn : helperId H a = some n)
    (hm : MeansL G H (symbols [.rule n]) ts w) :
    Yields G (.plus a) (Tree.bareL (itemKids (inlined G H) [.rule n] ts)) w := by
  obtain ⟨h, hh, rfl, rfl⟩ := helperId_some hn
  rw [symbols, symbols] at hm
  generalize hi : h.id = i at hm
  cases hm with
  | cons h1 h2 =>
    cases h2
    rw [List.append_nil]
    cases h1 with
    | tok u hu => exact absurd hu (by have := wf.hi _ hh; have := wf.base; omega)
    | rule hd _ => exact absurd (wf.lo _ hd).2 (by have := wf.hi _ hh; omega)
    | @helper h' t _ hh' hy =>
      have := wf.uniq h hh h' hh' hi
      subst this
      simpa [itemKids, inlined_helper hh, bareL_kidsOf] using hy

/-- What an alternative of an expression stands for is what the expression yields. -/
theorem flat_sound (e : Ebnf) : ∀ {xs x ts w}, e.ok lim H = true → e.flat G H = some xs → x ∈ xs →
    MeansL G H (symbols x) ts w → Yields G e (Tree.bareL (itemKids (inlined G H) x ts)) w := by
  induction e with
  | tok t keep =>
    intro xs x ts w ho hf hx hm
    simp only [Ebnf.flat, Option.some.injEq] at hf
    subst hf
    rw [List.mem_singleton] at hx
    subst hx
    have ht : t < 128 := by simpa [Ebnf.ok] using ho
    rw [symbols, symbols] at hm
    cases hm with
    | cons h1 h2 =>
      cases h2
      rw [List.append_nil]
      cases h1 with
      | tok u hu =>
        cases keep with
        | true => simpa [itemKids, Tree.bareL, Tree.bare] using Yields.kept u
        | false => simpa [itemKids, Tree.bareL] using Yields.dropped u
      | rule hd _ => exact absurd ht (by have := (wf.lo _ hd).1; omega)
      | helper hh _ => exact absurd ht (by have := wf.hi _ hh; have := wf.base; omega)
  | rule n =>
    intro xs x ts w ho hf hx hm
    simp only [Ebnf.flat, Option.some.injEq] at hf
    subst hf
    rw [List.mem_singleton] at hx
    subst hx
    have hn : 128 ≤ n ∧ n < lim := by simpa [Ebnf.ok] using ho
    rw [symbols, symbols] at hm
    cases hm with
    | cons h1 h2 =>
      cases h2
      rw [List.append_nil]
      cases h1 with
      | tok u hu => exact absurd hn.1 (by omega)
      | @rule d t _ hd hy =>
        simp only [itemKids, List.append_nil, inlined_rule wf hd]
        cases hi : d.inline with
        | true => simpa [hi, bareL_kidsOf] using hy
        | false => simpa [hi, Tree.bareL] using hy
      | helper hh _ => exact absurd hn.2 (by have := wf.hi _ hh; omega)
  | eps =>
    intro xs x ts w ho hf hx hm
    simp only [Ebnf.flat, Option.some.injEq] at hf
    subst hf
    rw [List.mem_singleton] at hx
    subst hx
    cases hm
    exact .eps
  | cat a b iha ihb =>
    intro xs x ts w ho hf hx hm
    rw [Ebnf.ok, Bool.and_eq_true] at ho
    simp only [Ebnf.flat, Option.bind_eq_bind, Option.bind_eq_some_iff, Option.some.injEq] at hf
    obtain ⟨ys, hy, zs, hz, rfl⟩ := hf
    rw [List.mem_flatMap] at hx
    obtain ⟨y, hy', hx⟩ := hx
    rw [List.mem_map] at hx
    obtain ⟨z, hz', rfl⟩ := hx
    rw [symbols_append] at hm
    obtain ⟨t₁, t₂, w₁, w₂, rfl, rfl, h1, h2⟩ := hm.split
    rw [itemKids_append _ _ _ _ _ h1.length, bareL_append]
    exact .cat (iha ho.1 hy hy' h1) (ihb ho.2 hz hz' h2)
  | alt a b iha ihb =>
    intro xs x ts w ho hf hx hm
    rw [Ebnf.ok, Bool.and_eq_true] at ho
    simp only [Ebnf.flat, Option.bind_eq_bind, Option.bind_eq_some_iff, Option.some.injEq] at hf
    obtain ⟨ys, hy, zs, hz, rfl⟩ := hf
    rcases List.mem_append.mp hx with hx | hx
    · exact .left (iha ho.1 hy hx hm)
    · exact .right (ihb ho.2 hz hx hm)
  | opt a ih =>
    intro xs x ts w ho hf hx hm
    simp only [Ebnf.flat, Option.bind_eq_bind, Option.bind_eq_some_iff, Option.some.injEq] at hf
    obtain ⟨ys, hy, rfl⟩ := hf
    rcases List.mem_append.mp hx with hx | hx
    · exact .opt (ih ho hy hx hm)
    · rw [List.mem_singleton] at hx
      subst hx
      cases hm
      exact .optNot
  | maybe a ih =>
    intro xs x ts w ho hf hx hm
    simp only [Ebnf.flat, Option.bind_eq_bind, Option.bind_eq_some_iff, Option.some.injEq] at hf
    obtain ⟨ys, hy, rfl⟩ := hf
    rcases List.mem_append.mp hx with hx | hx
    · exact .maybe (ih ho hy hx hm)
    · rw [List.mem_singleton] at hx
      subst hx
      rw [symbols_replicate] at hm
      cases hm
      rw [itemKids_replicate, bareL_replicate, size_children]
      exact .maybeNot
  | plus a ih =>
    intro xs x ts w ho hf hx hm
    rw [Ebnf.flat, Option.map_eq_some_iff] at hf
    obtain ⟨n, hn, rfl⟩ := hf
    rw [List.mem_singleton] at hx
    subst hx
    exact helper_sound wf hn hm
  | star a ih =>
    intro xs x ts w ho hf hx hm
    rw [Ebnf.flat, Option.map_eq_some_iff] at hf
    obtain ⟨n, hn, rfl⟩ := hf
    simp only [List.mem_cons, List.not_mem_nil, or_false] at hx
    rcases hx with rfl | rfl
    · exact .star (helper_sound wf hn hm)
    · cases hm
      exact .starNot

omit wf in
/-- The tree of a node without line numbers. -/
theorem buildNode_bare (d : RuleDef) (al : Option (List Char)) (x ts)
    (h : (symbols x).length = ts.length) (he : d.inline = true → d.expand1 = false) :
    d.result al (Tree.bareL (itemKids (inlined G H) x ts)) =
      (let t := (buildNode (plainRule (inlined G H) d.id (al.getD d.name) (d.expand1 && al.isNone) x).rule
        ts).bare
      if d.inline then kidsOf t else [t]) := by
  simp only [buildNode, setSpan_bare, keepKids_plain _ _ _ _ _ _ h]
  generalize itemKids (inlined G H) x ts = ks
  cases hi : d.inline with
  | true =>
    simp [RuleDef.result, hi, he hi, plainRule, CRule.rule, Tree.bare, kidsOf]
  | false =>
    cases h1 : d.expand1 with
    | false => simp [RuleDef.result, hi, h1, plainRule, CRule.rule, Tree.bare]
    | true =>
      cases al with
      | some n => simp [RuleDef.result, hi, h1, plainRule, CRule.rule, Tree.bare]
      | none =>
        match ks with
        | [] => simp [RuleDef.result, hi, h1, plainRule, CRule.rule, Tree.bare, Tree.bareL]
        | [k] => simp [RuleDef.result, hi, h1, plainRule, CRule.rule, Tree.bareL]
        | k :: k' :: ks => simp [RuleDef.result, hi, h1, plainRule, CRule.rule, Tree.bare, Tree.bareL]

omit wf in
/-- The children of a node of a helper rule. -/
theorem buildNode_kids (n : Nat) (name : List Char) (x ts) (h : (symbols x).length = ts.length) :
    kidsOf (buildNode (plainRule (inlined G H) n name false x).rule ts).bare =
      Tree.bareL (itemKids (inlined G H) x ts) := by
  simp only [buildNode, setSpan_bare, keepKids_plain _ _ _ _ _ _ h]
  simp [plainRule, CRule.rule, Tree.bare, kidsOf]

/-- Derivations in the plain rules are what the grammar yields. -/
theorem der_means (hr : ∀ r ∈ rules, Plain G H r) {ss ts w} (h : Der ss ts w) :
    (∀ u ∈ w, u.type < 128) → MeansL G H ss ts w := by
  induction h with
  | nil => intro _; exact .nil
  | tok t _ ih =>
    intro hw
    exact .cons (.tok t (hw t (by simp))) (ih fun u hu => hw u (by simp [hu]))
  | @node ss ts w kids w₁ r hrm _ _ ih1 ih2 =>
    intro hw
    refine .cons ?_ (ih2 fun u hu => hw u (by simp [hu]))
    have hk := ih1 fun u hu => hw u (by simp [hu])
    cases hr r hrm with
    | @rule d e al xs x hd ha hf hx =>
      have hy := flat_sound wf e (wf.alts d hd _ ha) hf hx hk
      have := Yields.rule hd ha hy
      rw [buildNode_bare d al x kids hk.length (wf.expand d hd)] at this
      exact .rule hd this
    | @one h xs x hh hf hx =>
      have hy := flat_sound wf h.body (wf.bodies h hh) hf hx hk
      refine .helper hh ?_
      rw [buildNode_kids _ _ _ _ hk.length]
      exact .one hy
    | @more h xs x hh hf hx =>
      refine .helper hh ?_
      rw [buildNode_kids _ _ _ _ hk.length]
      have hk' : MeansL G H (h.id :: symbols x) kids w₁ := hk
      generalize hi : h.id = i at hk'
      cases hk' with
      | @cons _ _ t ts v v' hm hrest =>
        have hy := flat_sound wf h.body (wf.bodies h hh) hf hx hrest
        rw [itemKids, ← hi, inlined_helper hh, if_pos rfl, bareL_append, bareL_kidsOf]
        refine .more ?_ hy
        cases hm with
        | tok u hu => exact absurd hu (by have := wf.hi _ hh; have := wf.base; omega)
        | rule hd _ => exact absurd (wf.lo _ hd).2 (by have := wf.hi _ hh; omega)
        | @helper h' t _ hh' hy =>
          have := wf.uniq h hh h' hh' hi
          subst this
          exact hy

/-! ### Completeness -/

omit wf in
/-- Expressions of the grammar have alternatives. -/
theorem flat_some (e : Ebnf) (h : e.ok lim H = true) : ∃ xs, e.flat G H = some xs := by
  have help : ∀ a, H.any (·.body == a) = true → ∃ n, helperId H a = some n := by
    intro a ha
    obtain ⟨x, hx, hb⟩ := List.any_eq_true.mp ha
    rw [helperId]
    cases hf : H.find? (·.body == a) with
    | some y => exact ⟨_, rfl⟩
    | none => exact absurd hb (by simpa using List.find?_eq_none.mp hf x hx)
  induction e with
  | tok | rule | eps => exact ⟨_, rfl⟩
  | cat a b iha ihb =>
    rw [Ebnf.ok, Bool.and_eq_true] at h
    obtain ⟨xs, hx⟩ := iha h.1
    obtain ⟨ys, hy⟩ := ihb h.2
    exact ⟨_, flat_cat hx hy⟩
  | alt a b iha ihb =>
    rw [Ebnf.ok, Bool.and_eq_true] at h
    obtain ⟨xs, hx⟩ := iha h.1
    obtain ⟨ys, hy⟩ := ihb h.2
    exact ⟨_, flat_alt hx hy⟩
  | opt a ih =>
    obtain ⟨xs, hx⟩ := ih h
    exact ⟨_, flat_opt hx⟩
  | maybe a ih =>
    obtain ⟨xs, hx⟩ := ih h
    exact ⟨_, flat_maybe hx⟩
  | plus a ih =>
    rw [Ebnf.ok, Bool.and_eq_true] at h
    obtain ⟨n, hn⟩ := help a h.2
    exact ⟨_, by rw [Ebnf.flat, hn, Option.map_some]⟩
  | star a ih =>
    rw [Ebnf.ok, Bool.and_eq_true] at h
    obtain ⟨n, hn⟩ := help a h.2
    exact ⟨_, by rw [Ebnf.flat, hn, Option.map_some]⟩

/-- What the grammar yields is derived by the plain rules. -/
theorem yields_der (hr : ∀ r, Plain G H r → r ∈ rules) {e ks w} (h : Yields G e ks w) :
    e.ok lim H = true → ∃ xs x ts, e.flat G H = some xs ∧ x ∈ xs ∧ Der (symbols x) ts w ∧
      Tree.bareL (itemKids (inlined G H) x ts) = ks := by
  induction h with
  | kept u =>
    intro _
    exact ⟨_, _, [.tok u], rfl, List.mem_singleton.mpr rfl, .tok u .nil, rfl⟩
  | dropped u =>
    intro _
    exact ⟨_, _, [.tok u], rfl, List.mem_singleton.mpr rfl, .tok u .nil, rfl⟩
  | @rule d e al kids w hd ha _ ih =>
    intro _
    obtain ⟨xs, x, ts, hf, hx, hder, rfl⟩ := ih (wf.alts d hd _ ha)
    have hlen := hder.length
    refine ⟨_, _, [buildNode (plainRule (inlined G H) d.id (al.getD d.name)
      (d.expand1 && al.isNone) x).rule ts], rfl, List.mem_singleton.mpr rfl, ?_, ?_⟩
    · have := Der.node _ (hr _ (.rule hd ha hf hx)) hder .nil
      rw [List.append_nil] at this
      exact this
    · rw [buildNode_bare d al x ts hlen (wf.expand d hd)]
      simp only [itemKids, List.append_nil, inlined_rule wf hd]
      cases hi : d.inline with
      | true => simp [bareL_kidsOf]
      | false => simp [Tree.bareL]
  | eps => intro _; exact ⟨_, _, [], rfl, List.mem_singleton.mpr rfl, .nil, rfl⟩
  | @cat a b ks₁ ks₂ w₁ w₂ _ _ iha ihb =>
    intro ho
    rw [Ebnf.ok, Bool.and_eq_true] at ho
    obtain ⟨xs, x, ts, hf, hx, hd, rfl⟩ := iha ho.1
    obtain ⟨ys, y, us, hf', hy, hd', rfl⟩ := ihb ho.2
    refine ⟨_, x ++ y, ts ++ us, flat_cat hf hf',
      ?_, ?_, ?_⟩
    · exact List.mem_flatMap.mpr ⟨x, hx, List.mem_map.mpr ⟨y, hy, rfl⟩⟩
    · rw [symbols_append]; exact hd.append hd'
    · rw [itemKids_append _ _ _ _ _ hd.length, bareL_append]
  | @left a b ks w _ ih =>
    intro ho
    rw [Ebnf.ok, Bool.and_eq_true] at ho
    obtain ⟨xs, x, ts, hf, hx, hd, rfl⟩ := ih ho.1
    obtain ⟨ys, hf'⟩ := flat_some b ho.2
    exact ⟨_, x, ts, flat_alt hf hf',
      List.mem_append_left _ hx, hd, rfl⟩
  | @right a b ks w _ ih =>
    intro ho
    rw [Ebnf.ok, Bool.and_eq_true] at ho
    obtain ⟨xs, x, ts, hf, hx, hd, rfl⟩ := ih ho.2
    obtain ⟨ys, hf'⟩ := flat_some a ho.1
    exact ⟨_, x, ts, flat_alt hf' hf,
      List.mem_append_right _ hx, hd, rfl⟩
  | @optNot a =>
    intro ho
    obtain ⟨ys, hf⟩ := flat_some a ho
    exact ⟨_, [], [], flat_opt hf,
      List.mem_append_right _ (List.mem_singleton.mpr rfl), .nil, rfl⟩
  | @opt a ks w _ ih =>
    intro ho
    obtain ⟨xs, x, ts, hf, hx, hd, rfl⟩ := ih ho
    exact ⟨_, x, ts, flat_opt hf,
      List.mem_append_left _ hx, hd, rfl⟩
  | @maybeNot a =>
    intro ho
    obtain ⟨ys, hf⟩ := flat_some a ho
    refine ⟨_, List.replicate (a.size G) .none, [],
      flat_maybe hf,
      List.mem_append_right _ (List.mem_singleton.mpr rfl), ?_, ?_⟩
    · rw [symbols_replicate]; exact .nil
    · rw [itemKids_replicate, bareL_replicate, size_children]
  | @maybe a ks w _ ih =>
    intro ho
    obtain ⟨xs, x, ts, hf, hx, hd, rfl⟩ := ih ho
    exact ⟨_, x, ts, flat_maybe hf,
      List.mem_append_left _ hx, hd, rfl⟩
  | @one a ks w _ ih =>
    intro ho
    have ho' := ho
    rw [Ebnf.ok, Bool.and_eq_true] at ho
    obtain ⟨xs, x, ts, hf, hx, hd, rfl⟩ := ih ho.1
    obtain ⟨zs, hz⟩ := flat_some (.plus a) ho'
    have hz' := hz
    rw [Ebnf.flat, Option.map_eq_some_iff] at hz'
    obtain ⟨n, hn, rfl⟩ := hz'
    obtain ⟨h, hh, rfl, rfl⟩ := helperId_some hn
    have := Der.node _ (hr _ (.one hh hf hx)) hd .nil
    rw [List.append_nil] at this
    refine ⟨_, _, _, hz, List.mem_singleton.mpr rfl, this, ?_⟩
    simp only [itemKids, inlined_helper hh, if_true, List.append_nil, bareL_kidsOf]
    exact buildNode_kids _ _ _ _ hd.length
  | @more a ks₁ ks₂ w₁ w₂ _ _ ihp ih =>
    intro ho
    have ho' := ho
    rw [Ebnf.ok, Bool.and_eq_true] at ho
    obtain ⟨xs, x, ts, hf, hx, hd, rfl⟩ := ih ho.1
    obtain ⟨zs, z, us, hz, hzm, hd', rfl⟩ := ihp ho'
    have hz' := hz
    rw [Ebnf.flat, Option.map_eq_some_iff] at hz'
    obtain ⟨n, hn, rfl⟩ := hz'
    obtain ⟨h, hh, rfl, rfl⟩ := helperId_some hn
    rw [List.mem_singleton] at hzm
    subst hzm
    have hd'' : Der (symbols (.rule h.id :: x)) (us ++ ts) (w₁ ++ w₂) := hd'.append hd
    have := Der.node _ (hr _ (.more hh hf hx)) hd'' .nil
    rw [List.append_nil] at this
    refine ⟨_, _, _, hz, List.mem_singleton.mpr rfl, this, ?_⟩
    simp only [itemKids, inlined_helper hh, if_true, List.append_nil, bareL_kidsOf]
    refine (buildNode_kids _ _ _ _ hd''.length).trans ?_
    have := itemKids_append (inlined G H) [.rule h.id] x us ts hd'.length
    rw [List.singleton_append] at this
    rw [this, bareL_append]
  | @starNot a =>
    intro ho
    obtain ⟨zs, hz⟩ := flat_some (.star a) ho
    have hz' := hz
    rw [Ebnf.flat, Option.map_eq_some_iff] at hz'
    obtain ⟨n, hn, rfl⟩ := hz'
    exact ⟨_, [], [], hz, by simp, .nil, rfl⟩
  | @star a ks w _ ih =>
    intro ho
    obtain ⟨xs, x, ts, hf, hx, hd, rfl⟩ := ih ho
    rw [Ebnf.flat, Option.map_eq_some_iff] at hf
    obtain ⟨n, hn, rfl⟩ := hf
    rw [List.mem_singleton] at hx
    subst hx
    exact ⟨_, _, ts, by rw [Ebnf.flat, hn, Option.map_some], by simp, hd, rfl⟩

end
/-! ### All plain rules -/

theorem mem_dedup {α} [DecidableEq α] (l : List α) : ∀ (seen : List α) (x : α),
    x ∈ dedup seen l ↔ x ∈ l ∧ x ∉ seen := by
  induction l with
  | nil => intro seen x; simp [dedup]
  | cons a l ih =>
    intro seen x
    rw [dedup]
    by_cases ha : a ∈ seen
    · rw [if_pos ha, ih]
      constructor
      · exact fun h => ⟨List.mem_cons_of_mem _ h.1, h.2⟩
      · rintro ⟨h1, h2⟩
        rcases List.mem_cons.mp h1 with rfl | h1
        · exact absurd ha h2
        · exact ⟨h1, h2⟩
    · rw [if_neg ha, List.mem_cons, ih, List.mem_cons, List.mem_cons]
      by_cases hx : x = a
      · subst hx; simp [ha]
      · simp [hx]

theorem mem_mapM {α β} {f : α → Option β} : ∀ {l : List α} {r : List β}, l.mapM f = some r →
    ∀ y, y ∈ r ↔ ∃ x ∈ l, f x = some y := by
  intro l
  induction l with
  | nil => intro r h y; simp at h; subst h; simp
  | cons a l ih =>
    intro r h y
    simp only [List.mapM_cons, Option.bind_eq_bind, Option.bind_eq_some_iff, Option.pure_def,
      Option.some.injEq] at h
    obtain ⟨b, hb, bs, hbs, rfl⟩ := h
    rw [List.mem_cons, ih hbs]
    constructor
    · rintro (rfl | ⟨x, hx, hf⟩)
      · exact ⟨a, List.mem_cons_self, hb⟩
      · exact ⟨x, List.mem_cons_of_mem _ hx, hf⟩
    · rintro ⟨x, hx, hf⟩
      rcases List.mem_cons.mp hx with rfl | hx
      · rw [hb] at hf; cases hf; exact .inl rfl
      · exact .inr ⟨x, hx, hf⟩

theorem mapM_none {α β} {f : α → Option β} {x : α} (hf : f x = none) : ∀ {l : List α}, x ∈ l →
    l.mapM f = none := by
  intro l
  induction l with
  | nil => intro h; cases h
  | cons a l ih =>
    intro h
    rcases List.mem_cons.mp h with rfl | h
    · simp [List.mapM_cons, hf]
    · simp [List.mapM_cons, ih h]

/-- The compiled rules are the plain rules. -/
theorem mem_compile {G cs} (h : compile G = some cs) (r : Rule) :
    r ∈ cs.map CRule.rule ↔ Plain G (allHelpers G) r := by
  simp only [compile, Option.bind_eq_bind, Option.bind_eq_some_iff, Option.some.injEq] at h
  obtain ⟨rs, hrs, hs, hhs, rfl⟩ := h
  rw [List.mem_map]
  constructor
  · rintro ⟨c, hc, rfl⟩
    rcases List.mem_append.mp hc with hc | hc
    · obtain ⟨l, hl, hc⟩ := List.mem_flatten.mp hc
      obtain ⟨d, hd, hl⟩ := (mem_mapM hrs l).mp hl
      simp only [compileRule, Option.bind_eq_bind, Option.bind_eq_some_iff, Option.some.injEq] at hl
      obtain ⟨alts, ha, rfl⟩ := hl
      obtain ⟨⟨x, al⟩, hx, rfl⟩ := List.mem_map.mp hc
      have hx := ((mem_dedup _ _ _).mp hx).1
      obtain ⟨ys, hys, hx⟩ := List.mem_flatten.mp hx
      obtain ⟨⟨e, al'⟩, he, hf⟩ := (mem_mapM ha ys).mp hys
      rw [Option.map_eq_some_iff] at hf
      obtain ⟨xs, hf, rfl⟩ := hf
      obtain ⟨x', hx', heq⟩ := List.mem_map.mp hx
      cases heq
      exact .rule hd he hf hx'
    · obtain ⟨l, hl, hc⟩ := List.mem_flatten.mp hc
      obtain ⟨d, hd, hl⟩ := (mem_mapM hhs l).mp hl
      simp only [compileHelper, Option.bind_eq_bind, Option.bind_eq_some_iff, Option.some.injEq] at hl
      obtain ⟨xs, hf, rfl⟩ := hl
      obtain ⟨x, hx, rfl⟩ := List.mem_map.mp hc
      have hx := ((mem_dedup _ _ _).mp hx).1
      rcases List.mem_append.mp hx with hx | hx
      · exact .one hd hf hx
      · obtain ⟨x', hx', rfl⟩ := List.mem_map.mp hx
        exact .more hd hf hx'
  · intro hp
    cases hp with
    | @rule d e al xs x hd ha hf hx =>
      refine ⟨_, List.mem_append_left _ ?_, rfl⟩
      have : ∃ l, compileRule G (inlined G (allHelpers G)) (allHelpers G) d = some l := by
        cases hc : compileRule G (inlined G (allHelpers G)) (allHelpers G) d with
        | some l => exact ⟨l, rfl⟩
        | none => rw [mapM_none hc hd] at hrs; cases hrs
      obtain ⟨l, hl⟩ := this
      refine List.mem_flatten.mpr ⟨l, (mem_mapM hrs l).mpr ⟨d, hd, hl⟩, ?_⟩
      simp only [compileRule, Option.bind_eq_bind, Option.bind_eq_some_iff, Option.some.injEq] at hl
      obtain ⟨alts, haa, rfl⟩ := hl
      refine List.mem_map.mpr ⟨(x, al), (mem_dedup _ _ _).mpr ⟨?_, by simp⟩, rfl⟩
      refine List.mem_flatten.mpr ⟨xs.map fun x => (x, al), (mem_mapM haa _).mpr ⟨(e, al), ha, ?_⟩, ?_⟩
      · rw [hf]; rfl
      · exact List.mem_map.mpr ⟨x, hx, rfl⟩
    | @one h xs x hh hf hx =>
      refine ⟨_, List.mem_append_right _ ?_, rfl⟩
      refine List.mem_flatten.mpr ⟨(dedup [] (xs ++ xs.map fun x => .rule h.id :: x)).map
        (plainRule (inlined G (allHelpers G)) h.id h.name false),
        (mem_mapM hhs _).mpr ⟨h, hh, ?_⟩, ?_⟩
      · simp only [compileHelper, hf, Option.bind_eq_bind, Option.bind_some]
      · exact List.mem_map.mpr ⟨x, (mem_dedup _ _ _).mpr ⟨List.mem_append_left _ hx, by simp⟩, rfl⟩
    | @more h xs x hh hf hx =>
      refine ⟨_, List.mem_append_right _ ?_, rfl⟩
      refine List.mem_flatten.mpr ⟨(dedup [] (xs ++ xs.map fun x => .rule h.id :: x)).map
        (plainRule (inlined G (allHelpers G)) h.id h.name false),
        (mem_mapM hhs _).mpr ⟨h, hh, ?_⟩, ?_⟩
      · simp only [compileHelper, hf, Option.bind_eq_bind, Option.bind_some]
      · exact List.mem_map.mpr ⟨_, (mem_dedup _ _ _).mpr
          ⟨List.mem_append_right _ (List.mem_map.mpr ⟨x, hx, rfl⟩), by simp⟩, rfl⟩

end Lark
end Pycep
