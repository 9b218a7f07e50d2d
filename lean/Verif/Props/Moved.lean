import Verif.Props.Join
import Verif.Props.Lines
import Verif.Props.Additive
import Verif.Props.Tail
import Verif.Props.Stray
import Verif.Proofs.Documents
import Verif.Spec.Moved
/-
C92: lines put in front of a document.
-/
namespace Pycep

/-! ### without nested resources there are no lines in a declaration -/

mutual
theorem stay_expr (k : Nat) : (e : Expr) → e.Keys NoMarker → e.down k = e
  | .null, _ | .tru, _ | .fls, _ | .int _, _ | .ident _, _ | .str _, _ | .multi _, _ => by simp only [Expr.down]
  | .array es, h => by rw [Expr.Keys] at h; rw [Expr.down, stay_exprs k es h]
  | .object is, h => by rw [Expr.Keys] at h; rw [Expr.down, stay_items k is h]
  | .call _ es, h => by rw [Expr.Keys] at h; rw [Expr.down, stay_exprs k es h]
  | .bin _ a b, h => by rw [Expr.Keys] at h; rw [Expr.down, stay_expr k a h.1, stay_expr k b h.2]
  | .not a, h => by rw [Expr.Keys] at h; rw [Expr.down, stay_expr k a h]
  | .minus a, h => by rw [Expr.Keys] at h; rw [Expr.down, stay_expr k a h]
  | .cond c t f, h => by
    rw [Expr.Keys] at h; rw [Expr.down, stay_expr k c h.1, stay_expr k t h.2.1, stay_expr k f h.2.2]
  | .method a _ es, h => by rw [Expr.Keys] at h; rw [Expr.down, stay_expr k a h.1, stay_optExprs k es h.2]
  | .lambda v e, h => by rw [Expr.Keys] at h; rw [Expr.down, stay_expr k v h.1, stay_expr k e h.2]
  | .lambdaN v1 v2 v3 vs e, h => by
    rw [Expr.Keys] at h
    rw [Expr.down, stay_expr k v1 h.1, stay_expr k v2 h.2.1, stay_expr k v3 h.2.2.1, stay_exprs k vs h.2.2.2.1,
      stay_expr k e h.2.2.2.2]
theorem stay_exprs (k : Nat) : (es : List Expr) → Expr.KeysL NoMarker es → Expr.downL k es = es
  | [], _ => by simp only [Expr.downL]
  | e :: es, h => by rw [Expr.KeysL] at h; rw [Expr.downL, stay_expr k e h.1, stay_exprs k es h.2]
theorem stay_optExpr (k : Nat) : (e : Option Expr) → Expr.KeysOpt NoMarker e → Expr.down1 k e = e
  | .none, _ => by simp only [Expr.down1]
  | some e, h => by rw [Expr.KeysOpt] at h; rw [Expr.down1, stay_expr k e h]
theorem stay_optExprs (k : Nat) : (es : List (Option Expr)) → Expr.KeysO NoMarker es → Expr.downO k es = es
  | [], _ => by simp only [Expr.downO]
  | e :: es, h => by rw [Expr.KeysO] at h; rw [Expr.downO, stay_optExpr k e h.1, stay_optExprs k es h.2]
theorem stay_item (k : Nat) : (i : Item) → i.Keys NoMarker → i.down k = i
  | .pair x e, h => by rw [Item.Keys] at h; rw [Item.down, stay_expr k e h.2]
  | .pairLoop x l, h => by rw [Item.Keys] at h; rw [Item.down, stay_loop k l h.2]
  | .child _ _ _ _ c, h => by rw [Item.Keys] at h; exact absurd rfl h.1
theorem stay_items (k : Nat) : (is : List Item) → Item.KeysL NoMarker is → Item.downL k is = is
  | [], _ => by simp only [Item.downL]
  | i :: is, h => by rw [Item.KeysL] at h; rw [Item.downL, stay_item k i h.1, stay_items k is h.2]
theorem stay_loop (k : Nat) : (l : Loop) → l.Keys NoMarker → l.down k = l
  | .mk h c b, hk => by
    rw [Loop.Keys] at hk
    rw [Loop.down, stay_head k h hk.1, stay_optExpr k c hk.2.1, stay_expr k b hk.2.2]
theorem stay_head (k : Nat) : (h : LoopHead) → h.Keys NoMarker → h.down k = h
  | .arr _ e, h => by rw [LoopHead.Keys] at h; rw [LoopHead.down, stay_expr k e h]
  | .arrIdx _ _ e, h => by rw [LoopHead.Keys] at h; rw [LoopHead.down, stay_expr k e h]
  | .obj _ e, h => by rw [LoopHead.Keys] at h; rw [LoopHead.down, stay_expr k e h]
theorem stay_config (k : Nat) : (c : Config) → c.Keys NoMarker → c.down k = c
  | .obj is, h => by rw [Config.Keys] at h; rw [Config.down, stay_items k is h]
  | .loop l, h => by rw [Config.Keys] at h; rw [Config.down, stay_loop k l h]
  | .cond c e, h => by rw [Config.Keys] at h; rw [Config.down, stay_expr k c h.1, stay_expr k e h.2]
end

theorem stay_decos (k : Nat) (ds : List Deco) (h : ∀ d ∈ ds, d.Keys NoMarker) : Deco.downL k ds = ds := by
  unfold Deco.downL
  refine (List.map_congr_left (g := id) fun d hd => ?_).trans (List.map_id ds)
  rw [stay_optExpr k d.arg (h d hd)]
  rfl

theorem stay_value (k : Nat) (e : LoopOrExpr) (h : e.Keys NoMarker) : e.down k = e := by
  cases e with
  | expr e => rw [LoopOrExpr.down, stay_expr k e h]
  | loop l => rw [LoopOrExpr.down, stay_loop k l h]

/-! ### entries -/

/-- the attributes of an entry moved -/
def Entry.later (k : Nat) (e : Entry) : Entry := ⟨e.sec, e.name, e.attrs.map (movedItem k)⟩

theorem later_lines {ln : Bool} {k : Nat} {l : Lines} (h : 1 ≤ l.1) (h' : 1 ≤ l.2) :
    (lineItems ln l).map (movedItem k) = lineItems ln (l.1 + k, l.2 + k) := by
  obtain ⟨a, b⟩ := l
  simp only at h h'
  cases ln
  · simp [lineItems]
  · simp [lineItems, movedItem, laterLine]
    omega

theorem later_other {k : Nat} {x : String} {v : Val} (h : x ≠ "__start_line__") (h' : x ≠ "__end_line__") :
    movedItem k (x, v) = (x, v) := by
  simp [movedItem, h, h']

theorem later_alias (k : Nat) (a : Option Ident) : (aliasItem a).map (movedItem k) = aliasItem a := by
  cases a <;> simp [aliasItem, later_other]

theorem later_type (k : Nat) (a : Option DataType) : (typeItem a).map (movedItem k) = typeItem a := by
  cases a <;> simp [typeItem, later_other]

theorem later_config {ln : Bool} {c : Option (List Item)} {a : List (String × Val)} (k : Nat)
    (h : configItem ln c = .ok a) : a.map (movedItem k) = a := by
  cases c with
  | none => cases h; rfl
  | some is =>
    obtain ⟨ps, _, h⟩ := bind_ok' h
    cases h
    split <;> simp [later_other]

/-- a contribution without nested resources, moved -/
def Out.later (k : Nat) (o : Out) : Out :=
  ⟨o.own.map (Entry.later k), o.imports.map (Entry.later k), o.children.map (Entry.later k)⟩

/-! ### bodies of resources -/

/-- the nested resource, `k` lines further down -/
def Nested.later (k : Nat) (r : Nested) : Nested :=
  ⟨(r.lines.1 + k, r.lines.2 + k), r.name, r.type, r.existing, r.config.down k⟩

theorem key_down (k : Nat) (i : Item) : (i.down k).key = i.key := by
  cases i <;> rfl

theorem mem_downL {k : Nat} {i : Item} : ∀ {is : List Item}, i ∈ Item.downL k is → ∃ j ∈ is, i = j.down k
  | [], h => by simp [Item.downL] at h
  | j :: is, h => by
    rw [Item.downL] at h
    rcases List.mem_cons.1 h with rfl | h
    · exact ⟨j, List.mem_cons_self .., rfl⟩
    · obtain ⟨m, hm, e⟩ := mem_downL h
      exact ⟨m, List.mem_cons_of_mem _ hm, e⟩

theorem noChild_down {k : Nat} {c : Config} (h : NoChild c) : NoChild (c.down k) := by
  cases c with
  | obj is =>
    intro i hi
    obtain ⟨j, hj, rfl⟩ := mem_downL hi
    rw [key_down]
    exact h j hj
  | loop l => trivial
  | cond c e => trivial

theorem childOf_down {k : Nat} {c : Config} {r : Nested} (h : ChildOf c r) : ChildOf (c.down k) (r.later k) := by
  obtain ⟨is, rfl, a, b, rfl, hk, hb⟩ := h
  refine ⟨_, rfl, Item.downL k a, Item.downL k b, ?_, rfl, fun j hj => ?_⟩
  · rw [itemsDown_append, Item.downL]
    rfl
  · obtain ⟨i, hi, rfl⟩ := mem_downL hj
    rw [key_down]
    exact hb i hi

mutual
theorem down_config (ln : Bool) (k : Nat) : (c : Config) → c.Tidy → Agree SameBody (c.val ln) ((c.down k).val ln)
  | .obj is, h => by
    rw [Config.Tidy] at h
    rw [Config.down, Config.val, Config.val]
    refine (down_items ln k is h).bind fun ps qs hpq => .ok ⟨_, _, rfl, rfl, lastWins_sameBody hpq⟩
  | .loop l, h => by
    rw [Config.Tidy] at h
    rw [stay_config k (.loop l) (by rw [Config.Keys]; exact h)]
    cases hv : (Config.loop l).val ln with
    | error => exact .err
    | ok v => obtain ⟨d, rfl⟩ := config_isDict hv; exact .ok ⟨d, d, rfl, rfl, rfl⟩
  | .cond c e, h => by
    rw [Config.Tidy] at h
    rw [stay_config k (.cond c e) (by rw [Config.Keys]; exact h)]
    cases hv : (Config.cond c e).val ln with
    | error => exact .err
    | ok v => obtain ⟨d, rfl⟩ := config_isDict hv; exact .ok ⟨d, d, rfl, rfl, rfl⟩
theorem down_items (ln : Bool) (k : Nat) : (is : List Item) → Item.TidyL is →
    Agree (List.Forall₂ (fun p q => p.1 = q.1 ∧ (p.1 ≠ marker → p.2 = q.2))) (Item.vals ln is)
      (Item.vals ln (Item.downL k is))
  | [], _ => by rw [Item.downL, Item.vals]; exact .ok .nil
  | i :: is, h => by
    rw [Item.TidyL] at h
    rw [Item.downL, Item.vals, Item.vals]
    exact (down_item ln k i h.1).bind fun p q hpq => (down_items ln k is h.2).bind fun ps qs hs => .ok (.cons hpq hs)
theorem down_item (ln : Bool) (k : Nat) : (i : Item) → i.Tidy →
    Agree (fun p q => p.1 = q.1 ∧ (p.1 ≠ marker → p.2 = q.2)) (i.val ln) ((i.down k).val ln)
  | .pair x e, h => by
    rw [Item.Tidy] at h
    rw [stay_item k (.pair x e) (by rw [Item.Keys]; exact h)]
    exact (Agree.refl _).mono (by rintro a b rfl; exact ⟨rfl, fun _ => rfl⟩)
  | .pairLoop x e, h => by
    rw [Item.Tidy] at h
    rw [stay_item k (.pairLoop x e) (by rw [Item.Keys]; exact h)]
    exact (Agree.refl _).mono (by rintro a b rfl; exact ⟨rfl, fun _ => rfl⟩)
  | .child _ _ _ _ c, h => by
    rw [Item.Tidy] at h
    rw [Item.down, Item.val, Item.val]
    exact (down_config ln k c h).bind fun p q hpq => .ok ⟨rfl, fun h => absurd rfl h⟩
end

theorem chain_down {k : Nat} {c : Config} {rs : List Nested} (h : Chain c rs) :
    Chain (c.down k) (rs.map (Nested.later k)) := by
  induction h with
  | nil h => exact .nil (noChild_down h)
  | cons h _ ih => exact .cons (childOf_down h) ih

/-- the lines nested resources have in a text -/
def LinesFit (rs : List Nested) : Prop := ∀ r ∈ rs, 1 ≤ r.lines.1 ∧ 2 ≤ r.lines.2

theorem down_processChild {ln : Bool} {k : Nat} {api : String} {c : Config} {rs : List Nested} (hc : Chain c rs)
    (ht : c.Tidy) (hf : LinesFit rs)
    {n n' : Nat} {N T : String} {cfg cfg' d d' : List (String × Val)} (hn : rs.length < n) (hn' : rs.length < n')
    (hd : c.val ln = .ok (.dict d)) (hd' : (c.down k).val ln = .ok (.dict d'))
    (hg : dGet marker cfg = dGet marker d) (hg' : dGet marker cfg' = dGet marker d')
    (he : dErase marker cfg = dErase marker cfg') :
    Agree (fun a b => a.1 = b.1 ∧ b.2.map childEntry = (a.2.map childEntry).map (Entry.later k))
      (processChild n (.str N) (.str T) (.str api) cfg) (processChild n' (.str N) (.str T) (.str api) cfg') := by
  induction hc generalizing n n' N T cfg cfg' d d' with
  | nil hno =>
    obtain ⟨n, rfl⟩ := Nat.exists_eq_succ_of_ne_zero (Nat.ne_zero_of_lt hn)
    obtain ⟨n', rfl⟩ := Nat.exists_eq_succ_of_ne_zero (Nat.ne_zero_of_lt hn')
    rw [show marker = "__child_resource__" from rfl, noChild_get hno hd] at hg
    rw [show marker = "__child_resource__" from rfl, noChild_get (noChild_down hno) hd'] at hg'
    rw [processChild, processChild, hg, hg']
    refine .ok ⟨?_, rfl⟩
    rwa [dErase_absent hg, dErase_absent hg'] at he
  | @cons c r rs hch _ ih =>
    obtain ⟨n, rfl⟩ := Nat.exists_eq_succ_of_ne_zero (Nat.ne_zero_of_lt hn)
    obtain ⟨n', rfl⟩ := Nat.exists_eq_succ_of_ne_zero (Nat.ne_zero_of_lt hn')
    obtain ⟨v1, h1, g1⟩ := childOf_get hch hd
    obtain ⟨d1, rfl⟩ := config_isDict h1
    obtain ⟨v2, h2, g2⟩ := childOf_get (childOf_down hch) hd'
    obtain ⟨d2, rfl⟩ := config_isDict h2
    have htr := tidy_child ht hch
    have hsame : dErase marker d1 = dErase marker d2 := by
      have := down_config ln k _ htr
      rw [h1, show (r.config.down k).val ln = .ok (.dict d2) from h2] at this
      cases this with
      | ok h => obtain ⟨_, _, e1, e2, h⟩ := h; cases e1; cases e2; exact h
    rw [show marker = "__child_resource__" from rfl, g1] at hg
    rw [show marker = "__child_resource__" from rfl, g2] at hg'
    have hdep : dGet "depends_on" d1 = dGet "depends_on" d2 := by
      rw [← dGet_dErase (k := marker) (by decide), hsame, dGet_dErase (by decide)]
    rw [processChild, processChild, hg, hg']
    simp only
    have a1 := adopt_eq N T api ln r d1
    have a2 := adopt_eq N T api ln (r.later k) d2
    unfold childVal at a1 a2
    have hlines := hf r (List.mem_cons_self ..)
    have hl : lineItems ln ((r.later k).lines.1, (r.later k).lines.2 - 1) =
        lineItems ln (r.lines.1 + k, (r.lines.2 - 1) + k) := by
      unfold Nested.later
      simp only
      rw [show r.lines.2 + k - 1 = r.lines.2 - 1 + k by omega]
    rw [a1, a2, hdep]
    split
    · rename_i deps _
      simp only [bind, Except.bind]
      simp only [Val.item, dGet, List.cons_append, if_true, List.nil_append, String.reduceEq, if_false]
      have := ih htr (fun r' hr' => hf r' (List.mem_cons_of_mem _ hr'))
        (N := N ++ "__" ++ txt r.name.1) (T := T ++ "/" ++ txt r.type) (n := n) (n' := n')
        (cfg := dSet "depends_on" (.list (deps ++ [.elem N])) d1)
        (cfg' := dSet "depends_on" (.list (deps ++ [.elem N])) d2)
        (by simpa using hn) (by simpa using hn') h1 h2
        (dGet_dSet_ne (by decide) _ _) (dGet_dSet_ne (by decide) _ _)
        (by rw [dErase_dSet (by decide), dErase_dSet (by decide), hsame])
      simp only [show (r.later k).name = r.name from rfl, show (r.later k).type = r.type from rfl,
        show (r.later k).existing = r.existing from rfl, hl]
      generalize processChild n (.str (N ++ "__" ++ txt r.name.1)) (.str (T ++ "/" ++ txt r.type)) (.str api)
        (dSet "depends_on" (.list (deps ++ [.elem N])) d1) = x at this ⊢
      generalize processChild n' (.str (N ++ "__" ++ txt r.name.1)) (.str (T ++ "/" ++ txt r.type)) (.str api)
        (dSet "depends_on" (.list (deps ++ [.elem N])) d2) = y at this ⊢
      cases this with
      | err => exact .err
      | @ok a b h =>
        obtain ⟨c1, m1⟩ := a
        obtain ⟨c2, m2⟩ := b
        obtain ⟨rfl, h⟩ := h
        simp only [Val.setItem, dSet, String.reduceEq, if_false, if_true]
        refine .ok ⟨he, ?_⟩
        simp only at h
        simp only [List.map_cons, h]
        congr 1
        simp only [childEntry, D, dGet, String.reduceEq, if_true, if_false, Entry.later, List.map_cons]
        rw [later_lines (l := (r.lines.1, r.lines.2 - 1)) hlines.1 (by simp only; omega)]
        simp [later_other]
    · exact .err

theorem map_bind_ok {ε α β γ : Type} {x : Except ε α} {f : α → Except ε β} {g : β → γ} {f' : α → Except ε γ}
    (h : ∀ a, x = .ok a → f' a = (f a).map g) : (x >>= f') = (x >>= f).map g := by
  cases x with
  | error e => rfl
  | ok a => exact h a rfl

/-- the same for the nested resources of a declaration -/
def FitDecl : Decl → Prop
  | .resource _ _ _ _ c => ∀ rs, Chain c rs → LinesFit rs
  | _ => True

theorem later_out {ln : Bool} {k : Nat} {l : Lines} (h1 : 1 ≤ l.1) (h2 : 1 ≤ l.2) {d : Decl}
    (h : d.Keys NoMarker Config.Tidy) (hch : FitDecl d) :
    (d.down k).out ln (l.1 + k, l.2 + k) = (d.out ln l).map (Out.later k) := by
  have hl := later_lines (ln := ln) (k := k) h1 h2
  cases d with
  | scope b =>
    rw [Decl.down, Decl.out, Decl.out]
    split
    · simp [Except.map, Out.later, Entry.later, hl, later_other]
    · rfl
  | importNs b => rfl
  | importFrom i is b =>
    rw [Decl.down, Decl.out, Decl.out]
    simp [Except.map, Out.later, Entry.later, hl, later_other, ImportItem.entry, later_alias]
  | extension x is al =>
    have : is.map (Item.downL k) = is := by
      cases is with
      | none => rfl
      | some is => rw [Option.map_some, stay_items k is (h.2 _ rfl)]
    rw [Decl.down, this, Decl.out, Decl.out]
    refine map_bind_ok fun a ha => ?_
    simp [Except.map, Out.later, Entry.later, hl, later_alias, later_config k ha]
  | metadata x b =>
    rw [Decl.down, Decl.out, Decl.out]
    simp [Except.map, Out.later, Entry.later, hl, later_other]
  | param ds x t e =>
    rw [Decl.down, stay_decos k ds h.2.1, stay_optExpr k e h.2.2, Decl.out, Decl.out]
    refine map_bind_ok fun a _ => map_bind_ok fun b _ => ?_
    simp [Except.map, Out.later, Entry.later, hl, later_other]
  | var ds x t e =>
    rw [Decl.down, stay_decos k ds h.2.1, stay_value k e h.2.2, Decl.out, Decl.out]
    refine map_bind_ok fun a _ => map_bind_ok fun b _ => ?_
    simp [Except.map, Out.later, Entry.later, hl, later_other, later_type]
  | output ds x t e =>
    rw [Decl.down, stay_decos k ds h.2.1, stay_value k e h.2.2, Decl.out, Decl.out]
    refine map_bind_ok fun a _ => map_bind_ok fun b _ => ?_
    simp [Except.map, Out.later, Entry.later, hl, later_other]
  | resource ds x b ex c =>
    rw [Decl.down, stay_decos k ds h.2.1, Decl.out, Decl.out]
    refine map_bind_ok fun a _ => map_bind_ok fun ta _ => ?_
    have hc := down_config ln k c h.2.2
    obtain ⟨rs, hrs⟩ := tidy_chain _ c (Nat.lt_succ_self _) h.2.2
    cases hv : c.val ln with
    | error e =>
      rw [hv] at hc
      generalize (c.down k).val ln = v' at hc
      cases hc
      rfl
    | ok v =>
      cases hv' : (c.down k).val ln with
      | error e => rw [hv, hv'] at hc; cases hc
      | ok v' =>
        rw [hv, hv'] at hc
        cases hc with
        | ok h1 =>
          obtain ⟨d, d', rfl, rfl, he⟩ := h1
          have := down_processChild (api := ta.2) (N := txt x.1) (T := ta.1) hrs h.2.2 (hch rs hrs)
            (chain_depth hrs hv) (by simpa using chain_depth (chain_down (k := k) hrs) hv') hv hv' rfl rfl he
          simp only [bind, Except.bind]
          unfold resourceVal
          simp only
          generalize processChild ((Val.dict d).depth + 1) (.str (txt x.1)) (.str ta.1) (.str ta.2) d = x1 at this ⊢
          generalize processChild ((Val.dict d').depth + 1) (.str (txt x.1)) (.str ta.1) (.str ta.2) d' = y1 at this ⊢
          cases this with
          | err => rfl
          | @ok a1 b1 h3 =>
            obtain ⟨c1, m1⟩ := a1
            obtain ⟨c2, m2⟩ := b1
            obtain ⟨h3, h4⟩ := h3
            simp only at h3 h4
            subst h3
            simp [Except.map, Out.later, Entry.later, hl, later_other, inRule, h4]
  | module ds x b c =>
    rw [Decl.down, stay_decos k ds h.2.1, stay_config k c h.2.2, Decl.out, Decl.out]
    refine map_bind_ok fun a _ => map_bind_ok fun b _ => map_bind_ok fun c _ => map_bind_ok fun d _ =>
      map_bind_ok fun e _ => ?_
    simp [Except.map, Out.later, Entry.later, hl, later_other]
  | typ ds x e es =>
    rw [Decl.down, stay_decos k ds h.2.1, stay_expr k e h.2.2.1, stay_exprs k es h.2.2.2, Decl.out, Decl.out]
    refine map_bind_ok fun a _ => map_bind_ok fun b _ => ?_
    simp [Except.map, Out.later, Entry.later, hl, later_other]
  | func ds x ps t e =>
    rw [Decl.down, stay_decos k ds h.2.1, stay_expr k e h.2.2.2, Decl.out, Decl.out]
    refine map_bind_ok fun a _ => map_bind_ok fun b _ => ?_
    simp [Except.map, Out.later, Entry.later, hl, later_other]

theorem later_outs {ln : Bool} {k : Nat} : ∀ {p : Program}, p.Tidy →
    (∀ q ∈ p, 1 ≤ q.1.1 ∧ q.1.1 ≤ q.1.2 ∧ FitDecl q.2) →
    Program.outs ln (p.down k) = (p.outs ln).map (List.map (Out.later k))
  | [], _, _ => rfl
  | (l, d) :: p, hf, hl => by
    have h1 := hl (l, d) (List.mem_cons_self ..)
    have h2 := hf (l, d) (List.mem_cons_self ..)
    have ih := later_outs (ln := ln) (k := k) (p := p) (fun q hq => hf q (List.mem_cons_of_mem _ hq))
      (fun q hq => hl q (List.mem_cons_of_mem _ hq))
    have hd : Program.down k ((l, d) :: p) = ((l.1 + k, l.2 + k), d.down k) :: Program.down k p := rfl
    rw [hd, Program.outs, Program.outs, later_out h1.1 (Nat.le_trans h1.1 h1.2.1) h2 h1.2.2, ih]
    cases d.out ln l with
    | error e => rfl
    | ok o =>
      cases Program.outs ln p with
      | error e => rfl
      | ok os => rfl

theorem lookup_later (k : Nat) (n : String) : ∀ l : List (String × Val),
    ((l.map fun e => (e.1, movedEntry k e.2)).lookup n).getD .none = movedEntry k ((l.lookup n).getD .none)
  | [] => rfl
  | (m, v) :: l => by
    simp only [List.map_cons, List.lookup_cons]
    cases n == m with
    | true => rfl
    | false => exact lookup_later k n l

theorem lastWins_later (k : Nat) (l : List (String × Val)) :
    lastWins (l.map fun e => (e.1, movedEntry k e.2)) = (lastWins l).map fun e => (e.1, movedEntry k e.2) := by
  unfold lastWins
  simp only [List.map_map, ← List.map_reverse, lookup_later]
  rfl

theorem collect_later (k : Nat) (es : List Entry) :
    (.dict (collect (es.map (Entry.later k))) : Val) = movedResult k (.dict (collect es)) := by
  unfold collect movedResult
  simp only [List.map_map]
  congr 1
  rw [show (Entry.sec ∘ Entry.later k) = Entry.sec from rfl]
  refine List.map_congr_left fun s _ => ?_
  simp only [Function.comp, movedSection]
  rw [← lastWins_later, List.filter_map, List.map_map, List.map_map]
  rfl

theorem later_val {ln : Bool} {k : Nat} {p : Program} (hf : p.Tidy)
    (hl : ∀ q ∈ p, 1 ≤ q.1.1 ∧ q.1.1 ≤ q.1.2 ∧ FitDecl q.2) :
    Program.val ln (p.down k) = (p.val ln).map (movedResult k) := by
  unfold Program.val
  rw [later_outs hf hl]
  cases p.outs ln with
  | error e => rfl
  | ok os =>
    simp only [Except.map, bind, Except.bind]
    rw [← collect_later]
    have hd : Entry.later k (defaultScope ln) = defaultScope ln := by
      cases ln <;> simp [Entry.later, defaultScope, lineItems, movedItem, laterLine]
    simp only [entries, List.map_cons, hd, List.map_append, List.map_flatMap, List.flatMap_map, Out.later]

/-! ### The property -/

theorem tiling_line {l t w} (h : Tiling l t w) : ∀ u ∈ w, l ≤ u.line ∧ u.endLine = u.line + countNL u.text ∧
    TokText u.type u.text := by
  induction h with
  | nil => intro u hu; cases hu
  | skip _ _ ih => intro u hu; have := ih u hu; exact ⟨by omega, this.2⟩
  | tok hx _ _ ih =>
    intro u hu
    rcases List.mem_cons.1 hu with rfl | hu
    · exact ⟨Nat.le_refl _, rfl, hx⟩
    · have := ih u hu; exact ⟨by omega, this.2⟩

theorem newlines_count {x} (h : IsNewlines x) : 1 ≤ countNL x := by
  induction h <;> simp [countNL] at *

theorem break_count {x} (h : TokText T._CPP_COMMENT_NL x) : 1 ≤ countNL x := by
  rcases (h : IsCommentNewlines x) with h | ⟨a, b, e, _, h⟩
  · exact newlines_count h
  · have := newlines_count h
    rw [e]
    simp only [countNL, List.count_cons, List.count_append] at *
    omega

theorem writes_lines {t : String} {p : Program} (hw : Writes t p) (hc : p.clear = true) :
    ∀ q ∈ p, 1 ≤ q.1.1 ∧ q.1.1 ≤ q.1.2 ∧ FitDecl q.2 := by
  obtain ⟨tr, h1, h2⟩ := hw.tree hc
  obtain ⟨p', w, ht, hs, h3, _⟩ := larkParse_exact h1
  have : p = p' := Program.tree_inj (h2.symm.trans h3)
  subst this
  have hl := (prog_ordered hs (t := t.toList) (w' := []) (by simpa using ht.tiling)).2
  refine fun q hq => ⟨(hl q hq).1, (hl q hq).2.1, ?_⟩
  obtain ⟨l, d⟩ := q
  cases d with
  | resource ds x b ex c =>
    intro rs hrs r hr
    obtain ⟨w1, w2, w3, m, rfl, h5, _⟩ := prog_slices hs hq
    cases h5 with
    | @resource _ _ _ _ _ w0 u v t w1 q w2 n _ _ _ _ _ _ hcs =>
      obtain ⟨x1, x2, kk, x3, rfl, h6⟩ := chain_slices hrs hcs hr
      have hm : ∀ u ∈ x2, 1 ≤ u.line ∧ u.endLine = u.line + countNL u.text ∧ TokText u.type u.text :=
        fun u hu => tiling_line ht.tiling u (by simp [hu])
      generalize hit : r.item = it at h6
      cases h6 with
      | @mk l' x' b' ex' c' u v q y1 e y2 y3 n' k1 k2 k3 k4 k5 k6 k7 k8 k9 k10 =>
        rw [Nested.item] at hit
        simp only [Item.child.injEq] at hit
        obtain ⟨rfl, rfl, rfl, rfl, rfl⟩ := hit
        obtain ⟨f, g, hf, hg, hlines⟩ := k10
        rw [hlines]
        have hg' : y3.getLast? = some g := by
          rw [show u :: v :: q :: (y1 ++ (e :: (y2 ++ y3))) = (u :: v :: q :: (y1 ++ (e :: y2))) ++ y3 by simp,
            List.getLast?_append_of_ne_nil _ k8] at hg
          exact hg
        have hgm : g ∈ y3 := List.mem_of_getLast? hg'
        have m1 := hm f (List.mem_of_head? hf)
        have m2 := hm g (by simp [hgm])
        have := break_count (by rw [← k7 g hgm]; exact m2.2.2)
        simp only
        omega
  | _ => trivial

theorem moved_by (P : Parser) {text text' path path'} {s t : String} {p : Program} (hs : Writes s [])
    (he : EndsLine s.toList) (hw : Writes t p) (hc : p.clear = true) (hf : p.Tidy) (hb : NoBreak t.toList)
    (h : chosenText text path = .ok t) (h' : chosenText text' path' = .ok (s ++ t)) (hvs : isValid s = true)
    (hv : isValid t = true) :
    P.parse text' path' = (P.parse text path).map (movedResult (countNL s.toList)) := by
  rw [parse_writes _ h hv hw hc,
    parse_writes _ h' (by rw [isValid_append he hvs, hv]) (hs.append hw he hb)
      (by rw [List.nil_append, Program.down_clear, hc]),
    List.nil_append, later_val hf (writes_lines hw hc)]
  cases p.val P.addLineNumbers with
  | error e => cases e <;> rfl
  | ok v => rfl

/-- **C92.** Comments and empty lines in front of a clearly written document (say, a licence) change nothing but the lines: the document has the result it had, with all line numbers of entries
larger by the number of lines in front (the scope keeps line 0 if it is not declared), or the error it had. -/
theorem C92_header (P : Parser) {text text' path path'} {s t : String} {p : Program} (hs : Idle s.toList)
    (he : EndsLine s.toList) (hw : Writes t p) (hc : p.clear = true) (hf : p.Tidy) (hb : NoBreak t.toList)
    (h : chosenText text path = .ok t) (h' : chosenText text' path' = .ok (s ++ t)) {m n : Nat}
    (hm : Occ s.toList m) (hm' : m % 2 = 0) (hn : Occ t.toList n) (hn' : n % 2 = 0) :
    P.parse text' path' = (P.parse text path).map (movedResult (s.toList.count '\n')) := by
  obtain ⟨v, h1, h2⟩ := hs.layout 1
  have hs : Writes s [] := ⟨v, h1 tEND, by simpa using ProgSyn.breaks .nil h2⟩
  have := moved_by P hs he hw hc hf hb h h' (by rw [isValid_iff hm, hm']; rfl) (by rw [isValid_iff hn, hn']; rfl)
  exact this

/-- **C92, empty lines.** The same with `k` empty lines in front. -/
theorem C92_moved (P : Parser) {text text' path path'} {t : String} {p : Program} {k : Nat} (hw : Writes t p)
    (hc : p.clear = true) (hf : p.Tidy) (hb : NoBreak t.toList) (h : chosenText text path = .ok t)
    (h' : chosenText text' path' = .ok (emptyLines k ++ t)) {n : Nat} (hn : Occ t.toList n) (hn' : n % 2 = 0) :
    P.parse text' path' = (P.parse text path).map (movedResult k) := by
  have hv : isValid t = true := by rw [isValid_iff hn, hn']; rfl
  have := moved_by P (emptyLines_writes k) (emptyLines_ends k) hw hc hf hb h h'
    (by have := isValid_below "" k; rw [String.append_empty] at this; rw [this]; rfl) hv
  rwa [show countNL (emptyLines k).toList = k by simpa [emptyLines] using countNL_replicate k] at this

/-! ### Examples -/

/-- a text the theorems apply to -/
theorem exMoved_writes : ∃ p : Program, Writes "var x=1\n" p ∧ p.clear = true ∧ p.Tidy := by
  have hx : IsIdentText ['x'] := ⟨'x', [], rfl, by decide, by decide⟩
  have hi : (['1'] : List Char) ≠ [] ∧ ∀ c ∈ ['1'], isAsciiDigit c = true := by decide
  refine ⟨[((1, 1), .var [] ⟨['x'], hx⟩ .none (.expr (.int ⟨['1'], hi⟩)))],
    ⟨[⟨T.VAR, ['v', 'a', 'r'], 1, 1⟩, ⟨T.STRING, ['x'], 1, 1⟩, ⟨T.EQUAL, ['='], 1, 1⟩, ⟨T.INT, ['1'], 1, 1⟩,
      ⟨T._CPP_COMMENT_NL, ['\n'], 1, 2⟩], ?_, ?_⟩, rfl, ?_⟩
  · refine .tok (t := T.VAR) (x := ['v', 'a', 'r']) ?_ (.gap (x := [' ']) .blank (.tok (t := T.STRING) (x := ['x']) ?_
      (.tok (t := T.EQUAL) (x := ['=']) ?_ (.tok (t := T.INT) (x := ['1']) ?_
      (.tok (t := T._CPP_COMMENT_NL) (x := ['\n']) (s := []) ?_ .nil)))))
    · exact Fits.keyword (k := T.VAR) (by decide) (by intro c cs h; cases h; decide) (by decide)
    · refine .ident hx (by intro c cs h; cases h; decide) (by decide) (by decide) ?_ (fun h => absurd h (by decide))
      have : ∀ k ∈ keywordIds, ['x'] ≠ fixedChars k := by decide +kernel
      exact fun k hk he => absurd he (this k hk)
    · exact Fits.op1 (t := T.EQUAL) (by decide) (by decide +kernel)
    · exact .int (by decide) (by decide) (by intro c cs h; cases h; decide) (by decide)
    · exact .lineEnd (.inl .lf) ⟨by decide, by decide⟩
  · have hv : Kw "var" ⟨T.VAR, ['v', 'a', 'r'], 1, 1⟩ := ⟨by decide +kernel, rfl⟩
    have he : Kw "=" ⟨T.EQUAL, ['='], 1, 1⟩ := ⟨by decide +kernel, rfl⟩
    have hi' : NoInfix T._CPP_COMMENT_NL := (starts_noInfix _ (by decide)).1
    have hb : NoBang T._CPP_COMMENT_NL := (starts_noInfix _ (by decide)).2
    have h1 : ESyn false (.int ⟨['1'], hi⟩) ([] ++ [⟨T.INT, ['1'], 1, 1⟩]) T._CPP_COMMENT_NL :=
      .int (.inl rfl) ⟨rfl, rfl⟩
    have h2 : DeclSyn (.var [] ⟨['x'], hx⟩ .none (.expr (.int ⟨['1'], hi⟩)))
        ([] ++ (⟨T.VAR, ['v', 'a', 'r'], 1, 1⟩ :: ⟨T.STRING, ['x'], 1, 1⟩ :: ([] ++ (⟨T.EQUAL, ['='], 1, 1⟩ ::
          ([] ++ [⟨T.INT, ['1'], 1, 1⟩]))))) T._CPP_COMMENT_NL :=
      .var .nil hv ⟨rfl, rfl⟩ .no he (.expr (.plain h1 hb) hi')
    have h3 := ProgSyn.decl (p := []) (w1 := []) .nil h2 (l := (1, 1)) ⟨_, _, rfl, rfl, rfl⟩
    exact ProgSyn.nl (u := ⟨T._CPP_COMMENT_NL, ['\n'], 1, 2⟩) h3 rfl
  · intro q hq
    rw [List.mem_singleton] at hq
    subst hq
    refine ⟨?_, by simp, ?_⟩
    · show txt ['x'] ≠ "__child_resource__"
      decide +kernel
    · simp only [LoopOrExpr.Keys, Expr.Keys]

/-- With two lines in front of it, the variable is reported two lines further down; the scope, which is not
declared, keeps line 0. -/
example : (Parser.mk true).parse (some "// licence\n\nvar x=1\n") .none =
      ((Parser.mk true).parse (some "var x=1\n") .none).map (movedResult 2) ∧
    (Parser.mk true).parse (some "var x=1\n") .none =
      .ok (.dict [("globals", .dict [("scope", .dict [("value", .str "resourceGroup"), ("__start_line__", .int 0),
          ("__end_line__", .int 0)])]),
        ("variables", .dict [("x", .dict [("decorators", .list []), ("value", .int 1), ("__start_line__", .int 1),
          ("__end_line__", .int 1)])])]) ∧
    (Parser.mk true).parse (some "// licence\n\nvar x=1\n") .none =
      .ok (.dict [("globals", .dict [("scope", .dict [("value", .str "resourceGroup"), ("__start_line__", .int 0),
          ("__end_line__", .int 0)])]),
        ("variables", .dict [("x", .dict [("decorators", .list []), ("value", .int 1), ("__start_line__", .int 3),
          ("__end_line__", .int 3)])])]) := by
  refine ⟨?_, eq_of_outIs (by decide +kernel), eq_of_outIs (by decide +kernel)⟩
  obtain ⟨p, h, c, ht⟩ := exMoved_writes
  have hid : Idle "// licence\n\n".toList := by
    have := Idle.line (x := "// licence\n\n".toList) (s := [])
      (.inr ⟨" licence".toList, "\n\n".toList, by decide +kernel, by decide +kernel, .consLf .lf⟩)
      ⟨by decide, by decide⟩ .nil
    rwa [List.append_nil] at this
  have := C92_header (Parser.mk true) (s := "// licence\n\n") (t := "var x=1\n") hid (.inr (by decide +kernel)) h c ht
    ⟨by decide +kernel, by decide +kernel⟩ (text := some "var x=1\n") (path := .none)
    (text' := some "// licence\n\nvar x=1\n") (path' := .none) rfl rfl
    (occ_no_quote (by decide +kernel)) rfl (occ_no_quote (by decide +kernel)) rfl
  rw [this]
  rfl

/-- With a nested resource: all lines are moved by one.  Line numbers somebody writes into a body stay. -/
example : ∃ v, (Parser.mk true).parse (some "resource a 'T@1' = {\n  __start_line__: 7\n  resource b 'u' = {\n  }\n}\n") .none = .ok v ∧
    (Parser.mk true).parse (some "\nresource a 'T@1' = {\n  __start_line__: 7\n  resource b 'u' = {\n  }\n}\n") .none =
      .ok (movedResult 1 v) ∧
    v = .dict [("globals", .dict [("scope", .dict [("value", .str "resourceGroup"), ("__start_line__", .int 0),
        ("__end_line__", .int 0)])]),
      ("resources", .dict [("a", .dict [("decorators", .list []), ("type", .str "T"), ("api_version", .str "1"),
        ("existing", .bool false), ("config", .dict [("__start_line__", .int 7)]), ("__start_line__", .int 1),
        ("__end_line__", .int 5)]),
        ("a__b", .dict [("decorators", .list []), ("type", .str "T/u"), ("api_version", .str "1"),
        ("existing", .bool false), ("config", .dict [("depends_on", .list [.elem "a"])]),
        ("__start_line__", .int 3), ("__end_line__", .int 4)])])] :=
  ⟨_, eq_of_outIs (by decide +kernel), eq_of_outIs (by decide +kernel), rfl⟩

/-- For a resource nested inside a value that is printed, the lines are in the text that is reported, and change
there (this document is not tidy). -/
example : (Parser.mk true).parse (some "\ntype t = {\nresource b 'u' = {\n}\n} | 'x'\n") .none =
    .ok (.dict [("globals", .dict [("scope", .dict [("value", .str "resourceGroup"),
        ("__start_line__", .int 0), ("__end_line__", .int 0)])]),
      ("types", .dict [("t", .dict [("decorators", .list []), ("value", .str
        "{'__child_resource__': {'__name__': 'b', '__attrs__': {'decorators': [], 'type': 'u', 'api_version': '', 'existing': False, 'config': {}, '__start_line__': 3, '__end_line__': 4}}} | x"),
        ("__start_line__", .int 2), ("__end_line__", .int 5)])])]) :=
  eq_of_outIs (by decide +kernel)

end Pycep
