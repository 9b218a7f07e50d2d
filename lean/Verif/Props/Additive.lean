import Verif.Props.Text
/-
C12: line numbers are purely additive.
-/
namespace Pycep

/-! ### what "added" means -/

/-- attributes with line entries put behind them, or as they were -/
def AddedLines (a a' : List (String × Val)) : Prop :=
  a' = a ∨ ∃ s e : Nat, a' = a ++ [("__start_line__", .int s), ("__end_line__", .int e)]

/-- The result `v'` is the result `v` in which some entries got line entries: the same sections in
the same order, in each the same names in the same order, and everything else untouched. -/
def Added (v v' : Val) : Prop :=
  ∃ secs secs', v = .dict secs ∧ v' = .dict secs' ∧
    List.Forall₂ (fun s s' => s.1 = s'.1 ∧ ∃ es es', s.2 = .dict es ∧ s'.2 = .dict es' ∧
      List.Forall₂ (fun e e' => e.1 = e'.1 ∧ ∃ a a', e.2 = .dict a ∧ e'.2 = .dict a' ∧ AddedLines a a')
        es es') secs secs'

/-- two computations that fail in the same way, or whose results are related -/
inductive Agree {ε α β : Type} (R : α → β → Prop) : Except ε α → Except ε β → Prop where
  | err {e} : Agree R (.error e) (.error e)
  | ok {a b} : R a b → Agree R (.ok a) (.ok b)

theorem Agree.bind {ε α β γ δ : Type} {R : α → β → Prop} {S : γ → δ → Prop} {x : Except ε α} {y : Except ε β}
    {f : α → Except ε γ} {g : β → Except ε δ} (h : Agree R x y) (hf : ∀ a b, R a b → Agree S (f a) (g b)) :
    Agree S (x >>= f) (y >>= g) := by
  cases h with
  | err => exact .err
  | ok h => exact hf _ _ h

theorem Agree.refl {ε α : Type} (x : Except ε α) : Agree Eq x x := by
  cases x with
  | error => exact .err
  | ok => exact .ok rfl

theorem Agree.of_eq {ε α : Type} {x y : Except ε α} (h : x = y) : Agree Eq x y := h ▸ Agree.refl x

theorem Agree.mono {ε α β : Type} {R S : α → β → Prop} {x : Except ε α} {y : Except ε β} (h : Agree R x y)
    (hf : ∀ a b, R a b → S a b) : Agree S x y := by
  cases h with
  | err => exact .err
  | ok h => exact .ok (hf _ _ h)

theorem Agree.inRule {α β : Type} {R : α → β → Prop} {x : Except PyErr α} {y : Except PyErr β} {r : String}
    (h : Agree R x y) : Agree R (inRule r x) (inRule r y) := by
  cases h with
  | err => exact .err
  | ok h => exact .ok h

/-! ### expressions without nested resources are not affected -/

mutual
theorem same_expr : (e : Expr) → e.Keys NoMarker → e.val true = e.val false
  | .null, _ | .tru, _ | .fls, _ | .int _, _ | .ident _, _ | .str _, _ | .multi _, _ => by simp only [Expr.val]
  | .array es, h => by rw [Expr.Keys] at h; rw [Expr.val, Expr.val, same_exprs es h]
  | .object is, h => by rw [Expr.Keys] at h; rw [Expr.val, Expr.val, same_items is h]
  | .call _ es, h => by rw [Expr.Keys] at h; rw [Expr.val, Expr.val, same_exprs es h]
  | .bin _ a b, h => by rw [Expr.Keys] at h; rw [Expr.val, Expr.val, same_expr a h.1, same_expr b h.2]
  | .not a, h => by rw [Expr.Keys] at h; rw [Expr.val, Expr.val, same_expr a h]
  | .minus a, h => by rw [Expr.Keys] at h; rw [Expr.val, Expr.val, same_expr a h]
  | .cond c t f, h => by
    rw [Expr.Keys] at h; rw [Expr.val, Expr.val, same_expr c h.1, same_expr t h.2.1, same_expr f h.2.2]
  | .method a _ es, h => by rw [Expr.Keys] at h; rw [Expr.val, Expr.val, same_expr a h.1, same_optExprs es h.2]
  | .lambda v e, h => by rw [Expr.Keys] at h; rw [Expr.val, Expr.val, same_expr v h.1, same_expr e h.2]
  | .lambdaN v1 v2 v3 vs e, h => by
    rw [Expr.Keys] at h
    rw [Expr.val, Expr.val, same_expr v1 h.1, same_expr v2 h.2.1, same_expr v3 h.2.2.1, same_exprs vs h.2.2.2.1,
      same_expr e h.2.2.2.2]
theorem same_exprs : (es : List Expr) → Expr.KeysL NoMarker es → Expr.vals true es = Expr.vals false es
  | [], _ => by simp only [Expr.vals]
  | e :: es, h => by rw [Expr.KeysL] at h; rw [Expr.vals, Expr.vals, same_expr e h.1, same_exprs es h.2]
theorem same_optExpr : (e : Option Expr) → Expr.KeysOpt NoMarker e → Expr.optVal true e = Expr.optVal false e
  | .none, _ => by simp only [Expr.optVal]
  | some e, h => by rw [Expr.KeysOpt] at h; rw [Expr.optVal, Expr.optVal, same_expr e h]
theorem same_optExprs : (es : List (Option Expr)) → Expr.KeysO NoMarker es →
    Expr.optVals true es = Expr.optVals false es
  | [], _ => by simp only [Expr.optVals]
  | e :: es, h => by
    rw [Expr.KeysO] at h; rw [Expr.optVals, Expr.optVals, same_optExpr e h.1, same_optExprs es h.2]
theorem same_item : (i : Item) → i.Keys NoMarker → i.val true = i.val false
  | .pair k e, h => by rw [Item.Keys] at h; rw [Item.val, Item.val, same_expr e h.2]
  | .pairLoop k l, h => by rw [Item.Keys] at h; rw [Item.val, Item.val, same_loop l h.2]
  | .child _ _ _ _ c, h => by rw [Item.Keys] at h; exact absurd rfl h.1
theorem same_items : (is : List Item) → Item.KeysL NoMarker is → Item.vals true is = Item.vals false is
  | [], _ => by simp only [Item.vals]
  | i :: is, h => by rw [Item.KeysL] at h; rw [Item.vals, Item.vals, same_item i h.1, same_items is h.2]
theorem same_loop : (l : Loop) → l.Keys NoMarker → l.val true = l.val false
  | .mk h c b, hk => by
    rw [Loop.Keys] at hk
    rw [Loop.val, Loop.val, same_head h hk.1, same_optExpr c hk.2.1, same_expr b hk.2.2]
theorem same_head : (h : LoopHead) → h.Keys NoMarker → h.val true = h.val false
  | .arr _ e, h => by rw [LoopHead.Keys] at h; rw [LoopHead.val, LoopHead.val, same_expr e h]
  | .arrIdx _ _ e, h => by rw [LoopHead.Keys] at h; rw [LoopHead.val, LoopHead.val, same_expr e h]
  | .obj _ e, h => by rw [LoopHead.Keys] at h; rw [LoopHead.val, LoopHead.val, same_expr e h]
theorem same_config : (c : Config) → c.Keys NoMarker → c.val true = c.val false
  | .obj is, h => by rw [Config.Keys] at h; rw [Config.val, Config.val, same_items is h]
  | .loop l, h => by rw [Config.Keys] at h; rw [Config.val, Config.val, same_loop l h]
  | .cond c e, h => by rw [Config.Keys] at h; rw [Config.val, Config.val, same_expr c h.1, same_expr e h.2]
end

theorem same_decos (ds : List Deco) (h : ∀ d ∈ ds, d.Keys NoMarker) : decoVals true ds = decoVals false ds := by
  induction ds with
  | nil => simp only [decoVals]
  | cons d ds ih =>
    have hd : d.val true = d.val false := by
      have := h d (List.mem_cons_self ..)
      unfold Deco.Keys at this
      unfold Deco.val
      cases ha : d.arg with
      | none => rfl
      | some e =>
        rw [ha, Expr.KeysOpt] at this
        simp only [same_expr e this]
    rw [decoVals, decoVals, hd, ih (fun d hd => h d (List.mem_cons_of_mem _ hd))]

theorem same_value (e : LoopOrExpr) (h : e.Keys NoMarker) : e.val true = e.val false := by
  cases e with
  | expr e => exact same_expr e h
  | loop l => exact same_loop l h

/-! ### bodies of resources -/

/-- two bodies that differ at most in what is nested in them -/
def SameBody (v v' : Val) : Prop := ∃ d d', v = .dict d ∧ v' = .dict d' ∧ dErase marker d = dErase marker d'

theorem lookup_forall_ne {k : String} {ps qs : List (String × Val)}
    (h : List.Forall₂ (fun p q => p.1 = q.1 ∧ (p.1 ≠ marker → p.2 = q.2)) ps qs) (hk : k ≠ marker) :
    ps.lookup k = qs.lookup k := by
  induction h with
  | nil => rfl
  | @cons p q ps qs h _ ih =>
    obtain ⟨a, v⟩ := p
    obtain ⟨b, w⟩ := q
    obtain ⟨h1, h2⟩ := h
    simp only at h1 h2
    subst h1
    rw [List.lookup_cons, List.lookup_cons]
    cases hb : k == a with
    | true => rw [h2 (by rw [← beq_iff_eq.mp hb]; exact hk)]
    | false => exact ih

theorem dErase_map {k : String} {f g : String → Val} (hfg : ∀ a, a ≠ k → f a = g a) : ∀ ks : List String, ks.Nodup →
    dErase k (ks.map (fun a => (a, f a))) = dErase k (ks.map (fun a => (a, g a)))
  | [], _ => rfl
  | a :: ks, h => by
    rw [List.nodup_cons] at h
    simp only [List.map_cons, dErase]
    by_cases ha : a = k
    · rw [if_pos ha, if_pos ha]
      refine List.map_congr_left fun b hb => ?_
      rw [hfg b (by rintro rfl; exact h.1 (ha ▸ hb))]
    · rw [if_neg ha, if_neg ha, hfg a ha, dErase_map hfg ks h.2]

theorem forall₂_fst {ps qs : List (String × Val)} {R : String × Val → String × Val → Prop}
    (h : List.Forall₂ (fun p q => p.1 = q.1 ∧ R p q) ps qs) : ps.map Prod.fst = qs.map Prod.fst := by
  induction h with
  | nil => rfl
  | cons h _ ih => rw [List.map_cons, List.map_cons, h.1, ih]

theorem lastWins_sameBody {ps qs : List (String × Val)}
    (h : List.Forall₂ (fun p q => p.1 = q.1 ∧ (p.1 ≠ marker → p.2 = q.2)) ps qs) :
    dErase marker (lastWins ps) = dErase marker (lastWins qs) := by
  unfold lastWins
  rw [forall₂_fst h]
  refine dErase_map ?_ _ (nodup_eraseDups _)
  intro a ha
  rw [lookup_forall_ne (List.rel_reverse h) ha]

mutual
theorem agree_config : (c : Config) → c.Tidy → Agree SameBody (c.val false) (c.val true)
  | .obj is, h => by
    rw [Config.Tidy] at h
    rw [Config.val, Config.val]
    refine (agree_items is h).bind fun ps qs hpq => .ok ⟨_, _, rfl, rfl, lastWins_sameBody hpq⟩
  | .loop l, h => by
    rw [Config.Tidy] at h
    have := same_config (.loop l) (by rw [Config.Keys]; exact h)
    rw [this]
    cases hv : (Config.loop l).val false with
    | error => exact .err
    | ok v => obtain ⟨d, rfl⟩ := config_isDict hv; exact .ok ⟨d, d, rfl, rfl, rfl⟩
  | .cond c e, h => by
    rw [Config.Tidy] at h
    have := same_config (.cond c e) (by rw [Config.Keys]; exact h)
    rw [this]
    cases hv : (Config.cond c e).val false with
    | error => exact .err
    | ok v => obtain ⟨d, rfl⟩ := config_isDict hv; exact .ok ⟨d, d, rfl, rfl, rfl⟩
theorem agree_items : (is : List Item) → Item.TidyL is →
    Agree (List.Forall₂ (fun p q => p.1 = q.1 ∧ (p.1 ≠ marker → p.2 = q.2))) (Item.vals false is) (Item.vals true is)
  | [], _ => by rw [Item.vals, Item.vals]; exact .ok .nil
  | i :: is, h => by
    rw [Item.TidyL] at h
    rw [Item.vals, Item.vals]
    exact (agree_item i h.1).bind fun p q hpq => (agree_items is h.2).bind fun ps qs hs => .ok (.cons hpq hs)
theorem agree_item : (i : Item) → i.Tidy →
    Agree (fun p q => p.1 = q.1 ∧ (p.1 ≠ marker → p.2 = q.2)) (i.val false) (i.val true)
  | .pair k e, h => by
    rw [Item.Tidy] at h
    rw [same_item (.pair k e) (by rw [Item.Keys]; exact h)]
    exact (Agree.refl _).mono (by rintro a b rfl; exact ⟨rfl, fun _ => rfl⟩)
  | .pairLoop k e, h => by
    rw [Item.Tidy] at h
    rw [same_item (.pairLoop k e) (by rw [Item.Keys]; exact h)]
    exact (Agree.refl _).mono (by rintro a b rfl; exact ⟨rfl, fun _ => rfl⟩)
  | .child _ _ _ _ c, h => by
    rw [Item.Tidy] at h
    rw [Item.val, Item.val]
    exact (agree_config c h).bind fun p q hpq => .ok ⟨rfl, fun h => absurd rfl h⟩
end

/-! ### nested resources -/

/-- entries that differ at most in line entries behind the others -/
def AddedEntry (e e' : Entry) : Prop := e.sec = e'.sec ∧ e.name = e'.name ∧ AddedLines e.attrs e'.attrs

theorem added_lineItems (a : List (String × Val)) (l : Lines) :
    AddedLines (a ++ lineItems false l) (a ++ lineItems true l) :=
  .inr ⟨l.1, l.2, by simp [lineItems]⟩

/-- the nested resource as it is found in a body -/
def childVal (ln : Bool) (r : Nested) (d : List (String × Val)) : Val :=
  .dict [("__name__", .str (txt r.name.1)), ("__attrs__", .dict
      ([("decorators", .list []), ("type", .str (txt r.type)), ("api_version", .str ""),
        ("existing", .bool r.existing), ("config", .dict d)] ++ lineItems ln (r.lines.1, r.lines.2 - 1)))]

theorem adopt_eq (N T api : String) (ln : Bool) (r : Nested) (d : List (String × Val)) :
    adoptChild (.str N) (.str T) (.str api) (childVal ln r d) =
      match (dGet "depends_on" d).getD (.list []) with
      | .list deps => .ok (.dict [("__name__", .str (N ++ "__" ++ txt r.name.1)), ("__attrs__", .dict
            ([("decorators", .list []), ("type", .str (txt r.type)), ("api_version", .str ""),
            ("existing", .bool r.existing), ("config", .dict d)] ++
            lineItems ln (r.lines.1, r.lines.2 - 1)))],
           .dict ([("decorators", .list []), ("type", .str (T ++ "/" ++ txt r.type)), ("api_version", .str api),
            ("existing", .bool r.existing), ("config", .dict d)] ++
            lineItems ln (r.lines.1, r.lines.2 - 1)),
           .str (N ++ "__" ++ txt r.name.1),
           .dict (dSet "depends_on" (.list (deps ++ [.elem N])) d))
      | _ => .error .attributeError := by
  unfold adoptChild childVal
  simp only [Val.item, dGet, Val.setItem, dSet, bind, Except.bind, if_true,
          List.cons_append, List.nil_append, String.reduceEq, if_false, Val.pyStr]
  generalize (dGet "depends_on" d).getD (Val.list []) = x
  cases x <;> rfl

theorem agree_processChild {api : String} {c : Config} {rs : List Nested} (hc : Chain c rs) (ht : c.Tidy)
    {n n' : Nat} {N T : String} {cfg cfg' d d' : List (String × Val)} (hn : rs.length < n) (hn' : rs.length < n')
    (hd : c.val false = .ok (.dict d)) (hd' : c.val true = .ok (.dict d'))
    (hg : dGet marker cfg = dGet marker d) (hg' : dGet marker cfg' = dGet marker d')
    (he : dErase marker cfg = dErase marker cfg') :
    Agree (fun a b => a.1 = b.1 ∧ List.Forall₂ AddedEntry (a.2.map childEntry) (b.2.map childEntry))
      (processChild n (.str N) (.str T) (.str api) cfg) (processChild n' (.str N) (.str T) (.str api) cfg') := by
  induction hc generalizing n n' N T cfg cfg' d d' with
  | nil hno =>
    obtain ⟨n, rfl⟩ := Nat.exists_eq_succ_of_ne_zero (Nat.ne_zero_of_lt hn)
    obtain ⟨n', rfl⟩ := Nat.exists_eq_succ_of_ne_zero (Nat.ne_zero_of_lt hn')
    rw [show marker = "__child_resource__" from rfl, noChild_get hno hd] at hg
    rw [show marker = "__child_resource__" from rfl, noChild_get hno hd'] at hg'
    rw [processChild, processChild, hg, hg']
    refine .ok ⟨?_, .nil⟩
    rwa [dErase_absent hg, dErase_absent hg'] at he
  | @cons c r rs hch _ ih =>
    obtain ⟨n, rfl⟩ := Nat.exists_eq_succ_of_ne_zero (Nat.ne_zero_of_lt hn)
    obtain ⟨n', rfl⟩ := Nat.exists_eq_succ_of_ne_zero (Nat.ne_zero_of_lt hn')
    obtain ⟨v1, h1, g1⟩ := childOf_get hch hd
    obtain ⟨d1, rfl⟩ := config_isDict h1
    obtain ⟨v2, h2, g2⟩ := childOf_get hch hd'
    obtain ⟨d2, rfl⟩ := config_isDict h2
    have htr := tidy_child ht hch
    have hsame : dErase marker d1 = dErase marker d2 := by
      have := agree_config _ htr
      rw [h1, h2] at this
      cases this with
      | ok h => obtain ⟨_, _, e1, e2, h⟩ := h; cases e1; cases e2; exact h
    rw [show marker = "__child_resource__" from rfl, g1] at hg
    rw [show marker = "__child_resource__" from rfl, g2] at hg'
    have hdep : dGet "depends_on" d1 = dGet "depends_on" d2 := by
      rw [← dGet_dErase (k := marker) (by decide), hsame, dGet_dErase (by decide)]
    rw [processChild, processChild, hg, hg']
    simp only
    have a1 := adopt_eq N T api false r d1
    have a2 := adopt_eq N T api true r d2
    unfold childVal at a1 a2
    rw [a1, a2, hdep]
    split
    · rename_i deps _
      simp only [bind, Except.bind]
      simp only [Val.item, dGet, List.cons_append, if_true, List.nil_append, String.reduceEq, if_false]
      have := ih htr (N := N ++ "__" ++ txt r.name.1) (T := T ++ "/" ++ txt r.type) (n := n) (n' := n')
        (cfg := dSet "depends_on" (.list (deps ++ [.elem N])) d1)
        (cfg' := dSet "depends_on" (.list (deps ++ [.elem N])) d2)
        (by simpa using hn) (by simpa using hn') h1 h2
        (dGet_dSet_ne (by decide) _ _) (dGet_dSet_ne (by decide) _ _)
        (by rw [dErase_dSet (by decide), dErase_dSet (by decide), hsame])
      generalize processChild n (.str (N ++ "__" ++ txt r.name.1)) (.str (T ++ "/" ++ txt r.type)) (.str api)
        (dSet "depends_on" (.list (deps ++ [.elem N])) d1) = x at this ⊢
      generalize processChild n' (.str (N ++ "__" ++ txt r.name.1)) (.str (T ++ "/" ++ txt r.type)) (.str api)
        (dSet "depends_on" (.list (deps ++ [.elem N])) d2) = y at this ⊢
      cases this with
      | err => exact .err
      | @ok a b h =>
        obtain ⟨c1, m1⟩ := a
        obtain ⟨c2, m2⟩ := b
        obtain ⟨rfl, h⟩ := h
        simp only [Val.setItem, dSet, String.reduceEq, if_false, if_true]
        refine .ok ⟨he, ?_⟩
        simp only [List.map_cons]
        refine .cons ?_ h
        simp only [childEntry, D, dGet, String.reduceEq, if_true, if_false]
        exact ⟨rfl, rfl, added_lineItems [("decorators", .list []), ("type", .str (T ++ "/" ++ txt r.type)),
          ("api_version", .str api), ("existing", .bool r.existing), ("config", .dict c1)]
          (r.lines.1, r.lines.2 - 1)⟩
    · exact .err

/-! ### declarations -/

/-- contributions that differ at most in line entries -/
def AddedOut (o o' : Out) : Prop :=
  List.Forall₂ AddedEntry o.own o'.own ∧ List.Forall₂ AddedEntry o.imports o'.imports ∧
    List.Forall₂ AddedEntry o.children o'.children

theorem added_own {s n : String} {a a' : List (String × Val)} (h : AddedLines a a') :
    AddedOut { own := [⟨s, n, a⟩] } { own := [⟨s, n, a'⟩] } :=
  ⟨.cons ⟨rfl, rfl, h⟩ .nil, .nil, .nil⟩

theorem agree_decl {l : Lines} {d : Decl} (h : d.Keys NoMarker Config.Tidy) :
    Agree AddedOut (d.out false l) (d.out true l) := by
  cases d with
  | scope b =>
    rw [Decl.out, Decl.out]
    split
    · exact .ok (added_own (added_lineItems [_] l))
    · exact .err
  | importNs b => exact .ok ⟨.nil, .cons ⟨rfl, rfl, .inl rfl⟩ .nil, .nil⟩
  | importFrom i is b =>
    rw [Decl.out, Decl.out]
    refine .ok ⟨.nil, ?_, .nil⟩
    simp only [List.forall₂_map_left_iff, List.forall₂_map_right_iff]
    refine List.forall₂_same.mpr fun j _ => ⟨rfl, rfl, ?_⟩
    exact added_lineItems (("file_path", .str (txt b)) :: aliasItem j.alias) l
  | extension x is al =>
    obtain ⟨_, h⟩ := h
    rw [Decl.out, Decl.out]
    have : configItem true is = configItem false is := by
      cases is with
      | none => rfl
      | some is => rw [configItem, configItem, same_items is (h _ rfl)]
    rw [this]
    refine (Agree.refl _).bind ?_
    rintro a _ rfl
    refine .ok (added_own ?_)
    rw [← List.append_assoc, ← List.append_assoc]
    exact added_lineItems _ l
  | metadata x b => exact .ok (added_own (added_lineItems [_] l))
  | param ds x t e =>
    obtain ⟨_, hd, h⟩ := h
    rw [Decl.out, Decl.out, same_decos ds hd, same_optExpr e h]
    refine (Agree.refl _).bind ?_
    rintro a _ rfl
    refine (Agree.refl _).bind ?_
    rintro b _ rfl
    exact .ok (added_own (added_lineItems _ l))
  | var ds x t e =>
    obtain ⟨_, hd, h⟩ := h
    rw [Decl.out, Decl.out, same_decos ds hd, same_value e h]
    refine (Agree.refl _).bind ?_
    rintro a _ rfl
    refine (Agree.refl _).bind ?_
    rintro b _ rfl
    refine .ok (added_own ?_)
    rw [← List.append_assoc, ← List.append_assoc]
    exact added_lineItems _ l
  | output ds x t e =>
    obtain ⟨_, hd, h⟩ := h
    rw [Decl.out, Decl.out, same_decos ds hd, same_value e h]
    refine (Agree.refl _).bind ?_
    rintro a _ rfl
    refine (Agree.refl _).bind ?_
    rintro b _ rfl
    exact .ok (added_own (added_lineItems _ l))
  | resource ds x b ex c =>
    obtain ⟨_, hd, h⟩ := h
    rw [Decl.out, Decl.out, same_decos ds hd]
    refine (Agree.refl _).bind ?_
    rintro a _ rfl
    refine (Agree.refl _).bind ?_
    rintro ⟨t, api⟩ _ rfl
    have hc := agree_config c h
    obtain ⟨rs, hrs⟩ := tidy_chain _ c (Nat.lt_succ_self _) h
    cases hv : c.val false with
    | error e =>
      rw [hv] at hc
      generalize c.val true = v' at hc
      cases hc
      exact .err
    | ok v =>
      cases hv' : c.val true with
      | error e => rw [hv, hv'] at hc; cases hc
      | ok v' =>
        rw [hv, hv'] at hc
        cases hc with
        | ok h1 =>
          obtain ⟨d, d', rfl, rfl, he⟩ := h1
          have := agree_processChild (api := api) (N := txt x.1) (T := t) hrs h (chain_depth hrs hv)
            (chain_depth hrs hv') hv hv' rfl rfl he
          simp only [bind, Except.bind]
          unfold resourceVal
          refine (this.inRule (r := "resource")).bind ?_
          rintro ⟨c1, m1⟩ ⟨c2, m2⟩ ⟨h1, h2⟩
          simp only at h1 h2
          subst h1
          exact .ok ⟨.cons ⟨rfl, rfl, added_lineItems _ l⟩ .nil, .nil, h2⟩
  | module ds x b c =>
    obtain ⟨_, hd, h⟩ := h
    rw [Decl.out, Decl.out, same_decos ds hd, same_config c h]
    refine (Agree.refl _).bind ?_
    rintro a _ rfl
    refine (Agree.refl _).bind ?_
    rintro p _ rfl
    refine (Agree.refl _).bind ?_
    rintro v _ rfl
    refine (Agree.refl _).bind ?_
    rintro t _ rfl
    refine (Agree.refl _).bind ?_
    rintro d _ rfl
    exact .ok (added_own (added_lineItems _ l))
  | typ ds x e es =>
    obtain ⟨_, hd, h, hs⟩ := h
    have : typeVal true e es = typeVal false e es := by
      unfold typeVal
      rw [same_expr e h, same_exprs es hs]
    rw [Decl.out, Decl.out, same_decos ds hd, this]
    refine (Agree.refl _).bind ?_
    rintro a _ rfl
    refine (Agree.refl _).bind ?_
    rintro b _ rfl
    exact .ok (added_own (added_lineItems _ l))
  | func ds x ps t e =>
    obtain ⟨_, hd, _, h⟩ := h
    rw [Decl.out, Decl.out, same_decos ds hd, same_expr e h]
    refine (Agree.refl _).bind ?_
    rintro a _ rfl
    refine (Agree.refl _).bind ?_
    rintro b _ rfl
    exact .ok (added_own (added_lineItems _ l))

theorem agree_outs {p : Program} (h : p.Tidy) :
    Agree (List.Forall₂ AddedOut) (p.outs false) (p.outs true) := by
  induction p with
  | nil => rw [Program.outs, Program.outs]; exact .ok .nil
  | cons q p ih =>
    obtain ⟨l, d⟩ := q
    rw [Program.outs, Program.outs]
    exact (agree_decl (h (l, d) (List.mem_cons_self ..))).bind fun a b hab =>
      (ih (fun q hq => h q (List.mem_cons_of_mem _ hq))).bind fun as bs hs => .ok (.cons hab hs)

/-! ### the whole result -/

theorem lastWins_forall₂ {R : Val → Val → Prop} {ps qs : List (String × Val)}
    (h : List.Forall₂ (fun p q => p.1 = q.1 ∧ R p.2 q.2) ps qs) :
    List.Forall₂ (fun p q => p.1 = q.1 ∧ R p.2 q.2) (lastWins ps) (lastWins qs) := by
  unfold lastWins
  rw [forall₂_fst h]
  simp only [List.forall₂_map_left_iff, List.forall₂_map_right_iff]
  refine List.forall₂_same.mpr fun k hk => ⟨rfl, ?_⟩
  have hl : ∀ {as bs : List (String × Val)}, List.Forall₂ (fun p q => p.1 = q.1 ∧ R p.2 q.2) as bs →
      k ∈ bs.map Prod.fst → R ((as.lookup k).getD .none) ((bs.lookup k).getD .none) := by
    intro as bs h
    induction h with
    | nil => simp
    | @cons p q as bs h _ ih =>
      obtain ⟨a, v⟩ := p
      obtain ⟨b, w⟩ := q
      obtain ⟨h1, h2⟩ := h
      simp only at h1 h2
      subst h1
      intro hm
      rw [List.lookup_cons, List.lookup_cons]
      cases hb : k == a with
      | true => exact h2
      | false =>
        refine ih ?_
        rw [List.map_cons, List.mem_cons] at hm
        rcases hm with hm | hm
        · simp only at hm; subst hm; simp at hb
        · exact hm
  refine hl (List.rel_reverse h) ?_
  rw [List.map_reverse, List.mem_reverse, ← forall₂_fst h]
  rw [forall₂_fst h]
  exact List.mem_eraseDups.mp hk

theorem collect_added {es es' : List Entry} (h : List.Forall₂ AddedEntry es es') :
    Added (.dict (collect es)) (.dict (collect es')) := by
  refine ⟨_, _, rfl, rfl, ?_⟩
  have hsec : es.map Entry.sec = es'.map Entry.sec := by
    induction h with
    | nil => rfl
    | cons h _ ih => rw [List.map_cons, List.map_cons, h.1, ih]
  unfold collect
  rw [hsec]
  simp only [List.forall₂_map_left_iff, List.forall₂_map_right_iff]
  refine List.forall₂_same.mpr fun s hs => ⟨rfl, _, _, rfl, rfl, ?_⟩
  refine lastWins_forall₂ (R := fun x y => ∃ a a', x = .dict a ∧ y = .dict a' ∧ AddedLines a a') ?_
  clear hsec hs
  induction h with
  | nil => exact .nil
  | @cons e e' es es' h _ ih =>
    rw [List.filter_cons, List.filter_cons, h.1]
    split
    · rw [List.map_cons, List.map_cons]
      exact .cons ⟨h.2.1, _, _, rfl, rfl, h.2.2⟩ ih
    · exact ih

theorem flatMap_forall₂ {α β γ δ : Type} {R : α → β → Prop} {S : γ → δ → Prop} {f : α → List γ} {g : β → List δ}
    {as : List α} {bs : List β} (h : List.Forall₂ R as bs) (hf : ∀ a b, R a b → List.Forall₂ S (f a) (g b)) :
    List.Forall₂ S (as.flatMap f) (bs.flatMap g) := by
  induction h with
  | nil => exact .nil
  | cons h _ ih =>
    rw [List.flatMap_cons, List.flatMap_cons]
    exact List.rel_append (hf _ _ h) ih

theorem agree_program {p : Program} (h : p.Tidy) : Agree Added (p.val false) (p.val true) := by
  rw [Program.val, Program.val]
  refine (agree_outs h).bind fun os os' ho => .ok (collect_added ?_)
  unfold entries
  refine .cons ⟨rfl, rfl, added_lineItems [_] (0, 0)⟩ ?_
  exact List.rel_append (List.rel_append (flatMap_forall₂ ho fun a b h => h.1)
    (flatMap_forall₂ ho fun a b h => h.2.1)) (flatMap_forall₂ ho fun a b h => h.2.2)

/-- **C12**, for programs that nest resources only directly in bodies of resources.  With and without
line numbers, `parse` fails in the same way, or succeeds both times and the result with line numbers
is the other one with `__start_line__` and `__end_line__` put behind the attributes of entries.

Missing for the full statement: programs in which a nested resource is found elsewhere (in a loop, a
condition, a module, an object inside an expression).  There the property fails, see
`C12_counterexample`. -/
theorem C12_additive_partial (text : Option String) (path : Option PathArg) :
    (∃ e, Parser.parse ⟨false⟩ text path = .error e ∧ Parser.parse ⟨true⟩ text path = .error e) ∨
    ∃ t p, chosenText text path = .ok t ∧ Spells t p ∧ (p.Tidy →
      (∃ e, Parser.parse ⟨false⟩ text path = .error e ∧ Parser.parse ⟨true⟩ text path = .error e) ∨
      ∃ v v', Parser.parse ⟨false⟩ text path = .ok v ∧ Parser.parse ⟨true⟩ text path = .ok v' ∧ Added v v') := by
  simp only [parse_eq]
  rcases createTree'_cases text path with ⟨e, h1, h2⟩ | ⟨t, m, h1, h2, h3, h4⟩ | ⟨t, h1, h2, _, h3⟩ |
    ⟨t, tree, p, h1, h2, h3, h4, h5, h6⟩
  · left; rw [h2]; exact ⟨e, rfl, rfl⟩
  · left; rw [h3]; exact ⟨_, rfl, rfl⟩
  · left; rw [h3]; exact ⟨_, rfl, rfl⟩
  · right
    refine ⟨t, p, h1, h4, fun ht => ?_⟩
    rw [h6]
    simp only [Except.bind, bicepToJson_program h5]
    have := agree_program ht
    generalize p.val false = x at this
    generalize p.val true = y at this
    cases this with
    | @err e => left; cases e <;> exact ⟨_, rfl, rfl⟩
    | @ok a b h => right; exact ⟨a, b, rfl, rfl, h⟩

/-- a program with a nested resource: both runs, the second with lines for both resources -/
example : Parser.parse ⟨false⟩ (some "resource a 'T@1' = {\n  resource b 'u' = {\n  }\n}\n") .none =
    .ok (.dict [("globals", .dict [("scope", .dict [("value", .str "resourceGroup")])]),
      ("resources", .dict [("a", .dict [("decorators", .list []), ("type", .str "T"), ("api_version", .str "1"),
        ("existing", .bool false), ("config", .dict [])]),
       ("a__b", .dict [("decorators", .list []), ("type", .str "T/u"), ("api_version", .str "1"),
        ("existing", .bool false), ("config", .dict [("depends_on", .list [.elem "a"])])])])]) ∧
  Parser.parse ⟨true⟩ (some "resource a 'T@1' = {\n  resource b 'u' = {\n  }\n}\n") .none =
    .ok (.dict [("globals", .dict [("scope", .dict [("value", .str "resourceGroup"),
        ("__start_line__", .int 0), ("__end_line__", .int 0)])]),
      ("resources", .dict [("a", .dict [("decorators", .list []), ("type", .str "T"), ("api_version", .str "1"),
        ("existing", .bool false), ("config", .dict []), ("__start_line__", .int 1), ("__end_line__", .int 4)]),
       ("a__b", .dict [("decorators", .list []), ("type", .str "T/u"), ("api_version", .str "1"),
        ("existing", .bool false), ("config", .dict [("depends_on", .list [.elem "a"])]),
        ("__start_line__", .int 2), ("__end_line__", .int 3)])])]) :=
  ⟨eq_of_outIs (by decide +kernel), eq_of_outIs (by decide +kernel)⟩

/-- **C12 does not hold in general**: the members of a union are printed, and the line entries of a
resource nested in one of them with it. -/
theorem C12_counterexample :
    Parser.parse ⟨false⟩ (some "type t = {\nresource b 'u' = {\n}\n} | 'x'\n") .none =
    .ok (.dict [("globals", .dict [("scope", .dict [("value", .str "resourceGroup")])]),
      ("types", .dict [("t", .dict [("decorators", .list []), ("value", .str
        "{'__child_resource__': {'__name__': 'b', '__attrs__': {'decorators': [], 'type': 'u', 'api_version': '', 'existing': False, 'config': {}}}} | x")])])]) ∧
    Parser.parse ⟨true⟩ (some "type t = {\nresource b 'u' = {\n}\n} | 'x'\n") .none =
    .ok (.dict [("globals", .dict [("scope", .dict [("value", .str "resourceGroup"),
        ("__start_line__", .int 0), ("__end_line__", .int 0)])]),
      ("types", .dict [("t", .dict [("decorators", .list []), ("value", .str
        "{'__child_resource__': {'__name__': 'b', '__attrs__': {'decorators': [], 'type': 'u', 'api_version': '', 'existing': False, 'config': {}, '__start_line__': 2, '__end_line__': 3}}} | x"),
        ("__start_line__", .int 1), ("__end_line__", .int 4)])])]) :=
  ⟨eq_of_outIs (by decide +kernel), eq_of_outIs (by decide +kernel)⟩

end Pycep
