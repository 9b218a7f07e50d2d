import Verif.Proofs.SizeSyn
/-
The size of what represents a declaration and a program.
-/
namespace Pycep

/-! ### Decorators and references -/

theorem ddata_cost (t : String) (a : Val) : (Decorators.ddata t a).cost = 2 + a.cost := by
  simp [Decorators.ddata, Val.cost, costItems, keyCost]; omega

theorem mulNegOne_cost {a v : Val} (h : mulNegOne a = .ok v) : v.cost = 1 := by
  cases a <;> simp [mulNegOne] at h <;> subst h <;> simp [Val.cost, costOf]

theorem pyInt_cost {a v : Val} (h : pyInt a = .ok v) : v.cost = 1 := by
  have hm : ∀ {s}, (intOfStr s).map Val.int = .ok v → v.cost = 1 := by
    intro s h
    cases hs : intOfStr s with
    | error e => rw [hs] at h; cases h
    | ok i => rw [hs] at h; cases h; simp [Val.cost]
  cases a <;> simp only [pyInt] at h
  case int => cases h; simp [Val.cost]
  case bool => cases h; simp [Val.cost]
  case str => exact hm h
  case elem => exact hm h
  case tok => exact hm h
  all_goals cases h

theorem minValArg_cost {a v : Val} (h : Decorators.minValArg a = .ok v) : v.cost ≤ a.cost := by
  unfold Decorators.minValArg at h
  split at h
  · obtain ⟨f, hf, h⟩ := bind_ok' h
    obtain ⟨t, ht, h⟩ := bind_ok' h
    split at h
    · obtain ⟨ps, hp, h⟩ := bind_ok' h
      obtain ⟨n, hn, h⟩ := bind_ok' h
      rw [mulNegOne_cost h]
      exact cost_pos _
    · cases h; exact le_refl _
  · cases h; exact le_refl _

/-- a decorator reports its argument at most once -/
def FrugalDeco (f : Decorators.DecoDef) : Prop := ∀ n args v, f n args = .ok v → v.cost ≤ costOf args + 2

theorem frugalDeco_arg {f : Decorators.DecoDef} {t : String}
    (h : ∀ n args, f n args = match args with | a :: _ => .ok (Decorators.ddata t a) | [] => .error .indexError) :
    FrugalDeco f := by
  intro n args v hv
  rw [h] at hv
  cases args with
  | nil => cases hv
  | cons a l => cases hv; rw [ddata_cost, costOf]; omega

theorem frugalDeco_bare {f : Decorators.DecoDef} {t : String} (h : ∀ n args, f n args = .ok (.dict [("type", .str t)])) :
    FrugalDeco f := by
  intro n args v hv
  rw [h] at hv
  cases hv
  simp [Val.cost, costItems, keyCost]

theorem frugalDeco_min : FrugalDeco Decorators.deco_min_val := by
  intro n args v hv
  cases args with
  | nil => cases hv
  | cons a l =>
    simp only [Decorators.deco_min_val] at hv
    cases hm : Decorators.minValArg a with
    | error e => rw [hm] at hv; cases hv
    | ok x =>
      rw [hm] at hv
      cases hv
      have := minValArg_cost hm
      rw [ddata_cost, costOf]
      omega

theorem frugalDeco_max : FrugalDeco Decorators.deco_max_val := by
  intro n args v hv
  cases args with
  | nil => cases hv
  | cons a l =>
    simp only [Decorators.deco_max_val] at hv
    cases hm : pyInt a with
    | error e => rw [hm] at hv; cases hv
    | ok x =>
      rw [hm] at hv
      cases hv
      have := pyInt_cost hm
      have := cost_pos a
      rw [ddata_cost, costOf]
      omega

theorem frugalDeco_unknown : FrugalDeco Decorators.unknown_deco := by
  intro n args v hv
  cases args with
  | nil => cases hv; simp [Val.cost, costItems, keyCost]
  | cons a l => cases hv; rw [ddata_cost, costOf]; omega

theorem lookup_forall {α} {P : α → Prop} {k : String} {a : α} : ∀ {l : List (String × α)}, (∀ p ∈ l, P p.2) →
    l.lookup k = some a → P a
  | [], _, h => by cases h
  | (k', b) :: l, hp, h => by
    rw [List.lookup_cons] at h
    split at h
    · cases h; exact hp _ (List.mem_cons_self)
    · exact lookup_forall (fun p hm => hp p (List.mem_cons_of_mem _ hm)) h

theorem frugalDeco_get (name : String) : FrugalDeco (Decorators.getDecorator name) := by
  unfold Decorators.getDecorator
  split
  · rename_i f hl
    refine lookup_forall ?_ hl
    intro p hp
    simp only [Decorators.DECORATORS, List.mem_cons, List.not_mem_nil, or_false] at hp
    have e1 : FrugalDeco Decorators.deco_allowed := frugalDeco_arg (fun _ _ => rfl)
    have e2 : FrugalDeco Decorators.deco_batch := frugalDeco_arg (fun _ _ => rfl)
    have e3 : FrugalDeco Decorators.deco_description := frugalDeco_arg (fun _ _ => rfl)
    have e4 : FrugalDeco Decorators.deco_export := frugalDeco_bare (fun _ _ => rfl)
    have e5 : FrugalDeco Decorators.deco_min_len := frugalDeco_arg (fun _ _ => rfl)
    have e6 : FrugalDeco Decorators.deco_max_len := frugalDeco_arg (fun _ _ => rfl)
    have e7 : FrugalDeco Decorators.deco_metadata := frugalDeco_arg (fun _ _ => rfl)
    have e8 : FrugalDeco Decorators.deco_sealed := frugalDeco_bare (fun _ _ => rfl)
    have e9 : FrugalDeco Decorators.deco_secure := frugalDeco_bare (fun _ _ => rfl)
    have e10 := frugalDeco_min
    have e11 := frugalDeco_max
    repeat' (rcases hp with rfl | hp)
    all_goals assumption
  · exact frugalDeco_unknown

theorem DecoSyn.cost {ln : Bool} {d : Deco} {w : List Tok} (h : DecoSyn d w) {v : Val} (hv : d.val ln = .ok v) :
    v.cost ≤ 4 * w.length := by
  have hp : v.cost ≤ 4 * w.length := by
    cases h with
    | noArg =>
      have hc := frugalDeco_get _ _ _ _ (inRule_ok hv)
      simp [costOf] at *; omega
    | arg _ _ _ _ he =>
      obtain ⟨x, hx, hv⟩ := bind_ok' hv
      have hc := frugalDeco_get _ _ _ _ (inRule_ok hv)
      have := ESyn.cost he hx
      simp [costOf] at *; omega
  exact hp

theorem DecosSyn.cost {ln : Bool} {ds : List Deco} {w : List Tok} (h : DecosSyn ds w) : ∀ {vs : List Val},
    decoVals ln ds = .ok vs → costOf vs ≤ 4 * w.length := by
  induction h with
  | nil => intro vs h; rw [decoVals] at h; cases h; simp [costOf]
  | snoc hs hd ih =>
    intro vs h
    obtain ⟨xs, ys, hx, hy, rfl⟩ := decoVals_append h
    rw [decoVals, decoVals] at hy
    obtain ⟨y, hy', h'⟩ := bind_ok' hy
    cases h'
    have := ih hx
    have := hd.cost hy'
    simp [costOf_append, costOf]; omega

theorem ModuleRef.cost {b : List Char} {ty : String} {de : List (String × Val)} (h : ModuleRef b ty de) :
    costItems de ≤ 5 := by
  cases h <;> simp [costItems, comp, Val.cost, keyCost]

/-! ### Data types -/

theorem costVals_append (ds ds' : List DataType) : costOf (DataType.vals (ds ++ ds')) =
    costOf (DataType.vals ds) + costOf (DataType.vals ds') := by
  induction ds with
  | nil => simp [DataType.vals, costOf]
  | cons d ds ih => simp only [List.cons_append, DataType.vals, costOf, ih]; omega

theorem arrayOf_cost (n : Nat) (v : Val) : (arrayOf n v).cost = 2 * n + v.cost := by
  induction n with
  | zero => simp [arrayOf]
  | succ n ih => simp [arrayOf, Val.cost, costItems, keyCost, ih]; omega

theorem Suffixes.length {n : Nat} {w : List Tok} (h : Suffixes n w) : w.length = 2 * n := by
  induction h with
  | zero => rfl
  | succ _ _ _ ih => simp [ih]; omega

mutual
theorem TypeSyn.cost : ∀ {d w}, TypeSyn d w → d.val.cost ≤ 4 * w.length
  | _, _, .mk hb hs => by
    have := BaseSyn.cost hb
    have := hs.length
    rw [DataType.val, arrayOf_cost, List.length_append]; omega
theorem BaseSyn.cost : ∀ {d w}, BaseSyn d w → d.val.cost ≤ 4 * w.length
  | _, _, .name _ => by simp [BaseType.val, Val.cost]
  | _, _, .union _ h1 h2 _ => by
    have := TypeSyn.cost h1
    have h2 := TypeTail.cost h2
    rw [DataType.vals, costOf] at h2
    simp [BaseType.val, Val.cost, costItems, costOf, keyCost]; omega
theorem TypeTail.cost : ∀ {ds w}, TypeTail ds w → costOf (DataType.vals ds) ≤ 4 * w.length
  | _, _, .nil => by simp [DataType.vals, costOf]
  | _, _, .snoc ht _ hd => by
    have := TypeTail.cost ht
    have := TypeSyn.cost hd
    simp [costVals_append, DataType.vals, costOf]; omega
end

/-! ### Nested resources -/

theorem adoptChild_cost {pn pt pa child c a nn cfg : Val} (hpa : pa.cost = 1)
    (h : adoptChild pn pt pa child = .ok (c, a, nn, cfg)) :
    ∃ dc da dg d0 g0, c = .dict dc ∧ a = .dict da ∧ cfg = .dict dg ∧ dGet "__attrs__" dc = some d0 ∧
      dGet "config" da = some g0 ∧ costItems dc ≤ costItems dc ∧ c.cost ≤ child.cost ∧ a.cost ≤ d0.cost + 1 ∧
      cfg.cost ≤ g0.cost + 2 := by
  unfold adoptChild at h
  obtain ⟨cname, hcn, h⟩ := bind_ok' h
  obtain ⟨c1, hc1, h⟩ := bind_ok' h
  obtain ⟨a0, ha0, h⟩ := bind_ok' h
  obtain ⟨ct, hct, h⟩ := bind_ok' h
  obtain ⟨a1, ha1, h⟩ := bind_ok' h
  obtain ⟨a2, ha2, h⟩ := bind_ok' h
  obtain ⟨cf, hcf, h⟩ := bind_ok' h
  obtain ⟨dc, rfl, rfl⟩ := setItem_ok hc1
  obtain ⟨d1, rfl, rfl⟩ := setItem_ok ha1
  obtain ⟨d2, e2, rfl⟩ := setItem_ok ha2
  cases e2
  simp only [Val.item] at hcn ha0 hct hcf
  split at hcn <;> cases hcn
  split at ha0 <;> cases ha0
  split at hct <;> cases hct
  split at hcf <;> cases hcf
  rename_i g1 _ g2 _ g3 _ g4
  cases cf with
  | dict cfd =>
    simp only at h
    split at h
    · rename_i deps hd
      simp only [Except.ok.injEq, Prod.mk.injEq] at h
      obtain ⟨rfl, rfl, rfl, rfl⟩ := h
      refine ⟨_, _, _, _, _, rfl, rfl, rfl, g2, g4, le_refl _, ?_, ?_, ?_⟩
      · have h1 := cost_dSet "__name__" (Val.str (pn.pyStr ++ "__" ++ cname.pyStr)) dc
        have := cost_pos cname
        simp only [oldCost, g1] at h1
        simp [Val.cost] at *; omega
      · have h1 := cost_dSet "type" (Val.str (pt.pyStr ++ "/" ++ ct.pyStr)) d1
        have h2 := cost_dSet "api_version" pa (dSet "type" (Val.str (pt.pyStr ++ "/" ++ ct.pyStr)) d1)
        have := cost_pos ct
        simp only [oldCost, g3] at h1
        simp [Val.cost, keyCost, hpa] at *; omega
      · have h1 := cost_dSet "depends_on" (.list (deps ++ [.elem pn.pyStr])) cfd
        unfold oldCost at h1
        cases hg : dGet "depends_on" cfd with
        | none =>
          rw [hg] at h1 hd
          simp only [Option.getD_none, Val.list.injEq] at hd
          subst hd
          simp [Val.cost, keyCost, costOf] at *; omega
        | some x =>
          rw [hg] at h1 hd
          simp only [Option.getD_some] at hd
          subst hd
          simp [Val.cost, keyCost, costOf_append, costOf] at *; omega
    · simp at h
  | _ => simp at h

theorem processChild_cost (n : Nat) : ∀ {pn pt pa : Val} {cfg cfg' : List (String × Val)} {cs : List Val}, pa.cost = 1 →
    processChild n pn pt pa cfg = .ok (cfg', cs) → costItems cfg' + costOf cs ≤ costItems cfg := by
  induction n with
  | zero =>
    intro pn pt pa cfg cfg' cs _ h
    rw [processChild] at h; cases h; simp [costOf]
  | succ n ih =>
    intro pn pt pa cfg cfg' cs hpa h
    rw [processChild] at h
    split at h
    · cases h; simp [costOf]
    · rename_i child hg
      obtain ⟨⟨c, a, nn, cf⟩, had, h⟩ := bind_ok' h
      simp only at h
      obtain ⟨dc, da, dg, d0, g0, rfl, rfl, rfl, hd0, hg0, _, h1, h2, h3⟩ := adoptChild_cost hpa had
      simp only at h
      obtain ⟨ct, hct, h⟩ := bind_ok' h
      obtain ⟨⟨cfg2, more⟩, hp, h⟩ := bind_ok' h
      simp only at h
      obtain ⟨a', ha', h⟩ := bind_ok' h
      obtain ⟨c', hc', h⟩ := bind_ok' h
      cases h
      obtain ⟨_, e, rfl⟩ := setItem_ok ha'
      obtain ⟨_, e', rfl⟩ := setItem_ok hc'
      cases e'
      cases e
      have h4 := ih hpa hp
      have h5 := cost_dErase "__child_resource__" cfg
      have h6 := cost_dSet "config" (.dict cfg2) da
      have h7 := cost_dSet "__attrs__" (.dict (dSet "config" (.dict cfg2) da)) dc
      simp only [oldCost, hg] at h5
      simp only [oldCost, hg0] at h6
      simp only [oldCost, hd0] at h7
      simp [Val.cost, keyCost, costOf, costItems, D] at *
      omega

/-! ### Collecting -/

theorem nodes_dSet (k : String) (x : Val) (d : List (String × Val)) : nodesOfItems (dSet k x d) +
    (match dGet k d with | some v => v.nodes | .none => 0) = nodesOfItems d + x.nodes := by
  induction d with
  | nil => simp [dSet, dGet, nodesOfItems]
  | cons p d ih =>
    obtain ⟨k', v⟩ := p
    rw [dSet, dGet]
    by_cases h : k' = k
    · subst h
      simp only [if_true, nodesOfItems]; omega
    · simp only [if_neg h, nodesOfItems]; omega

/-- what an entry adds to the result at most -/
def entrySize (e : Entry) : Nat := 2 + nodesOfItems e.attrs

/-- what entries add to the result at most -/
def entriesSize (es : List Entry) : Nat := (es.map entrySize).sum

theorem nodes_collect (es : List Entry) : nodesOfItems (collect es) ≤ entriesSize es := by
  induction es using List.reverseRecOn with
  | nil => simp [collect, nodesOfItems]
  | append_singleton es e ih =>
    rw [collect_concat]
    have h1 := nodes_dSet e.sec (.dict (dSet e.name (.dict e.attrs) (lastWins (secItems es e.sec)))) (collect es)
    have h2 := nodes_dSet e.name (.dict e.attrs) (lastWins (secItems es e.sec))
    have h3 : nodesOfItems (lastWins (secItems es e.sec)) ≤
        (match dGet e.sec (collect es) with | some v => v.nodes | .none => 0) := by
      rw [show collect es = (es.map Entry.sec).eraseDups.map (fun s => (s, .dict (lastWins (secItems es s)))) from rfl,
        dGet_map]
      by_cases hm : e.sec ∈ (es.map Entry.sec).eraseDups
      · rw [if_pos hm]; simp only [Val.nodes]; omega
      · rw [if_neg hm]
        have : secItems es e.sec = [] := by
          simp only [secItems, List.map_eq_nil_iff, List.filter_eq_nil_iff, decide_eq_true_eq]
          intro a ha hs
          exact hm (List.mem_eraseDups.mpr (List.mem_map.mpr ⟨a, ha, hs⟩))
        rw [this]
        simp [lastWins, nodesOfItems]
    simp [entriesSize, entrySize, Val.nodes] at *
    omega

theorem entriesSize_append (es fs : List Entry) : entriesSize (es ++ fs) = entriesSize es + entriesSize fs := by
  simp [entriesSize]

theorem AreEntries.size {vs es} (h : AreEntries vs es) : entriesSize es ≤ costOf vs := by
  induction h with
  | nil => simp [entriesSize]
  | none h ih => rw [costOf]; omega
  | cons h _ ih =>
    obtain ⟨d, rfl, _, ha⟩ := h
    have h1 := cost_dGet ha
    rename_i e vs es _ _
    have h2 := nodesOfItems_le e.attrs
    simp [entriesSize, entrySize, costOf, Val.cost, costItems] at *
    omega

/-! ### Declarations -/

theorem lineItems_cost (ln : Bool) (l : Lines) : costItems (lineItems ln l) ≤ 2 := by
  cases ln <;> simp [lineItems, costItems, Val.cost, keyCost]

theorem entrySize_le (s n : String) (a : List (String × Val)) : entrySize ⟨s, n, a⟩ ≤ 2 + costItems a := by
  have := nodesOfItems_le a
  simp [entrySize]; omega

theorem size_one {s n : String} {a : List (String × Val)} {m : Nat} (h : 2 + costItems a ≤ m) :
    entriesSize [⟨s, n, a⟩] ≤ m := by
  have := entrySize_le s n a
  simp [entriesSize]; omega

theorem ValueSyn.cost {ln : Bool} {e w n} (h : ValueSyn e w n) {v : Val} (hv : e.val ln = .ok v) : v.cost ≤ 4 * w.length := by
  cases h with
  | expr he _ => exact ESyn.cost he hv
  | loop hl => exact LoopSyn.cost hl hv

theorem DefaultSyn.cost {ln : Bool} {e w n} (h : DefaultSyn e w n) {v : Val} (hv : Expr.optVal ln e = .ok v) :
    v.cost ≤ 4 * w.length + 1 := by
  cases h with
  | no => rw [Expr.optVal] at hv; cases hv; simp [Val.cost]
  | yes _ he _ => rw [Expr.optVal] at hv; have := ESyn.cost he hv; simp; omega

theorem VarType.cost {t w} (h : VarType t w) : costItems (typeItem t) ≤ 4 * w.length := by
  cases h with
  | no => simp [typeItem, costItems]
  | yes h _ => have := TypeSyn.cost h; simp [typeItem, costItems, keyCost]; omega

theorem AsSyn.cost {t w} (h : AsSyn t w) : costItems (aliasItem t) ≤ 4 * w.length := by
  cases h with
  | no => simp [aliasItem, costItems]
  | yes => simp [aliasItem, costItems, keyCost, Val.cost]

theorem WithSyn.cost {ln : Bool} {c w n} (h : WithSyn c w n) {v : List (String × Val)} (hv : configItem ln c = .ok v) :
    costItems v ≤ 4 * w.length := by
  cases h with
  | no => cases hv; simp [costItems]
  | yes _ ho =>
    obtain ⟨ps, hp, hv⟩ := bind_ok' hv
    cases hv
    have := ObjSyn.cost ho hp
    have := cost_lastWins ps
    split
    · simp [costItems]
    · simp [costItems, keyCost, Val.cost]; omega

theorem ParamTail.cost {ps w} (h : ParamTail ps w) :
    costItems (ps.map (fun p => (txt p.1.1, p.2.val))) ≤ 4 * w.length := by
  induction h with
  | nil => simp [costItems]
  | snoc _ _ hi ht ih =>
    have := TypeSyn.cost ht
    rename_i x _ _ _ _ _
    have := keyCost_le (txt x.1)
    simp [costItems_append, costItems] at *; omega

theorem ParamsSyn.cost {ps w} (h : ParamsSyn ps w) :
    costItems (ps.map (fun p => (txt p.1.1, p.2.val))) ≤ 4 * w.length + 1 := by
  cases h with
  | nil => simp [costItems]
  | @mk x _ _ _ _ _ hi ht hp =>
    have := TypeSyn.cost ht
    have := ParamTail.cost hp
    have := keyCost_le (txt x.1)
    simp [costItems] at *; omega

theorem typeVal_cost {ln : Bool} {e w n} (h : ESyn true e w n) {es : List Expr} {v : Val} (hv : typeVal ln e es = .ok v) :
    v.cost ≤ 4 * w.length + 1 := by
  unfold typeVal at hv
  split at hv
  · have := ESyn.cost h hv; omega
  · obtain ⟨x, hx, hv⟩ := bind_ok' hv
    obtain ⟨xs, hxs, hv⟩ := bind_ok' hv
    cases hv
    simp [Val.cost]

theorem ImportSyn.size {ln : Bool} {i w} (l : Lines) (b : List Char) (h : ImportSyn i w) :
    entrySize (i.entry ln l b) ≤ 4 * w.length + 1 := by
  have := lineItems_cost ln l
  cases h <;> refine (entrySize_le _ _ _).trans ?_ <;>
    simp [aliasItem, costItems, Val.cost, keyCost] <;> omega

theorem ImportTail.size {ln : Bool} {is w} (l : Lines) (b : List Char) (h : ImportTail is w) :
    entriesSize (is.map (ImportItem.entry ln l b)) ≤ 4 * w.length := by
  induction h with
  | nil => simp [entriesSize]
  | snoc _ _ hi ih =>
    have := hi.size (ln := ln) l b
    simp [entriesSize] at *; omega

theorem DeclSyn.size {ln : Bool} {d w n} (h : DeclSyn d w n) {l : Lines} {o : Out} (ho : d.out ln l = .ok o) :
    entriesSize (o.own ++ o.imports ++ o.children) ≤ 4 * w.length := by
  have hl := lineItems_cost ln l
  rw [entriesSize_append, entriesSize_append]
  have e0 : entriesSize [] = 0 := rfl
  cases h with
  | scope =>
    rw [Decl.out] at ho
    split at ho <;> cases ho
    simp only [e0, Nat.add_zero]
    refine size_one ?_
    simp [costItems, Val.cost, keyCost]; omega
  | importNs =>
    rw [Decl.out] at ho
    cases ho
    simp [entriesSize, entrySize, nodesOfItems]
  | importOne _ hi =>
    rw [Decl.out] at ho
    cases ho
    have := hi.size (ln := ln) l ‹_›
    simp [entriesSize] at *; omega
  | importList _ _ hi ht =>
    rw [Decl.out] at ho
    cases ho
    have := hi.size (ln := ln) l ‹_›
    have := ht.size (ln := ln) l ‹_›
    simp [entriesSize] at *; omega
  | extension _ _ hw ha =>
    rw [Decl.out] at ho
    obtain ⟨c, hc, ho⟩ := bind_ok' ho
    cases ho
    simp only [e0, Nat.add_zero]
    have := hw.cost hc
    have := ha.cost
    refine size_one ?_
    simp [costItems_append]; omega
  | metadata =>
    rw [Decl.out] at ho
    cases ho
    simp only [e0, Nat.add_zero]
    refine size_one ?_
    simp [costItems, Val.cost, keyCost]; omega
  | param hd _ _ ht _ hdef =>
    rw [Decl.out] at ho
    obtain ⟨vs, hv, ho⟩ := bind_ok' ho
    obtain ⟨x, hx, ho⟩ := bind_ok' ho
    cases ho
    simp only [e0, Nat.add_zero]
    have := hd.cost hv
    have := TypeSyn.cost ht
    have := hdef.cost hx
    refine size_one ?_
    simp [costItems, Val.cost, keyCost]; omega
  | var hd _ _ ht _ he =>
    rw [Decl.out] at ho
    obtain ⟨vs, hv, ho⟩ := bind_ok' ho
    obtain ⟨x, hx, ho⟩ := bind_ok' ho
    cases ho
    simp only [e0, Nat.add_zero]
    have := hd.cost hv
    have := ht.cost
    have := he.cost hx
    refine size_one ?_
    simp [costItems, costItems_append, Val.cost, keyCost]; omega
  | output hd _ _ ht _ _ he =>
    rw [Decl.out] at ho
    obtain ⟨vs, hv, ho⟩ := bind_ok' ho
    obtain ⟨x, hx, ho⟩ := bind_ok' ho
    cases ho
    simp only [e0, Nat.add_zero]
    have := hd.cost hv
    have := TypeSyn.cost ht
    have := he.cost hx
    refine size_one ?_
    simp [costItems, Val.cost, keyCost]; omega
  | resource hd _ _ _ _ _ hc =>
    rw [Decl.out] at ho
    obtain ⟨vs, hv, ho⟩ := bind_ok' ho
    obtain ⟨⟨t, api⟩, hx, ho⟩ := bind_ok' ho
    obtain ⟨c, hcv, ho⟩ := bind_ok' ho
    obtain ⟨⟨cfg, inner⟩, hr, ho⟩ := bind_ok' ho
    cases ho
    have hr := inRule_ok hr
    unfold resourceVal at hr
    split at hr
    · have h1 := processChild_cost _ (by simp [Val.cost]) hr
      have h2 := (processChild_entries _ hr).size
      have h3 := hd.cost hv
      have h4 := ConfigSyn.cost hc hcv
      rw [Val.cost] at h4
      refine (Nat.add_le_add (Nat.add_le_add (size_one (le_refl _)) (le_refl _)) h2).trans ?_
      simp [e0, costItems, Val.cost, keyCost]; omega
    · cases hr
  | module hd _ _ _ _ hc =>
    rw [Decl.out] at ho
    obtain ⟨vs, hv, ho⟩ := bind_ok' ho
    obtain ⟨r, hr, ho⟩ := bind_ok' ho
    obtain ⟨c, hcv, ho⟩ := bind_ok' ho
    obtain ⟨t, ht, ho⟩ := bind_ok' ho
    obtain ⟨d, hde, ho⟩ := bind_ok' ho
    cases ho
    obtain ⟨ty, de, hm, rfl⟩ := classify_sound (inRule_ok hr)
    have ht := inRule_ok ht
    have hde := inRule_ok hde
    simp only [refVal, Val.item, dGet, if_true, Except.ok.injEq, String.reduceEq, if_false] at ht hde
    subst ht hde
    have := hm.cost
    have := hd.cost hv
    have := ConfigSyn.cost hc hcv
    simp only [e0, Nat.add_zero]
    refine size_one ?_
    simp [costItems, Val.cost, keyCost]; omega
  | typ hd _ _ _ he ha =>
    rw [Decl.out] at ho
    obtain ⟨vs, hv, ho⟩ := bind_ok' ho
    obtain ⟨x, hx, ho⟩ := bind_ok' ho
    cases ho
    have := hd.cost hv
    have := typeVal_cost he hx
    simp only [e0, Nat.add_zero]
    refine size_one ?_
    simp [costItems, Val.cost, keyCost]; omega
  | @func _ _ ps _ _ _ _ _ _ _ _ _ _ _ _ hd _ _ _ hp _ ht _ he =>
    rw [Decl.out] at ho
    obtain ⟨vs, hv, ho⟩ := bind_ok' ho
    obtain ⟨x, hx, ho⟩ := bind_ok' ho
    cases ho
    have := hd.cost hv
    have := hp.cost
    have := TypeSyn.cost ht
    have := ESyn.cost he hx
    have := cost_lastWins (ps.map (fun p => (txt p.1.1, p.2.val)))
    simp only [e0, Nat.add_zero]
    refine size_one ?_
    simp [costItems, Val.cost, keyCost]; omega

theorem ProgSyn.size {ln : Bool} {p w n} (h : ProgSyn p w n) : ∀ {os : List Out}, Program.outs ln p = .ok os →
    entriesSize (os.flatMap Out.own) + entriesSize (os.flatMap Out.imports) + entriesSize (os.flatMap Out.children) ≤
      4 * w.length := by
  induction h with
  | nil => intro os h; rw [Program.outs] at h; cases h; simp [entriesSize]
  | nl _ _ ih =>
    intro os h
    have := ih h
    simp; omega
  | @decl p l d w1 w2 n hp hd _ ih =>
    intro os h
    have happ : ∀ {p : Program} {os : List Out}, Program.outs ln (p ++ [(l, d)]) = .ok os →
        ∃ os' o, Program.outs ln p = .ok os' ∧ d.out ln l = .ok o ∧ os = os' ++ [o] := by
      intro p
      induction p with
      | nil =>
        intro os h
        rw [List.nil_append, Program.outs] at h
        obtain ⟨o, ho, h⟩ := bind_ok' h
        rw [Program.outs] at h
        cases h
        exact ⟨[], o, by rw [Program.outs], ho, rfl⟩
      | cons q p ih =>
        intro os h
        obtain ⟨l', d'⟩ := q
        rw [List.cons_append, Program.outs] at h
        obtain ⟨o, ho, h⟩ := bind_ok' h
        obtain ⟨os1, hos, h⟩ := bind_ok' h
        cases h
        obtain ⟨os', o', h1, h2, rfl⟩ := ih hos
        exact ⟨o :: os', o', by rw [Program.outs, ho, h1]; rfl, h2, rfl⟩
    obtain ⟨os', o, h1, h2, rfl⟩ := happ h
    have i1 := ih h1
    have i2 := hd.size h2
    rw [entriesSize_append, entriesSize_append] at i2
    simp only [List.flatMap_append, entriesSize_append, List.flatMap_cons, List.flatMap_nil, List.append_nil,
      List.length_append]
    omega

theorem ProgSyn.nodes {ln : Bool} {p w n} (h : ProgSyn p w n) {v : Val} (hv : p.val ln = .ok v) :
    v.nodes ≤ 4 * w.length + 6 := by
  unfold Program.val at hv
  obtain ⟨os, ho, hv⟩ := bind_ok' hv
  cases hv
  have h1 := h.size ho
  have h2 := nodes_collect (entries ln os)
  have h3 : entriesSize (entries ln os) = entrySize (defaultScope ln) + (entriesSize (os.flatMap Out.own) +
      entriesSize (os.flatMap Out.imports) + entriesSize (os.flatMap Out.children)) := by
    unfold entries
    rw [← List.singleton_append, entriesSize_append, entriesSize_append, entriesSize_append]
    rfl
  have h4 : entrySize (defaultScope ln) ≤ 5 := by
    cases ln <;> simp [entrySize, defaultScope, lineItems, nodesOfItems, Val.nodes]
  rw [Val.nodes]
  omega

theorem Tiling.length_le {l x w} (h : Tiling l x w) : w.length ≤ x.length := by
  induction h with
  | nil => simp
  | skip _ _ ih => simp; omega
  | tok ht hl _ ih =>
    have := List.length_pos_iff.mpr (TokText.ne_nil hl ht)
    simp; omega

end Pycep
