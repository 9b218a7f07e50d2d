import Verif.Proofs.SemExpr
/-
The transformer applied to the tree of a program gives the meaning of the program.
-/
namespace Pycep

/-- keys of attribute lists are never the line keys -/
macro "attrKeys" : tactic => `(tactic| (simp only [List.map_cons, List.map_nil, List.map_append]; decide))

/-! ### Data types -/

theorem look_base_type : callbacks.lookup "base_type" = some (plain cb_base_type) := rfl
theorem look_union_type : callbacks.lookup "union_type" = some (plain cb_union_type) := rfl
theorem look_data_type : callbacks.lookup "data_type" = some (plain cb_data_type) := rfl
theorem look_array_suffix : callbacks.lookup "array_suffix" = some (plain cb_array_suffix) := rfl
theorem look_decorator : callbacks.lookup "decorator" = some (plain cb_decorator) := rfl
theorem look_decorators : callbacks.lookup "decorators" = some (plain cb_decorators) := rfl
theorem look_import_alias : callbacks.lookup "import_alias" = some (plain cb_import_alias) := rfl
theorem look_type_value : callbacks.lookup "type_value" = some (plain cb_type_value) := rfl
theorem look_type_api : callbacks.lookup "type_api_pair" = some (plain cb_type_api_pair) := rfl
theorem look_module_path : callbacks.lookup "module_path" = some (plain cb_module_path) := rfl
theorem look_scope : callbacks.lookup "scope" = some (withMeta cb_scope) := rfl
theorem look_import : callbacks.lookup "custom_import" = some cb_custom_import := rfl
theorem look_extension : callbacks.lookup "extension" = some (withMeta cb_extension) := rfl
theorem look_metadata : callbacks.lookup "metadata" = some (withMeta cb_metadata) := rfl
theorem look_param : callbacks.lookup "param" = some (withMeta cb_param) := rfl
theorem look_var : callbacks.lookup "var" = some (withMeta cb_var) := rfl
theorem look_output : callbacks.lookup "output" = some (withMeta cb_output) := rfl
theorem look_resource : callbacks.lookup "resource" = some cb_resource := rfl
theorem look_module : callbacks.lookup "module" = some (withMeta cb_module) := rfl
theorem look_custom_type : callbacks.lookup "custom_type" = some (withMeta cb_custom_type) := rfl
theorem look_custom_func : callbacks.lookup "custom_func" = some (withMeta cb_custom_func) := rfl
theorem look_start : callbacks.lookup "start" =
    some (fun ln _ args st => (cb_start ln args st).map (·, st)) := rfl

theorem arrayOf_succ (n : Nat) (v : Val) :
    arrayOf n (.dict [("type", .str "array"), ("item_type", v)]) = arrayOf (n + 1) v := by
  induction n with
  | zero => rfl
  | succ n ih => rw [arrayOf, ih]; simp only [arrayOf]

theorem wrapArray_replicate (n : Nat) (u v : Val) : wrapArray (List.replicate n u) v = arrayOf n v := by
  induction n generalizing v with
  | zero => rfl
  | succ n ih => rw [List.replicate_succ, wrapArray, ih, ← arrayOf_succ]

theorem suffixes_val (ln : Bool) (n : Nat) (st : TState) :
    transformList ln (List.replicate n (nd "array_suffix" [])) st =
      .ok (List.replicate n .none, st) := by
  induction n with
  | zero => exact transformList_nil _ _
  | succ n ih =>
    rw [List.replicate_succ, transformList_cons, transform_plain look_array_suffix, transformList_nil]
    simp only [Except.bind, cb_array_suffix, inRule, pureR_ok, ih]
    rfl

mutual
theorem dataType_val (ln : Bool) : ∀ (d : DataType) (st : TState),
    transform ln d.tree st = .ok (d.val, st)
  | .mk b n, st => by
    rw [DataType.tree, transform_plain look_data_type, transformList_cons, baseType_val ln b st,
      DataType.val]
    simp only [Except.bind, suffixes_val, cb_data_type, wrapArray_replicate, inRule, pureR_ok]
theorem baseType_val (ln : Bool) : ∀ (b : BaseType) (st : TState),
    transform ln b.tree st = .ok (b.val, st)
  | .name x, st => by
    rw [BaseType.tree, transform_plain look_base_type, transformList_cons, transform_tk, BaseType.val]
    simp only [Except.bind, transformList_nil]
    rfl
  | .union d1 d2 ds, st => by
    rw [BaseType.tree, transform_plain look_base_type, transformList_cons,
      transform_plain look_union_type, transformList_cons, dataType_val ln d1 st, BaseType.val]
    simp only [Except.bind, transformList_cons, transformList_nil, dataType_val ln d2 st,
      dataTypes_val ln ds st]
    rfl
theorem dataTypes_val (ln : Bool) : ∀ (ds : List DataType) (st : TState),
    transformList ln (DataType.trees ds) st = .ok (DataType.vals ds, st)
  | [], st => by rw [DataType.trees, transformList_nil, DataType.vals]
  | d :: ds, st => by
    rw [DataType.trees, transformList_cons, dataType_val ln d st, DataType.vals]
    simp only [Except.bind, dataTypes_val ln ds st]
end

/-! ### Decorators -/

theorem deco_val (ln : Bool) (d : Deco) (st : TState) :
    transform ln d.tree st = pureR st (d.val ln) := by
  obtain ⟨name, arg⟩ := d
  unfold Deco.tree Deco.val
  rw [transform_plain look_decorator, transformList_cons, transform_tk]
  simp only [Except.bind]
  cases arg with
  | none =>
    simp only [transformList_nil, bind, Except.bind]
    rfl
  | some e =>
    simp only [transformList_cons, transformList_nil, expr_val ln e st]
    cases e.val ln <;> rfl

theorem decos_list_val (ln : Bool) (ds : List Deco) (st : TState) :
    transformList ln (ds.map Deco.tree) st = pureR st (decoVals ln ds) := by
  induction ds with
  | nil => exact transformList_nil _ _
  | cons d ds ih =>
    rw [List.map_cons, transformList_cons, deco_val, decoVals]
    cases d.val ln with
    | error e => rfl
    | ok v =>
      simp only [pureR_ok, Except.bind, ih, bind]
      cases decoVals ln ds <;> rfl

/-- what the transformer passes on for the decorators -/
def decoArg (ds : List Deco) (vs : List Val) : Val := if ds.isEmpty then .none else .list vs

theorem decos_val (ln : Bool) (ds : List Deco) (st : TState) :
    transform ln (decosTree ds) st = pureR st ((decoVals ln ds).map (decoArg ds)) := by
  unfold decosTree
  cases ds with
  | nil => exact transform_none _ _
  | cons d ds =>
    simp only [List.isEmpty_cons, Bool.false_eq_true, if_false]
    rw [transform_plain look_decorators, decos_list_val]
    cases decoVals ln (d :: ds) <;> rfl

theorem decoVals_length {ln : Bool} {ds : List Deco} {vs : List Val} (h : decoVals ln ds = .ok vs) :
    vs.length = ds.length := by
  induction ds generalizing vs with
  | nil => rw [decoVals] at h; cases h; rfl
  | cons d ds ih =>
    rw [decoVals] at h
    obtain ⟨v, hv, h⟩ := bind_ok' h
    obtain ⟨vs', hvs, h⟩ := bind_ok' h
    cases h
    simp [ih hvs]

theorem orEmpty_deco {ln : Bool} {ds : List Deco} {vs : List Val} (h : decoVals ln ds = .ok vs) :
    orEmptyList (decoArg ds vs) = .list vs := by
  have := decoVals_length h
  cases ds with
  | nil =>
    have : vs = [] := List.length_eq_zero_iff.mp this
    subst this; rfl
  | cons d ds =>
    cases vs with
    | nil => simp at this
    | cons v vs => rfl

/-! ### Entries and the result -/

/-- The value handed to `start` for an entry. -/
def IsEntry (v : Val) (e : Entry) : Prop :=
  ∃ d, v = .dict [(e.sec, .dict d)] ∧ dGet "__name__" d = some (.str e.name) ∧
    dGet "__attrs__" d = some (.dict e.attrs)

theorem isEntry_elementOf (sec name : String) (attrs : List (String × Val)) :
    IsEntry (elementOf sec name attrs) ⟨sec, name, attrs⟩ :=
  ⟨_, rfl, rfl, rfl⟩

theorem dGet_map (ks : List String) (f : String → Val) (k : String) :
    dGet k (ks.map (fun x => (x, f x))) = if k ∈ ks then some (f k) else .none := by
  induction ks with
  | nil => rfl
  | cons a ks ih =>
    simp only [List.map_cons, dGet]
    by_cases h : a = k
    · simp [h]
    · rw [if_neg h, ih]
      have : (k ∈ a :: ks) ↔ k ∈ ks := by
        simp only [List.mem_cons]; exact or_iff_right (fun e => h e.symm)
      simp only [this]

/-- the entries of a section as items -/
def secItems (es : List Entry) (s : String) : List (String × Val) :=
  (es.filter (·.sec = s)).map (fun e => (e.name, .dict e.attrs))

theorem lastWins_concat (ps : List (String × Val)) (p : String × Val) :
    lastWins (ps ++ [p]) = dSet p.1 p.2 (lastWins ps) := by
  rw [← mkDict_eq, mkDict_concat, mkDict_eq]

theorem collect_concat (es : List Entry) (e : Entry) :
    collect (es ++ [e]) = dSet e.sec
      (.dict (dSet e.name (.dict e.attrs) (lastWins (secItems es e.sec)))) (collect es) := by
  have hitems : ∀ s, secItems (es ++ [e]) s =
      if s = e.sec then secItems es s ++ [(e.name, .dict e.attrs)] else secItems es s := by
    intro s
    unfold secItems
    by_cases h : s = e.sec
    · subst h; simp
    · rw [if_neg h]
      have h' : ¬ e.sec = s := fun h' => h h'.symm
      simp [h']
  unfold collect
  show List.map (fun s => (s, Val.dict (lastWins (secItems (es ++ [e]) s)))) _ =
    dSet _ _ (List.map (fun s => (s, Val.dict (lastWins (secItems es s)))) _)
  rw [List.map_append, List.map_cons, List.map_nil, eraseDups_concat]
  split
  · rename_i h
    rw [dSet_map_mem (nodup_eraseDups _) _ _ _ (List.mem_eraseDups.mpr h)]
    refine List.map_congr_left fun x hx => ?_
    rw [hitems]
    split
    · rename_i hx'; subst hx'; rw [lastWins_concat]
    · rfl
  · rename_i h
    rw [dSet_map_not_mem _ _ _ (fun h' => h (List.mem_eraseDups.mp h'))]
    rw [List.map_append, List.map_cons, List.map_nil, hitems, if_pos rfl, lastWins_concat]
    congr 1
    refine List.map_congr_left fun x hx => ?_
    rw [hitems, if_neg]
    rintro rfl
    exact h (List.mem_eraseDups.mp hx)

theorem start_step (es : List Entry) {v : Val} {e : Entry} (h : IsEntry v e) (rest : List Val) :
    startLoop (collect es) (v :: rest) = startLoop (collect (es ++ [e])) rest := by
  obtain ⟨d, rfl, hn, ha⟩ := h
  have hs : startStep (collect es) e.sec (.dict d) = .ok (collect (es ++ [e])) := by
    unfold startStep
    simp only [Val.item, ha, hn, bind, Except.bind]
    have hg : (dGet e.sec (collect es)).getD (.dict []) = .dict (lastWins (secItems es e.sec)) := by
      unfold collect
      rw [dGet_map]
      split
      · rfl
      · rename_i h
        have : secItems es e.sec = [] := by
          unfold secItems
          rw [List.map_eq_nil_iff, List.filter_eq_nil_iff]
          intro x hx hs
          simp only [decide_eq_true_eq] at hs
          exact h (List.mem_eraseDups.mpr (hs ▸ List.mem_map_of_mem hx))
        rw [this]; rfl
    rw [hg, collect_concat]
  conv => lhs; unfold startLoop
  simp only [Val.truthy, List.isEmpty_cons, Bool.not_false, Bool.not_true, Bool.false_eq_true,
    if_false, startItems, hs, bind, Except.bind]

theorem start_none (r : List (String × Val)) (rest : List Val) :
    startLoop r (.none :: rest) = startLoop r rest := by
  conv => lhs; unfold startLoop
  rfl

/-- The values handed over for a list of entries; absent ones are `None`. -/
inductive AreEntries : List Val → List Entry → Prop where
  | nil : AreEntries [] []
  | none {vs es} : AreEntries vs es → AreEntries (.none :: vs) es
  | cons {v e vs es} : IsEntry v e → AreEntries vs es → AreEntries (v :: vs) (e :: es)

theorem AreEntries.append {vs es us fs} (h : AreEntries vs es) (h' : AreEntries us fs) :
    AreEntries (vs ++ us) (es ++ fs) := by
  induction h with
  | nil => exact h'
  | none _ ih => exact .none ih
  | cons he _ ih => exact .cons he ih

theorem start_entries {vs es} (h : AreEntries vs es) (es0 : List Entry) :
    startLoop (collect es0) vs = .ok (collect (es0 ++ es)) := by
  induction h generalizing es0 with
  | nil => simp [startLoop]
  | none _ ih => rw [start_none, ih]
  | cons he _ ih => rw [start_step es0 he, ih]; simp

theorem init_collect (ln : Bool) : startInit ln = collect [defaultScope ln] := by
  cases ln <;> rfl

/-! ### Declarations -/

theorem idents_val (ln : Bool) (x : Option Ident) (st : TState) :
    ∃ v : Val, transform ln (optIdentTree x) st = .ok (v, st) ∧
      (x = .none ∧ v = .none ∨ ∃ a, x = some a ∧ v = .tok "STRING" (txt a.1)) := by
  cases x with
  | none => exact ⟨_, transform_none _ _, .inl ⟨rfl, rfl⟩⟩
  | some a => exact ⟨_, transform_tk _ _ _ _, .inr ⟨a, rfl, rfl⟩⟩

theorem txt_ne_empty {x : List Char} (h : x ≠ []) : (txt x != "") = true := by
  simp only [bne_iff_ne, ne_eq]
  intro e
  have := congrArg String.toList e
  simp at this
  exact h this

theorem ident_ne_nil (a : Ident) : a.1 ≠ [] := by
  obtain ⟨c, cs, h, -⟩ := a.2
  rw [h]; simp

theorem tok_truthy (t : String) (a : Ident) : (Val.tok t (txt a.1)).truthy = true :=
  txt_ne_empty (ident_ne_nil a)

/-- what the transformer passes on for an imported name -/
def importArg (i : ImportItem) : Val :=
  .dict (("name", .str i.name.text) ::
    aliasItem i.alias)

theorem importItem_val (ln : Bool) (i : ImportItem) (st : TState) :
    transform ln i.tree st = .ok (importArg i, st) := by
  obtain ⟨name, al⟩ := i
  unfold ImportItem.tree
  rw [transform_plain look_import_alias, transformList_cons]
  obtain ⟨v, hv, h⟩ := idents_val ln al st
  cases name <;>
  · simp only [transform_tk, Except.bind, transformList_cons, hv, transformList_nil]
    rcases h with ⟨rfl, rfl⟩ | ⟨a, rfl, rfl⟩
    · rfl
    · simp only [cb_import_alias, tok_truthy, if_true]
      rfl

theorem importItems_val (ln : Bool) (is : List ImportItem) (st : TState) :
    transformList ln (is.map ImportItem.tree) st = .ok (is.map importArg, st) := by
  induction is with
  | nil => exact transformList_nil _ _
  | cons i is ih =>
    rw [List.map_cons, transformList_cons, importItem_val]
    simp only [Except.bind, ih]
    rfl

/-- a span with the given lines -/
abbrev spanOf (l : Lines) : Option Span := some ⟨l.1, l.2, 0, 0⟩

theorem addLines_append {ln : Bool} {l : Lines} {attrs : List (String × Val)}
    (h : "__start_line__" ∉ attrs.map Prod.fst) (h' : "__end_line__" ∉ attrs.map Prod.fst) :
    addLines ln (spanOf l) attrs = .ok (attrs ++ lineItems ln l) := by
  cases ln with
  | false => simp [addLines, lineItems]
  | true =>
    unfold addLines lineItems
    simp only [if_true]
    have key : ∀ (k : String) (v : Val) (as : List (String × Val)), k ∉ as.map Prod.fst →
        dSet k v as = as ++ [(k, v)] := by
      intro k v as
      induction as with
      | nil => intro _; rfl
      | cons a as ih =>
        intro hk
        simp only [List.map_cons, List.mem_cons, not_or] at hk
        obtain ⟨x, y⟩ := a
        simp only [dSet]
        rw [if_neg (fun e => hk.1 e.symm), ih hk.2]
        rfl
    rw [key _ _ _ h, key]
    · simp
    · simp only [List.map_append, List.map_cons, List.map_nil, List.mem_append, List.mem_singleton,
        not_or]
      exact ⟨h', by decide⟩

theorem importEntry_eq (ln : Bool) (l : Lines) (b : List Char) (i : ImportItem) :
    ∃ v, importEntry ln (spanOf l) (.tok "QUOTED_INTERPOLATION" (txt (quote b))) (importArg i) = .ok v ∧
      IsEntry v (i.entry ln l b) := by
  obtain ⟨name, al⟩ := i
  have hget : ∀ x, Val.item (.dict (("name", .str x) :: aliasItem al)) "name" = .ok (.str x) :=
    fun _ => rfl
  unfold importEntry importArg
  simp only [string_quoted, bind, Except.bind, hget]
  unfold aliasItem
  cases al with
  | none =>
    have := addLines_append (ln := ln) (l := l) (attrs := [("file_path", Val.str (txt b))])
      (by attrKeys) (by attrKeys)
    have hg : dGet "alias" [("name", Val.str name.text)] = .none := rfl
    simp only [Val.get, hg, Option.getD_none, Val.truthy, Bool.false_eq_true, if_false, this]
    exact ⟨_, rfl, isEntry_elementOf _ _ _⟩
  | some a =>
    have := addLines_append (ln := ln) (l := l)
      (attrs := [("file_path", Val.str (txt b)), ("alias", Val.str (txt a.1))])
      (by attrKeys) (by attrKeys)
    have ht : (Val.str (txt a.1)).truthy = true := txt_ne_empty (ident_ne_nil a)
    have hg : dGet "alias" [("name", Val.str name.text), ("alias", Val.str (txt a.1))] =
      some (.str (txt a.1)) := rfl
    simp only [Val.get, hg, Option.getD_some, ht, if_true, Val.pyStr, this]
    exact ⟨_, rfl, ⟨_, rfl, rfl, rfl⟩⟩

theorem importEntries_eq (ln : Bool) (l : Lines) (b : List Char) (is : List ImportItem) :
    ∃ vs, mapE (importEntry ln (spanOf l) (.tok "QUOTED_INTERPOLATION" (txt (quote b))))
        (is.map importArg) = .ok vs ∧
      AreEntries vs (is.map (ImportItem.entry ln l b)) := by
  induction is with
  | nil => exact ⟨[], rfl, .nil⟩
  | cons i is ih =>
    obtain ⟨v, hv, he⟩ := importEntry_eq ln l b i
    obtain ⟨vs, hvs, hes⟩ := ih
    refine ⟨v :: vs, ?_, .cons he hes⟩
    simp only [List.map_cons, mapE, hv, hvs, bind, Except.bind]

/-- What transforming a declaration does, in terms of its contribution. -/
def Yields (ln : Bool) (t : Tree) (st : TState) (r : Except VErr Out) : Prop :=
  match r with
  | .error e => transform ln t st = .error e
  | .ok o => ∃ v is cs, transform ln t st = .ok (v, ⟨st.imports ++ is, st.children ++ cs⟩) ∧
      AreEntries [v] o.own ∧ AreEntries is o.imports ∧ AreEntries cs o.children

theorem yields_own {ln : Bool} {t : Tree} {st : TState} {v : Val} {e : Entry}
    (h : transform ln t st = .ok (v, st)) (he : IsEntry v e) : Yields ln t st (.ok ⟨[e], [], []⟩) :=
  ⟨v, [], [], by simpa using h, .cons he .nil, .nil, .nil⟩

theorem scopes_contains (x : String) : validTargetScopes.contains x = true ↔
    x ∈ ["resourceGroup", "subscription", "managementGroup", "tenant"] := by
  simp [validTargetScopes]

theorem config_dict {ln : Bool} {c : Config} {v : Val} (h : c.val ln = .ok v) : ∃ d, v = .dict d := by
  cases c with
  | obj is => rw [Config.val] at h; obtain ⟨_, _, h⟩ := bind_ok' h; cases h; exact ⟨_, rfl⟩
  | loop l =>
    rw [Config.val] at h
    cases l
    rw [Loop.val] at h
    obtain ⟨_, _, h⟩ := bind_ok' h; obtain ⟨_, _, h⟩ := bind_ok' h
    obtain ⟨_, _, h⟩ := bind_ok' h; obtain ⟨_, _, h⟩ := bind_ok' h
    cases h; exact ⟨_, rfl⟩
  | cond c e =>
    rw [Config.val] at h
    obtain ⟨_, _, h⟩ := bind_ok' h; obtain ⟨_, _, h⟩ := bind_ok' h
    cases h; exact ⟨_, rfl⟩

theorem dGet_dSet_self (k : String) (v : Val) (d : List (String × Val)) :
    dGet k (dSet k v d) = some v := by
  induction d with
  | nil => simp [dSet, dGet]
  | cons p d ih =>
    obtain ⟨a, b⟩ := p
    simp only [dSet]
    split
    · simp [dGet]
    · rename_i h; simp [dGet, h, ih]

theorem dGet_dSet_ne {k k' : String} (h : k' ≠ k) (v : Val) (d : List (String × Val)) :
    dGet k' (dSet k v d) = dGet k' d := by
  induction d with
  | nil => simp [dSet, dGet, Ne.symm h]
  | cons p d ih =>
    obtain ⟨a, b⟩ := p
    simp only [dSet]
    split
    · rename_i hk; subst hk; simp [dGet, Ne.symm h]
    · simp only [dGet, ih]

theorem setItem_ok {v x : Val} {k : String} {r : Val} (h : v.setItem k x = .ok r) :
    ∃ d, v = .dict d ∧ r = .dict (dSet k x d) := by
  cases v <;> simp [Val.setItem] at h
  exact ⟨_, rfl, h.symm⟩

/-- What `adoptChild` returns: dictionaries, and a name in the child. -/
theorem adoptChild_ok {pn pt pa child c a nn cfg : Val}
    (h : adoptChild pn pt pa child = .ok (c, a, nn, cfg)) :
    ∃ dc da s, c = .dict dc ∧ a = .dict da ∧ nn = .str s ∧ dGet "__name__" dc = some (.str s) := by
  unfold adoptChild at h
  obtain ⟨cname, hcn, h⟩ := bind_ok' h
  obtain ⟨c1, hc1, h⟩ := bind_ok' h
  obtain ⟨a0, ha0, h⟩ := bind_ok' h
  obtain ⟨ct, hct, h⟩ := bind_ok' h
  obtain ⟨a1, ha1, h⟩ := bind_ok' h
  obtain ⟨a2, ha2, h⟩ := bind_ok' h
  obtain ⟨cf, hcf, h⟩ := bind_ok' h
  obtain ⟨dc, rfl, rfl⟩ := setItem_ok hc1
  obtain ⟨d2, -, rfl⟩ := setItem_ok ha2
  cases cf with
  | dict cfd =>
    simp only at h
    split at h
    · simp only [Except.ok.injEq, Prod.mk.injEq] at h
      obtain ⟨rfl, rfl, rfl, rfl⟩ := h
      exact ⟨_, _, _, rfl, rfl, rfl, dGet_dSet_self _ _ _⟩
    · simp at h
  | _ => simp at h

theorem isEntry_child {v : Val} {dc da : List (String × Val)} {n : String}
    (h : v = .dict [("resources", .dict dc)]) (hn : dGet "__name__" dc = some (.str n))
    (ha : dGet "__attrs__" dc = some (.dict da)) : IsEntry v (childEntry v) := by
  subst h
  simp only [childEntry, hn, ha]
  exact ⟨dc, rfl, hn, ha⟩

theorem processChild_entries (n : Nat) : ∀ {pn pt pa : Val} {cfg cfg' : List (String × Val)}
    {cs : List Val}, processChild n pn pt pa cfg = .ok (cfg', cs) →
    AreEntries cs (cs.map childEntry) := by
  induction n with
  | zero =>
    intro pn pt pa cfg cfg' cs h
    rw [processChild] at h; cases h; exact .nil
  | succ n ih =>
    intro pn pt pa cfg cfg' cs h
    rw [processChild] at h
    split at h
    · cases h; exact .nil
    · obtain ⟨⟨c, a, nn, cf⟩, had, h⟩ := bind_ok' h
      simp only at h
      obtain ⟨dc, da, s, rfl, rfl, rfl, hn⟩ := adoptChild_ok had
      split at h
      · obtain ⟨ct, hct, h⟩ := bind_ok' h
        obtain ⟨⟨cfg2, more⟩, hp, h⟩ := bind_ok' h
        simp only at h
        obtain ⟨a', ha', h⟩ := bind_ok' h
        obtain ⟨c', hc', h⟩ := bind_ok' h
        cases h
        obtain ⟨_, e, rfl⟩ := setItem_ok ha'
        obtain ⟨_, e', rfl⟩ := setItem_ok hc'
        cases e'
        simp only [List.map_cons]
        refine .cons (isEntry_child (n := s) rfl ?_ (dGet_dSet_self _ _ _)) (ih hp)
        rw [dGet_dSet_ne (by decide), hn]
      · simp at h

theorem type_api_eq (t : String) (x : List Char) : cb_type_api_pair [Val.tok t (txt (quote x))] =
    (typeApi x).map (fun p => D [("type", .str p.1), ("api_version", .str p.2)]) := by
  have hs : sliceBoth 1 (Val.tok t (txt (quote x))).pyStr = txt x := sliceBoth_quote x
  unfold cb_type_api_pair typeApi
  simp only [idx, List.getElem?_cons_zero, bind, Except.bind, hs]
  generalize splitOn '@' (txt x) = l
  cases l with
  | nil => rfl
  | cons a l =>
    cases l with
    | nil => rfl
    | cons b l => cases l <;> rfl

theorem module_path_eq (t : String) (x : List Char) : cb_module_path [Val.tok t (txt (quote x))] =
    classifyModulePath (txt x) := by
  have hs : sliceBoth 1 (Val.tok t (txt (quote x))).pyStr = txt x := sliceBoth_quote x
  unfold cb_module_path
  simp only [idx, List.getElem?_cons_zero, bind, Except.bind, hs]

theorem typeValue_val (ln : Bool) (e : Expr) (es : List Expr) (st : TState) :
    transform ln (typeValueTree e es) st = pureR st (typeVal ln e es) := by
  unfold typeValueTree typeVal
  split
  · exact expr_val ln e st
  · rw [transform_plain look_type_value, transformList_cons, expr_val ln e st]
    cases e.val ln with
    | error e => rfl
    | ok x =>
      simp only [pureR_ok, Except.bind, exprs_val ln es st]
      cases Expr.vals ln es <;> rfl

theorem isEntry_of {v : Val} {sec name : String} {attrs : List (String × Val)}
    (h : v = elementOf sec name attrs) : IsEntry v ⟨sec, name, attrs⟩ := h ▸ isEntry_elementOf _ _ _

theorem loopOrExpr_val (ln : Bool) (v : LoopOrExpr) (st : TState) :
    transform ln v.tree st = pureR st (v.val ln) := by
  cases v with
  | expr e => exact expr_val ln e st
  | loop l => exact loop_val ln l st

theorem decl_meta {d : String} {f} (h : callbacks.lookup d = some (withMeta f)) (ln ks l st) :
    transform ln (ndl d ks l) st = (transformList ln ks st).bind (fun r =>
      pureR r.2 (inRule d (f ln (spanOf l) r.1))) := by
  unfold ndl
  rw [transform_node _ _ _ _ _ h]
  congr 1
  funext r
  simp only [callR, withMeta]
  cases f ln (spanOf l) r.1 <;> rfl

theorem params_val (ln : Bool) (ps : List (Ident × DataType)) (st : TState) :
    ∃ vs, transformList ln (paramTrees ps) st = .ok (vs, st) ∧
      argPairs vs = .ok (ps.map (fun p => (txt p.1.1, p.2.val))) := by
  induction ps with
  | nil => exact ⟨[], transformList_nil _ _, rfl⟩
  | cons p ps ih =>
    obtain ⟨x, d⟩ := p
    obtain ⟨vs, h1, h2⟩ := ih
    refine ⟨.tok "STRING" (txt x.1) :: d.val :: vs, ?_, ?_⟩
    · rw [paramTrees, transformList_cons, transform_tk]
      simp only [Except.bind, transformList_cons, dataType_val, h1]
      rfl
    · simp only [argPairs, h2]; rfl

theorem dataType_truthy (d : DataType) : d.val.truthy = true := by
  cases d with
  | mk b n =>
    rw [DataType.val]
    cases n with
    | succ n => rfl
    | zero =>
      rw [arrayOf]
      cases b with
      | name x => rw [BaseType.val]; exact txt_ne_empty (ident_ne_nil x)
      | union d1 d2 ds => rw [BaseType.val]; rfl

theorem dSet_ne_nil (k : String) (v : Val) (d : List (String × Val)) : dSet k v d ≠ [] := by
  cases d with
  | nil => simp [dSet]
  | cons p d => obtain ⟨a, b⟩ := p; simp only [dSet]; split <;> simp

theorem lastWins_isEmpty (ps : List (String × Val)) : (lastWins ps).isEmpty = ps.isEmpty := by
  cases ps using List.reverseRecOn with
  | nil => rfl
  | append_singleton ps p =>
    rw [lastWins_concat]
    have h1 := dSet_ne_nil p.1 p.2 (lastWins ps)
    cases h : dSet p.1 p.2 (lastWins ps) with
    | nil => exact absurd h h1
    | cons a b => simp

/-- A child extraction does not depend on the type and version passed when there is no child. -/
theorem processChild_nochild {n : Nat} {cfg : List (String × Val)} (pn pt pa : Val)
    (h : dGet "__child_resource__" cfg = .none) : processChild n pn pt pa cfg = .ok (cfg, []) := by
  cases n with
  | zero => rfl
  | succ n => rw [processChild, h]

theorem yields_scope (ln : Bool) (l : Lines) (b : List Char)
    (st : TState) : Yields ln (Decl.tree l (.scope b)) st (Decl.out ln l (.scope b)) := by
  rw [Decl.tree, Decl.out]
  have ht := decl_meta look_scope ln [tk T.QUOTED_INTERPOLATION (quote b)] l st
  rw [transformList_cons, transform_tk] at ht
  simp only [Except.bind, transformList_nil] at ht
  have hcb : ∀ t, cb_scope ln (spanOf l) [Val.tok t (txt (quote b))] =
      if !validTargetScopes.contains (txt b) then
        .error (.valueError ("target scope is invalid: " ++ txt b))
      else (addLines ln (spanOf l) [("value", .str (txt b))]).bind
          (fun a => .ok (elementOf "globals" "scope" a)) := by
    intro t
    have : cb_scope ln (spanOf l) [Val.tok t (txt (quote b))] =
      if !validTargetScopes.contains (sliceBoth 1 (String.ofList (quote b))) then
        .error (.valueError ("target scope is invalid: " ++ sliceBoth 1 (String.ofList (quote b))))
      else (addLines ln (spanOf l) [("value", .str (sliceBoth 1 (String.ofList (quote b))))]).bind
        (fun a => .ok (elementOf "globals" "scope" a)) := rfl
    rw [this, sliceBoth_quote]
  rw [hcb] at ht
  split
  · rename_i h
    rw [(scopes_contains _).mpr h, addLines_append (by attrKeys) (by attrKeys)] at ht
    exact yields_own ht (isEntry_elementOf _ _ _)
  · rename_i h
    have : validTargetScopes.contains (txt b) = false := by
      rw [Bool.eq_false_iff]; exact fun h' => h ((scopes_contains _).mp h')
    rw [this] at ht
    exact ht

theorem yields_importNs (ln : Bool) (l : Lines) (b : List Char)
    (st : TState) : Yields ln (Decl.tree l (.importNs b)) st (Decl.out ln l (.importNs b)) := by
  rw [Decl.tree, Decl.out]
  refine ⟨.none, _, [], ?_, .none .nil, .cons (isEntry_elementOf "imports" (txt b) []) .nil, .nil⟩
  unfold ndl
  rw [transform_node _ _ _ _ _ look_import, transformList_cons, transform_tk]
  simp only [Except.bind, transformList_nil, callR, name_QI, cb_custom_import, string_quoted, bind,
    List.append_nil]
  rfl

theorem yields_importFrom (ln : Bool) (l : Lines) (i : ImportItem) (is : List ImportItem) (b : List Char)
    (st : TState) : Yields ln (Decl.tree l (.importFrom i is b)) st (Decl.out ln l (.importFrom i is b)) := by
  rw [Decl.tree, Decl.out]
  obtain ⟨vs, hvs, hes⟩ := importEntries_eq ln l b (i :: is)
  refine ⟨.none, vs, [], ?_, .none .nil, hes, .nil⟩
  unfold ndl
  rw [transform_node _ _ _ _ _ look_import, transformList_cons, importItem_val]
  simp only [Except.bind, transformList_append, importItems_val, transformList_cons, transform_tk,
    transformList_nil, callR, name_QI]
  have : cb_custom_import ln (spanOf l) (importArg i :: (is.map importArg ++
      [.tok "QUOTED_INTERPOLATION" (txt (quote b))])) st =
      (mapE (importEntry ln (spanOf l) (.tok "QUOTED_INTERPOLATION" (txt (quote b))))
        ((i :: is).map importArg)).bind (fun es => .ok (.none, { st with imports := st.imports ++ es })) := by
    unfold cb_custom_import
    have hr : (importArg i :: (is.map importArg ++
      [Val.tok "QUOTED_INTERPOLATION" (txt (quote b))])).reverse =
        .tok "QUOTED_INTERPOLATION" (txt (quote b)) :: ((i :: is).map importArg).reverse := by
      simp
    have hne : ∀ a, importArg i :: (is.map importArg ++
      [Val.tok "QUOTED_INTERPOLATION" (txt (quote b))]) ≠ [a] := by
      intro a h; simp at h
    split
    · rename_i h; exact absurd h (hne _)
    · simp only [hr, List.reverse_reverse]; rfl
  rw [this, hvs]
  simp only [Except.bind, List.append_nil]

theorem yields_extension_aux (ln : Bool) (l : Lines) (name : Ident) (ct : Tree)
    (cv : Except VErr Val) (c : Except VErr (List (String × Val)))
    (al : Option Ident) (st : TState) (hct : transform ln ct st = pureR st cv)
    (hc : c = cv.map (fun v => if v.truthy then [("config", v)] else [])) :
    Yields ln (ndl "extension" [tk T.STRING name.1, ct, optIdentTree al] l) st
      (c.bind (fun c => .ok ⟨[⟨"extensions", txt name.1,
        c ++ (aliasItem al ++ lineItems ln l)⟩], [], []⟩)) := by
  obtain ⟨va, hva, ha⟩ := idents_val ln al st
  have ht := decl_meta look_extension ln [tk T.STRING name.1, ct, optIdentTree al] l st
  rw [transformList_cons, transform_tk] at ht
  simp only [Except.bind, transformList_cons, hct] at ht
  subst hc
  cases cv with
  | error e => exact ht
  | ok v =>
    simp only [pureR_ok, hva, transformList_nil, cb_extension] at ht
    have e : (if va.truthy then [("alias", Val.str va.pyStr)] else []) =
        aliasItem al := by
      rcases ha with ⟨rfl, rfl⟩ | ⟨a, rfl, rfl⟩
      · rfl
      · simp only [tok_truthy, if_true, Val.pyStr]; rfl
    rw [e, addLines_append, List.append_assoc] at ht
    · exact yields_own ht (isEntry_elementOf _ _ _)
    · cases al <;> split <;> simp [aliasItem]
    · cases al <;> split <;> simp [aliasItem]

theorem yields_extension (ln : Bool) (l : Lines) (name : Ident) (config : Option (List Item))
    (al : Option Ident) (st : TState) :
    Yields ln (Decl.tree l (.extension name config al)) st (Decl.out ln l (.extension name config al)) := by
  cases config with
  | none =>
    exact yields_extension_aux ln l name .none (.ok .none) (.ok []) al st (transform_none _ _) rfl
  | some is =>
    refine yields_extension_aux ln l name (nd "object" (Item.trees is))
      ((Item.vals ln is).map (fun ps => .dict (lastWins ps))) _ al st ?_ ?_
    · rw [transform_plain look_object, items_val ln is st]
      cases Item.vals ln is with
      | error e => rfl
      | ok ps => simp only [Except.map, pureR_ok, Except.bind, pairVals, cb_object_eq, inRule]
    · unfold configItem; simp only [bind, Except.bind]
      cases Item.vals ln is with
      | error e => rfl
      | ok ps =>
        simp only [Except.map, Val.truthy, lastWins_isEmpty]
        cases ps.isEmpty <;> rfl

theorem yields_metadata (ln : Bool) (l : Lines) (name : Ident) (b : List Char)
    (st : TState) : Yields ln (Decl.tree l (.metadata name b)) st (Decl.out ln l (.metadata name b)) := by
  rw [Decl.tree, Decl.out]
  have ht := decl_meta look_metadata ln [tk T.STRING name.1,
    nd "string" [tk T.QUOTED_INTERPOLATION (quote b)]] l st
  have hs : transform ln (nd "string" [tk T.QUOTED_INTERPOLATION (quote b)]) st =
    .ok (.str (txt b), st) := expr_val ln (.str b) st
  simp only [transformList_cons, transform_tk, Except.bind, hs, transformList_nil, cb_metadata] at ht
  rw [addLines_append (by attrKeys) (by attrKeys)] at ht
  exact yields_own ht (isEntry_elementOf _ _ _)

theorem yields_param (ln : Bool) (l : Lines) (ds : List Deco) (name : Ident) (type : DataType) (default : Option Expr)
    (st : TState) : Yields ln (Decl.tree l (.param ds name type default)) st (Decl.out ln l (.param ds name type default)) := by
  rw [Decl.tree, Decl.out]
  have ht := decl_meta look_param ln [decosTree ds, tk T.STRING name.1, type.tree,
    Expr.optTree default] l st
  rw [transformList_cons, decos_val] at ht
  cases hd : decoVals ln ds with
  | error e => rw [hd] at ht; exact ht
  | ok vs =>
    rw [hd] at ht
    simp only [Except.map, pureR_ok, Except.bind, transformList_cons, transform_tk, dataType_val,
      optVal_val, transformList_nil] at ht
    simp only [bind, Except.bind]
    cases hv : Expr.optVal ln default with
    | error e => rw [hv] at ht; exact ht
    | ok v =>
      rw [hv] at ht
      simp only [pureR_ok, cb_param, orEmpty_deco hd] at ht
      rw [addLines_append (by attrKeys) (by attrKeys)] at ht
      exact yields_own ht (isEntry_elementOf _ _ _)

theorem yields_var_aux (ln : Bool) (l : Lines) (ds : List Deco) (name : Ident) (tt : Tree)
    (tv : Val) (items : List (String × Val)) (v : LoopOrExpr) (st : TState)
    (htt : transform ln tt st = .ok (tv, st))
    (hi : (if tv.truthy then [("type", tv)] else []) = items) :
    Yields ln (ndl "var" [decosTree ds, tk T.STRING name.1, tt, v.tree] l) st
      (do
        let vs ← decoVals ln ds
        let v ← v.val ln
        .ok ⟨[⟨"variables", txt name.1, [("decorators", .list vs), ("value", v)] ++
          (items ++ lineItems ln l)⟩], [], []⟩) := by
  have ht := decl_meta look_var ln [decosTree ds, tk T.STRING name.1, tt, v.tree] l st
  rw [transformList_cons, decos_val] at ht
  cases hd : decoVals ln ds with
  | error e => rw [hd] at ht; exact ht
  | ok vs =>
    rw [hd] at ht
    simp only [Except.map, pureR_ok, Except.bind, transformList_cons, transform_tk, htt,
      loopOrExpr_val, transformList_nil] at ht
    simp only [bind, Except.bind]
    cases hv : v.val ln with
    | error e => rw [hv] at ht; exact ht
    | ok v =>
      rw [hv] at ht
      simp only [pureR_ok, cb_var, orEmpty_deco hd, hi] at ht
      rw [addLines_append, List.append_assoc] at ht
      · exact yields_own ht (isEntry_elementOf _ _ _)
      · subst hi; split <;> simp
      · subst hi; split <;> simp

theorem yields_var (ln : Bool) (l : Lines) (ds : List Deco) (name : Ident)
    (type : Option DataType) (v : LoopOrExpr) (st : TState) :
    Yields ln (Decl.tree l (.var ds name type v)) st (Decl.out ln l (.var ds name type v)) := by
  cases type with
  | none => exact yields_var_aux ln l ds name .none .none [] v st (transform_none _ _) rfl
  | some d =>
    exact yields_var_aux ln l ds name d.tree d.val [("type", d.val)] v st (dataType_val ln d st)
      (by rw [dataType_truthy]; rfl)

theorem yields_output (ln : Bool) (l : Lines) (ds : List Deco) (name : Ident) (type : DataType) (v : LoopOrExpr)
    (st : TState) : Yields ln (Decl.tree l (.output ds name type v)) st (Decl.out ln l (.output ds name type v)) := by
  rw [Decl.tree, Decl.out]
  have ht := decl_meta look_output ln [decosTree ds, tk T.STRING name.1, type.tree, v.tree] l st
  rw [transformList_cons, decos_val] at ht
  cases hd : decoVals ln ds with
  | error e => rw [hd] at ht; exact ht
  | ok vs =>
    rw [hd] at ht
    simp only [Except.map, pureR_ok, Except.bind, transformList_cons, transform_tk, dataType_val,
      loopOrExpr_val, transformList_nil] at ht
    simp only [bind, Except.bind]
    cases hv : v.val ln with
    | error e => rw [hv] at ht; exact ht
    | ok v =>
      rw [hv] at ht
      simp only [pureR_ok, cb_output, orEmpty_deco hd] at ht
      rw [addLines_append (by attrKeys) (by attrKeys)] at ht
      exact yields_own ht (isEntry_elementOf _ _ _)

theorem yields_resource (ln : Bool) (l : Lines) (ds : List Deco) (name : Ident) (ta : List Char) (existing : Bool) (c : Config)
    (st : TState) : Yields ln (Decl.tree l (.resource ds name ta existing c)) st (Decl.out ln l (.resource ds name ta existing c)) := by
  rw [Decl.tree, Decl.out]
  have ht := transform_node ln "resource" [decosTree ds, tk T.STRING name.1,
    nd "type_api_pair" [tk T.QUOTED_INTERPOLATION (quote ta)], existingTree existing,
    c.tree] (spanOf l) st look_resource
  rw [transformList_cons, decos_val] at ht
  unfold ndl
  cases hd : decoVals ln ds with
  | error e => rw [hd] at ht; exact ht
  | ok vs =>
    rw [hd] at ht
    simp only [Except.map, pureR_ok, Except.bind, transformList_cons, transform_tk,
      transform_plain look_type_api, transformList_nil, type_api_eq] at ht
    simp only [bind, Except.bind]
    cases hsp : typeApi ta with
    | error e => rw [hsp] at ht; exact ht
    | ok p =>
      obtain ⟨t, api⟩ := p
      rw [hsp] at ht
      obtain ⟨ve, hve, htr⟩ := existing_val ln existing st
      simp only [Except.map, inRule, pureR_ok, hve, config_val ln c st] at ht
      simp only [inRule]
      cases hc : c.val ln with
      | error e => rw [hc] at ht; exact ht
      | ok v =>
        obtain ⟨cfg, rfl⟩ := config_dict hc
        rw [hc] at ht
        simp only [pureR_ok, callR] at ht
        have hcb : cb_resource ln (spanOf l) [decoArg ds vs, Val.tok (termName T.STRING) (txt name.1),
            D [("type", .str t), ("api_version", .str api)], ve, .dict cfg] st =
            (resourceVal (txt name.1) t api (.dict cfg)).bind (fun r => .ok
              (elementOf "resources" (txt name.1)
                ([("decorators", .list vs), ("type", .str t), ("api_version", .str api),
                  ("existing", .bool existing), ("config", .dict r.1)] ++ lineItems ln l),
                { st with children := st.children ++ r.2 })) := by
          have hl : ∀ cfg', addLines ln (spanOf l) [("decorators", .list vs), ("type", .str t),
              ("api_version", .str api), ("existing", .bool existing), ("config", .dict cfg')] =
              .ok ([("decorators", .list vs), ("type", .str t),
              ("api_version", .str api), ("existing", .bool existing), ("config", .dict cfg')] ++
                lineItems ln l) := fun _ => addLines_append (by attrKeys) (by attrKeys)
          have ht1 : (D [("type", .str t), ("api_version", .str api)]).item "type" =
            .ok (.str t) := rfl
          have ht2 : (D [("type", .str t), ("api_version", .str api)]).item "api_version" =
            .ok (.str api) := rfl
          unfold cb_resource resourceVal
          simp only [orEmpty_deco hd, htr, ht1, ht2, Val.pyStr, bind, Except.bind]
          cases hg : dGet "__child_resource__" cfg with
          | none =>
            simp only [processChild_nochild _ _ _ hg, hl]
          | some ch =>
            simp only
            cases processChild _ _ _ _ cfg with
            | error e => rfl
            | ok r => simp only [hl]
        rw [hcb] at ht
        simp only
        cases hr : resourceVal (txt name.1) t api (.dict cfg) with
        | error e => rw [hr] at ht; exact ht
        | ok r =>
          obtain ⟨cfg', more⟩ := r
          rw [hr] at ht
          refine ⟨_, [], more, ?_, .cons (isEntry_elementOf _ _ _) .nil, .nil, ?_⟩
          · rw [ht]
            simp only [Except.bind, List.append_nil]
          · exact processChild_entries _ hr

theorem yields_module (ln : Bool) (l : Lines) (ds : List Deco) (name : Ident) (path : List Char) (c : Config)
    (st : TState) : Yields ln (Decl.tree l (.module ds name path c)) st (Decl.out ln l (.module ds name path c)) := by
  rw [Decl.tree, Decl.out]
  have ht := decl_meta look_module ln [decosTree ds, tk T.STRING name.1,
    nd "module_path" [tk T.QUOTED_INTERPOLATION (quote path)], c.tree] l st
  rw [transformList_cons, decos_val] at ht
  cases hd : decoVals ln ds with
  | error e => rw [hd] at ht; exact ht
  | ok vs =>
    rw [hd] at ht
    simp only [Except.map, pureR_ok, Except.bind, transformList_cons, transform_tk,
      transform_plain look_module_path, transformList_nil, module_path_eq] at ht
    simp only [bind, Except.bind]
    cases hm : classifyModulePath (txt path) with
    | error e => rw [hm] at ht; exact ht
    | ok p =>
      rw [hm] at ht
      simp only [inRule, pureR_ok, config_val ln c st] at ht
      simp only [inRule]
      cases hc : c.val ln with
      | error e => rw [hc] at ht; exact ht
      | ok v =>
        rw [hc] at ht
        simp only [pureR_ok, cb_module, bind, Except.bind, orEmpty_deco hd] at ht
        cases h1 : p.item "type" with
        | error e => rw [h1] at ht; exact ht
        | ok t =>
          rw [h1] at ht
          cases h2 : p.item "detail" with
          | error e => rw [h2] at ht; exact ht
          | ok d =>
            rw [h2] at ht
            simp only at ht
            rw [addLines_append (by attrKeys) (by attrKeys)] at ht
            exact yields_own ht (isEntry_elementOf _ _ _)

theorem yields_typ (ln : Bool) (l : Lines) (ds : List Deco) (name : Ident) (e : Expr) (es : List Expr)
    (st : TState) : Yields ln (Decl.tree l (.typ ds name e es)) st (Decl.out ln l (.typ ds name e es)) := by
  rw [Decl.tree, Decl.out]
  have ht := decl_meta look_custom_type ln [decosTree ds, tk T.STRING name.1,
    typeValueTree e es] l st
  rw [transformList_cons, decos_val] at ht
  cases hd : decoVals ln ds with
  | error e => rw [hd] at ht; exact ht
  | ok vs =>
    rw [hd] at ht
    simp only [Except.map, pureR_ok, Except.bind, transformList_cons, transform_tk, typeValue_val,
      transformList_nil] at ht
    simp only [bind, Except.bind]
    cases hv : typeVal ln e es with
    | error e => rw [hv] at ht; exact ht
    | ok v =>
      rw [hv] at ht
      simp only [pureR_ok, cb_custom_type, orEmpty_deco hd] at ht
      rw [addLines_append (by attrKeys) (by attrKeys)] at ht
      exact yields_own ht (isEntry_elementOf _ _ _)

theorem yields_func (ln : Bool) (l : Lines) (ds : List Deco) (name : Ident) (params : List (Ident × DataType)) (ret : DataType) (body : Expr)
    (st : TState) : Yields ln (Decl.tree l (.func ds name params ret body)) st (Decl.out ln l (.func ds name params ret body)) := by
  rw [Decl.tree, Decl.out]
  have ht := decl_meta look_custom_func ln (decosTree ds :: tk T.STRING name.1 ::
    (paramTrees params ++ [ret.tree, body.tree])) l st
  rw [transformList_cons, decos_val] at ht
  cases hd : decoVals ln ds with
  | error e => rw [hd] at ht; exact ht
  | ok vs =>
    rw [hd] at ht
    obtain ⟨ps, hps, hpairs⟩ := params_val ln params st
    simp only [Except.map, pureR_ok, Except.bind, transformList_cons, transform_tk,
      transformList_append, hps, dataType_val, expr_val ln body st, transformList_nil] at ht
    simp only [bind, Except.bind]
    cases hv : body.val ln with
    | error e => rw [hv] at ht; exact ht
    | ok v =>
      rw [hv] at ht
      simp only [pureR_ok, cb_custom_func, List.reverse_append, List.reverse_cons, List.reverse_nil,
        List.nil_append, List.cons_append, List.reverse_reverse, hpairs, bind, Except.bind,
        orEmpty_deco hd, mkDict_eq] at ht
      rw [addLines_append (by attrKeys) (by attrKeys)] at ht
      exact yields_own ht (isEntry_elementOf _ _ _)

theorem decl_yields (ln : Bool) (l : Lines) (d : Decl) (st : TState) :
    Yields ln (d.tree l) st (d.out ln l) := by
  cases d with
  | scope b => exact yields_scope ..
  | importNs b => exact yields_importNs ..
  | importFrom i is b => exact yields_importFrom ..
  | extension name config al => exact yields_extension ..
  | metadata name b => exact yields_metadata ..
  | param ds name type default => exact yields_param ..
  | var ds name type v => exact yields_var ..
  | output ds name type v => exact yields_output ..
  | resource ds name ta existing c => exact yields_resource ..
  | module ds name path c => exact yields_module ..
  | typ ds name e es => exact yields_typ ..
  | func ds name params ret body => exact yields_func ..

/-! ### Programs -/

theorem decls_val (ln : Bool) (p : Program) (st : TState) :
    match p.outs ln with
    | .error e => transformList ln (p.map (fun d => d.2.tree d.1)) st = .error e
    | .ok os => ∃ vs is cs, transformList ln (p.map (fun d => d.2.tree d.1)) st =
        .ok (vs, ⟨st.imports ++ is, st.children ++ cs⟩) ∧
        AreEntries vs (os.flatMap Out.own) ∧ AreEntries is (os.flatMap Out.imports) ∧
        AreEntries cs (os.flatMap Out.children) := by
  induction p generalizing st with
  | nil =>
    simp only [Program.outs, List.map_nil, List.flatMap_nil]
    exact ⟨[], [], [], by simp [transformList_nil], .nil, .nil, .nil⟩
  | cons x p ih =>
    obtain ⟨l, d⟩ := x
    have hy := decl_yields ln l d st
    rw [Program.outs]
    simp only [List.map_cons, bind, Except.bind]
    rw [transformList_cons]
    cases ho : d.out ln l with
    | error e =>
      rw [ho] at hy
      simp only [Yields] at hy
      rw [hy]; rfl
    | ok o =>
      rw [ho] at hy
      obtain ⟨v, is, cs, ht, h1, h2, h3⟩ := hy
      rw [ht]
      simp only [Except.bind]
      have ih := ih ⟨st.imports ++ is, st.children ++ cs⟩
      cases hp : Program.outs ln p with
      | error e =>
        rw [hp] at ih
        simp only at ih ⊢
        rw [ih]
      | ok os =>
        rw [hp] at ih
        obtain ⟨vs, is', cs', ht', h1', h2', h3'⟩ := ih
        simp only
        refine ⟨v :: vs, is ++ is', cs ++ cs', ?_, ?_, ?_, ?_⟩
        · rw [ht']; simp
        · simpa using h1.append h1'
        · simpa using h2.append h2'
        · simpa using h3.append h3'

/-- The transformer computes the meaning of a program. -/
theorem program_val (ln : Bool) (p : Program) : bicepToJson ln p.tree = p.val ln := by
  unfold bicepToJson Program.tree Program.val nd
  have h := decls_val ln p ⟨[], []⟩
  rw [transform_node _ _ _ _ _ look_start]
  cases ho : p.outs ln with
  | error e =>
    rw [ho] at h
    simp only at h
    rw [h]; rfl
  | ok os =>
    rw [ho] at h
    obtain ⟨vs, is, cs, ht, h1, h2, h3⟩ := h
    rw [ht]
    simp only [Except.bind, callR, cb_start, List.nil_append, init_collect,
      start_entries ((h1.append h2).append h3), bind]
    rfl

end Pycep
