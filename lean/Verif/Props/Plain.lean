import Verif.Proofs.Json
/-
C09 and C36: the result is plain data, without internal markers.
-/
namespace Pycep

mutual
theorem keys_expr : (e : Expr) → e.Keys (fun _ => True)
  | .null | .tru | .fls | .int _ | .ident _ | .str _ | .multi _ => by rw [Expr.Keys]; trivial
  | .array es => by rw [Expr.Keys]; exact keys_exprs es
  | .object is => by rw [Expr.Keys]; exact keys_items is
  | .call _ es => by rw [Expr.Keys]; exact keys_exprs es
  | .bin _ a b => by rw [Expr.Keys]; exact ⟨keys_expr a, keys_expr b⟩
  | .not a => by rw [Expr.Keys]; exact keys_expr a
  | .minus a => by rw [Expr.Keys]; exact keys_expr a
  | .cond c t f => by rw [Expr.Keys]; exact ⟨keys_expr c, keys_expr t, keys_expr f⟩
  | .method a _ es => by rw [Expr.Keys]; exact ⟨keys_expr a, keys_optExprs es⟩
  | .lambda v e => by rw [Expr.Keys]; exact ⟨keys_expr v, keys_expr e⟩
  | .lambdaN v1 v2 v3 vs e => by
    rw [Expr.Keys]; exact ⟨keys_expr v1, keys_expr v2, keys_expr v3, keys_exprs vs, keys_expr e⟩
theorem keys_exprs : (es : List Expr) → Expr.KeysL (fun _ => True) es
  | [] => by rw [Expr.KeysL]; trivial
  | e :: es => by rw [Expr.KeysL]; exact ⟨keys_expr e, keys_exprs es⟩
theorem keys_optExpr : (e : Option Expr) → Expr.KeysOpt (fun _ => True) e
  | .none => by rw [Expr.KeysOpt]; trivial
  | some e => by rw [Expr.KeysOpt]; exact keys_expr e
theorem keys_optExprs : (es : List (Option Expr)) → Expr.KeysO (fun _ => True) es
  | [] => by rw [Expr.KeysO]; trivial
  | e :: es => by rw [Expr.KeysO]; exact ⟨keys_optExpr e, keys_optExprs es⟩
theorem keys_item : (i : Item) → i.Keys (fun _ => True)
  | .pair k e => by rw [Item.Keys]; exact ⟨trivial, keys_expr e⟩
  | .pairLoop k l => by rw [Item.Keys]; exact ⟨trivial, keys_loop l⟩
  | .child _ _ _ _ c => by rw [Item.Keys]; exact ⟨trivial, keys_config c⟩
theorem keys_items : (is : List Item) → Item.KeysL (fun _ => True) is
  | [] => by rw [Item.KeysL]; trivial
  | i :: is => by rw [Item.KeysL]; exact ⟨keys_item i, keys_items is⟩
theorem keys_loop : (l : Loop) → l.Keys (fun _ => True)
  | .mk h c b => by rw [Loop.Keys]; exact ⟨keys_head h, keys_optExpr c, keys_expr b⟩
theorem keys_head : (h : LoopHead) → h.Keys (fun _ => True)
  | .arr _ e => by rw [LoopHead.Keys]; exact keys_expr e
  | .arrIdx _ _ e => by rw [LoopHead.Keys]; exact keys_expr e
  | .obj _ e => by rw [LoopHead.Keys]; exact keys_expr e
theorem keys_config : (c : Config) → c.Keys (fun _ => True)
  | .obj is => by rw [Config.Keys]; exact keys_items is
  | .loop l => by rw [Config.Keys]; exact keys_loop l
  | .cond c e => by rw [Config.Keys]; exact ⟨keys_expr c, keys_expr e⟩
end

theorem keys_decl (d : Decl) : d.Keys (fun _ => True) (fun _ => True) := by
  have hd : ∀ d : Deco, d.Keys (fun _ => True) := fun d => keys_optExpr d.arg
  cases d with
  | scope => trivial
  | importNs => trivial
  | importFrom => exact fun _ _ => trivial
  | extension => exact ⟨trivial, fun _ _ => keys_items _⟩
  | metadata => trivial
  | param => exact ⟨trivial, fun d _ => hd d, keys_optExpr _⟩
  | var _ _ _ e => exact ⟨trivial, fun d _ => hd d, by cases e; exact keys_expr _; exact keys_loop _⟩
  | output _ _ _ e => exact ⟨trivial, fun d _ => hd d, by cases e; exact keys_expr _; exact keys_loop _⟩
  | resource => exact ⟨trivial, fun d _ => hd d, trivial⟩
  | module => exact ⟨trivial, fun d _ => hd d, keys_config _⟩
  | typ => exact ⟨trivial, fun d _ => hd d, keys_expr _, keys_exprs _⟩
  | func => exact ⟨trivial, fun d _ => hd d, fun _ _ => trivial, keys_expr _⟩

/-- any keys -/
abbrev AnyKey : String → Prop := fun _ => True

theorem json_setItem {v : Val} {k : String} {x w : Val} (hv : Json AnyKey v) (hx : Json AnyKey x)
    (h : v.setItem k x = .ok w) : Json AnyKey w := by
  unfold Val.setItem at h
  split at h
  · cases h; exact (jset hv.items trivial hx).json
  · cases h

theorem json_adopt {n t a c c' x nn cfg : Val} (ha : Json AnyKey a) (hc : Json AnyKey c)
    (h : adoptChild n t a c = .ok (c', x, nn, cfg)) :
    Json AnyKey c' ∧ Json AnyKey x ∧ Json AnyKey nn ∧ Json AnyKey cfg := by
  unfold adoptChild at h
  obtain ⟨cname, h1, h⟩ := bind_ok' h
  obtain ⟨child, h2, h⟩ := bind_ok' h
  obtain ⟨attrs, h3, h⟩ := bind_ok' h
  obtain ⟨ctype, h4, h⟩ := bind_ok' h
  obtain ⟨attrs1, h5, h⟩ := bind_ok' h
  obtain ⟨attrs2, h6, h⟩ := bind_ok' h
  obtain ⟨config, h7, h⟩ := bind_ok' h
  have j2 := json_setItem hc .str h2
  have j3 := json_item_get j2 h3
  have j5 := json_setItem j3 .str h5
  have j6 := json_setItem j5 ha h6
  have j7 := json_item_get j6 h7
  split at h
  · rename_i cfg'
    split at h
    · rename_i deps hdeps
      cases h
      refine ⟨j2, j6, .str, (jset j7.items trivial (.list ?_)).json⟩
      intro y hy
      rcases List.mem_append.mp hy with hy | hy
      · cases hg : dGet "depends_on" cfg' with
        | none => rw [hg] at hdeps; cases hdeps; simp at hy
        | some z =>
          rw [hg] at hdeps
          simp only [Option.getD_some] at hdeps
          subst hdeps
          exact (json_get j7 hg).listOf y hy
      · rw [List.mem_singleton] at hy; subst hy; exact .elem
    · cases h
  · cases h

theorem json_processChild : (n : Nat) → {pn pt pa : Val} → {cfg cfg' : List (String × Val)} → {more : List Val} →
    Json AnyKey pa → Json AnyKey (.dict cfg) → processChild n pn pt pa cfg = .ok (cfg', more) →
    Json AnyKey (.dict cfg') ∧ ∀ v ∈ more, Json AnyKey v
  | 0, pn, pt, pa, cfg, cfg', more, _, hc, h => by
    rw [processChild] at h; cases h; exact ⟨hc, by simp⟩
  | n + 1, pn, pt, pa, cfg, cfg', more, ha, hc, h => by
    rw [processChild] at h
    split at h
    · cases h; exact ⟨hc, by simp⟩
    · rename_i child hg
      obtain ⟨⟨child', attrs, nn, cf⟩, had, h⟩ := bind_ok' h
      obtain ⟨j1, j2, j3, j4⟩ := json_adopt ha (json_get hc hg) had
      simp only at h
      split at h
      · rename_i cf'
        obtain ⟨ct, h1, h⟩ := bind_ok' h
        obtain ⟨⟨cfg2, more2⟩, h2, h⟩ := bind_ok' h
        simp only at h
        obtain ⟨attrs', h3, h⟩ := bind_ok' h
        obtain ⟨child2, h4, h⟩ := bind_ok' h
        cases h
        obtain ⟨j5, j6⟩ := json_processChild n ha j4 h2
        have j7 := json_setItem j2 j5 h3
        have j8 := json_setItem j1 j7 h4
        refine ⟨(jerase hc.items).json, ?_⟩
        intro v hv
        rcases List.mem_cons.mp hv with rfl | hv
        · exact (jcons (by simp) trivial j8 jnil).json
        · exact j6 v hv
      · cases h

theorem json_childEntry {v : Val} (h : Json AnyKey v) : JEntry AnyKey (childEntry v) := by
  unfold childEntry
  split
  · rename_i d
    have hd : Json AnyKey (.dict d) := (h.items.2 _ (List.mem_singleton.mpr rfl)).2
    split
    · rename_i n a hn ha
      exact ⟨trivial, trivial, (json_get hd ha).items⟩
    · exact ⟨trivial, trivial, jnil⟩
  · exact ⟨trivial, trivial, jnil⟩

/-- **C09.** The result is plain data: nothing, truth values, integers, strings, lists and
dictionaries with string keys none of which is repeated, at any depth. -/
theorem C09_plain_data {P : Parser} {text path v} (h : P.parse text path = .ok v) : Json (fun _ => True) v := by
  obtain ⟨t, p, _, _, hv⟩ := parse_ok h
  have hK : Allows (fun _ => True) := fun _ _ => trivial
  refine json_program (R := fun _ => True) hK ?_ (fun q _ => keys_decl q.2) hv
  intro l o ds x b ex c _ hds _ h
  rw [Decl.out] at h
  obtain ⟨vs, hvs, h⟩ := bind_ok' h
  obtain ⟨⟨ty, api⟩, hta, h⟩ := bind_ok' h
  simp only at h
  obtain ⟨y, hy, h⟩ := bind_ok' h
  obtain ⟨⟨cfg, inner⟩, hr, h⟩ := bind_ok' h
  simp only at h
  cases h
  have hr' := inRule_ok hr
  have jy := json_config hK c (keys_config c) hy
  have hp : Json AnyKey (.dict cfg) ∧ ∀ v ∈ inner, Json AnyKey v := by
    unfold resourceVal at hr'
    split at hr'
    · exact json_processChild _ .str jy hr'
    · cases hr'
  intro e he
  simp only [List.append_nil, List.singleton_append, List.mem_cons] at he
  rcases he with rfl | he
  · refine ⟨trivial, trivial, ?_⟩
    refine jcons ?_ trivial (.list (json_decos hK hds hvs)) (jcons ?_ trivial .str (jcons ?_ trivial .str
      (jcons ?_ trivial .bool (jcons ?_ trivial hp.1 (jlines hK _ l))))) <;>
    cases P.addLineNumbers <;> simp [lineItems]
  · obtain ⟨w, hw, rfl⟩ := List.mem_map.mp he
    exact json_childEntry (hp.2 w hw)

/-! ### C36 -/

/-- a resource nested in a body counts as the last one, so that there is a chain -/
theorem tidy_chain : (n : Nat) → (c : Config) → sizeOf c < n → c.Tidy → ∃ rs, Chain c rs
  | 0, c, hn, _ => absurd hn (Nat.not_lt_zero _)
  | n + 1, .loop l, _, _ => ⟨[], .nil trivial⟩
  | n + 1, .cond c e, _, _ => ⟨[], .nil trivial⟩
  | n + 1, .obj is, hn, ht => by
    rw [Config.Tidy] at ht
    have key : ∀ is : List Item, Item.TidyL is → (∀ i ∈ is, i.key ≠ marker) ∨
        ∃ r : Nested, LastItem is marker r.item ∧ r.config.Tidy := by
      intro is
      induction is using List.reverseRecOn with
      | nil => intro _; exact .inl (by simp)
      | append_singleton is i ih =>
        intro ht
        have hsplit : Item.TidyL is ∧ i.Tidy := by
          clear ih
          induction is with
          | nil => rw [List.nil_append, Item.TidyL] at ht; exact ⟨by rw [Item.TidyL]; trivial, ht.1⟩
          | cons j is ih =>
            rw [List.cons_append, Item.TidyL] at ht
            obtain ⟨h1, h2⟩ := ih ht.2
            exact ⟨by rw [Item.TidyL]; exact ⟨ht.1, h1⟩, h2⟩
        cases i with
        | pair k e =>
          rw [Item.Tidy] at hsplit
          rcases ih hsplit.1 with h | ⟨r, ⟨a, b, rfl, h1, h2⟩, h3⟩
          · left
            intro j hj
            rcases List.mem_append.mp hj with hj | hj
            · exact h j hj
            · rw [List.mem_singleton] at hj; subst hj; exact hsplit.2.1
          · right
            refine ⟨r, ⟨a, b ++ [.pair k e], by simp, h1, ?_⟩, h3⟩
            intro j hj
            rcases List.mem_append.mp hj with hj | hj
            · exact h2 j hj
            · rw [List.mem_singleton] at hj; subst hj; exact hsplit.2.1
        | pairLoop k e =>
          rw [Item.Tidy] at hsplit
          rcases ih hsplit.1 with h | ⟨r, ⟨a, b, rfl, h1, h2⟩, h3⟩
          · left
            intro j hj
            rcases List.mem_append.mp hj with hj | hj
            · exact h j hj
            · rw [List.mem_singleton] at hj; subst hj; exact hsplit.2.1
          · right
            refine ⟨r, ⟨a, b ++ [.pairLoop k e], by simp, h1, ?_⟩, h3⟩
            intro j hj
            rcases List.mem_append.mp hj with hj | hj
            · exact h2 j hj
            · rw [List.mem_singleton] at hj; subst hj; exact hsplit.2.1
        | child l x t ex c =>
          rw [Item.Tidy] at hsplit
          right
          exact ⟨⟨l, x, t, ex, c⟩, ⟨is, [], rfl, rfl, by simp⟩, hsplit.2⟩
    rcases key is ht with h | ⟨r, h, h3⟩
    · exact ⟨[], .nil h⟩
    · obtain ⟨a, b, rfl, h1, h2⟩ := h
      have hlt : sizeOf r.config < n := by
        have e1 : sizeOf (Config.obj (a ++ r.item :: b)) = 1 + sizeOf (a ++ r.item :: b) := Config.obj.sizeOf_spec _
        have e2 : sizeOf r.item < sizeOf (a ++ r.item :: b) := List.sizeOf_lt_of_mem (by simp)
        have e3 : sizeOf r.config < sizeOf r.item := by
          obtain ⟨l, x, t, ex, c⟩ := r
          simp only [Nested.item, Item.child.sizeOf_spec]
          omega
        omega
      obtain ⟨rs, hrs⟩ := tidy_chain n r.config hlt h3
      exact ⟨r :: rs, .cons ⟨_, rfl, a, b, rfl, h1, h2⟩ hrs⟩

theorem join_ne_marker {n m : String} (hn : n ≠ "") (hm : m ≠ "") : n ++ "__" ++ m ≠ marker := by
  intro h
  have h' : n.toList ++ ['_', '_'] ++ m.toList = marker.toList := by
    rw [← h, String.toList_append, String.toList_append]; rfl
  have hn' : n.toList.length ≠ 0 := by
    rw [ne_eq, List.length_eq_zero_iff]; intro h; exact hn (String.toList_inj.mp h)
  have hm' : m.toList.length ≠ 0 := by
    rw [ne_eq, List.length_eq_zero_iff]; intro h; exact hm (String.toList_inj.mp h)
  have hlen := congrArg List.length h'
  have hl : marker.toList.length = 18 := by decide
  rw [hl] at hlen
  simp only [List.length_append, List.length_cons, List.length_nil] at hlen
  have hdrop : (marker.toList.drop n.toList.length).take 2 = ['_', '_'] := by
    rw [← h', List.append_assoc, List.drop_left]; rfl
  have : ∀ k : Fin 16, k.1 ≠ 0 → (marker.toList.drop k.1).take 2 ≠ ['_', '_'] := by decide
  exact this ⟨n.toList.length, by omega⟩ hn' hdrop

/-- everything but the reserved key -/
abbrev NoMarker : String → Prop := (· ≠ "__child_resource__")

theorem noMarker_allows : Allows NoMarker := fun _ h => h

theorem tidy_vals {ln : Bool} : (is : List Item) → {ps : List (String × Val)} → Item.TidyL is →
    Item.vals ln is = .ok ps → ∀ q ∈ ps, q.1 ≠ marker → NoMarker q.1 ∧ Json NoMarker q.2
  | [], ps, _, h => by rw [Item.vals] at h; cases h; simp
  | i :: is, ps, ht, h => by
    rw [Item.TidyL] at ht
    rw [Item.vals] at h
    obtain ⟨x, hx, h⟩ := bind_ok' h
    obtain ⟨xs, hxs, h⟩ := bind_ok' h
    cases h
    intro q hq hne
    rcases List.mem_cons.mp hq with rfl | hq
    · cases i with
      | pair k e =>
        have hk := ht.1
        rw [Item.Tidy] at hk
        exact json_item noMarker_allows (.pair k e) (by rw [Item.Keys]; exact hk) hx
      | pairLoop k e =>
        have hk := ht.1
        rw [Item.Tidy] at hk
        exact json_item noMarker_allows (.pairLoop k e) (by rw [Item.Keys]; exact hk) hx
      | child l n t ex c =>
        rw [Item.val] at hx
        obtain ⟨y, hy, hx⟩ := bind_ok' hx
        cases hx
        exact absurd rfl hne
    · exact tidy_vals is ht.2 hxs q hq hne

theorem tidy_config {ln : Bool} {c : Config} (ht : c.Tidy) {d : List (String × Val)}
    (h : c.val ln = .ok (.dict d)) : JItems NoMarker (dErase marker d) := by
  cases c with
  | obj is =>
    rw [Config.Tidy] at ht
    rw [Config.val] at h
    obtain ⟨ps, hps, h⟩ := bind_ok' h
    cases h
    exact jlastWins_erase (tidy_vals is ht hps)
  | loop l =>
    rw [Config.Tidy] at ht
    exact jerase (json_config noMarker_allows (.loop l) (by rw [Config.Keys]; exact ht) h).items
  | cond c e =>
    rw [Config.Tidy] at ht
    exact jerase (json_config noMarker_allows (.cond c e) (by rw [Config.Keys]; exact ht) h).items

theorem tidy_child {c : Config} {r : Nested} (ht : c.Tidy) (h : ChildOf c r) : r.config.Tidy := by
  obtain ⟨is, rfl, a, b, rfl, -, -⟩ := h
  rw [Config.Tidy] at ht
  have : ∀ a : List Item, Item.TidyL (a ++ r.item :: b) → r.config.Tidy := by
    intro a
    induction a with
    | nil =>
      intro ht
      rw [List.nil_append, Item.TidyL, Nested.item, Item.Tidy] at ht
      exact ht.1
    | cons j a ih => intro ht; rw [List.cons_append, Item.TidyL] at ht; exact ih ht.2
  exact this a ht

theorem dErase_dSet {k k' : String} {v : Val} {d : List (String × Val)} (h : k ≠ k') :
    dErase k (dSet k' v d) = dSet k' v (dErase k d) := by
  induction d with
  | nil => simp [dSet, dErase, Ne.symm h]
  | cons p d ih =>
    obtain ⟨a, w⟩ := p
    by_cases ha : a = k'
    · subst ha
      simp [dSet, dErase, Ne.symm h]
    · by_cases hb : a = k
      · subst hb
        simp [dSet, dErase, ha]
      · simp [dSet, dErase, ha, hb, ih]

theorem dGet_dErase {k k' : String} {d : List (String × Val)} (h : k ≠ k') : dGet k' (dErase k d) = dGet k' d := by
  induction d with
  | nil => rfl
  | cons p d ih =>
    obtain ⟨a, w⟩ := p
    by_cases ha : a = k
    · subst ha
      simp [dErase, dGet, h]
    · simp [dErase, dGet, ha, ih]

theorem ident_ne {x : Ident} : txt x.1 ≠ "" := by
  obtain ⟨x, c, cs, rfl, _⟩ := x
  intro h
  have := congrArg String.toList h
  simp at this

theorem nestedOut_tidy {ln api n t rs es} (h : NestedOut ln api n t rs es) (hn : n ≠ "") {c : Config}
    (hc : Chain c rs) (ht : c.Tidy) : ∀ e ∈ es, JEntry NoMarker e := by
  induction h generalizing c with
  | nil => simp
  | @cons n t r rs es d deps hv hd _ ih =>
    cases hc with
    | cons hch hrest =>
      have htr := tidy_child ht hch
      intro e he
      rcases List.mem_cons.mp he with rfl | he
      · refine ⟨show NoMarker "resources" by decide, join_ne_marker hn ident_ne, ?_⟩
        have hj := tidy_config htr hv
        have hcfg : JItems NoMarker (nestedConfig n deps d) := by
          unfold nestedConfig
          rw [dErase_dSet (by decide)]
          refine jset hj (by decide) (.list ?_)
          intro y hy
          rcases List.mem_append.mp hy with hy | hy
          · rcases hd with hd | ⟨_, rfl⟩
            · have hg := (dGet_dErase (k := marker) (k' := "depends_on") (d := d) (by decide)).trans hd
              exact (json_get hj.json hg).listOf y hy
            · simp at hy
          · rw [List.mem_singleton] at hy; subst hy; exact .elem
        refine jcons ?_ (by decide) (.list (by simp)) (jcons ?_ (by decide) .str (jcons ?_ (by decide) .str
          (jcons ?_ (by decide) .bool (jcons ?_ (by decide) hcfg.json (jlines noMarker_allows ln _))))) <;>
        cases ln <;> simp [lineItems]
      · refine ih ?_ hrest htr e he
        intro h
        have := congrArg String.toList h
        rw [String.toList_append, String.toList_append] at this
        simp at this

/-- **C36, partial.** If resources are nested only directly in the bodies of resources (and not in
loops, conditions or other objects), and the word `__child_resource__` is not used as a name or key,
then it is not a key of the result, at any depth. -/
theorem C36_no_marker_partial {P : Parser} {text path v} (h : P.parse text path = .ok v) :
    ∃ t p, chosenText text path = .ok t ∧ Spells t p ∧ (p.Tidy → Json (· ≠ "__child_resource__") v) := by
  obtain ⟨t, p, h1, h2, hv⟩ := parse_ok h
  refine ⟨t, p, h1, h2, fun ht => json_program noMarker_allows ?_ ht hv⟩
  intro l o ds x b ex c hx hds hc h
  obtain ⟨rs, hrs⟩ := tidy_chain _ c (Nat.lt_succ_self _) hc
  obtain ⟨vs, ty, api, d, hvs, _, hd, hown, himp, hch⟩ := resource_out h hrs
  intro e he
  rw [hown, himp] at he
  simp only [List.append_nil, List.singleton_append, List.mem_cons] at he
  rcases he with rfl | he
  · refine ⟨show NoMarker "resources" by decide, hx, ?_⟩
    refine jcons ?_ (by decide) (.list (json_decos noMarker_allows hds hvs)) (jcons ?_ (by decide) .str
      (jcons ?_ (by decide) .str (jcons ?_ (by decide) .bool (jcons ?_ (by decide) (tidy_config hc hd).json
        (jlines noMarker_allows _ l))))) <;>
    cases P.addLineNumbers <;> simp [lineItems]
  · exact nestedOut_tidy hch ident_ne hrs hc e he

/-- **C36 does not hold in general**: a resource nested in the body of a conditional resource is left
in the result, under the internal name. -/
theorem C36_counterexample : Parser.parse ⟨false⟩ (some "resource a 'T@1' = if (c) {\n  resource b 'u' = {\n  }\n}\n") .none =
    .ok (.dict [("globals", .dict [("scope", .dict [("value", .str "resourceGroup")])]),
      ("resources", .dict [("a", .dict [("decorators", .list []), ("type", .str "T"), ("api_version", .str "1"),
        ("existing", .bool false), ("config", .dict [("condition", .elem "c"), ("config", .dict [
          ("__child_resource__", .dict [("__name__", .str "b"), ("__attrs__", .dict [("decorators", .list []),
            ("type", .str "u"), ("api_version", .str ""), ("existing", .bool false), ("config", .dict [])])])])])])])]) :=
  eq_of_outIs (by decide +kernel)

end Pycep
