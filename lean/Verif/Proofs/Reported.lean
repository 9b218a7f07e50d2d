import Verif.Spec.Reported
import Verif.Proofs.Nested
/-
Every piece of a program is found at its place in the result.
-/
namespace Pycep

theorem chainNames_length (n : String) (rs : List Nested) : (chainNames n rs).length = rs.length := by
  induction rs generalizing n with
  | nil => rfl
  | cons r rs ih => simp [chainNames, ih]

theorem chainTypes_length (n : String) (rs : List Nested) : (chainTypes n rs).length = rs.length := by
  induction rs generalizing n with
  | nil => rfl
  | cons r rs ih => simp [chainTypes, ih]

theorem chainNames_longer (n : String) (rs : List Nested) : ∀ m ∈ chainNames n rs, n.length < m.length := by
  induction rs generalizing n with
  | nil => simp [chainNames]
  | cons r rs ih =>
    intro m hm
    have h2 : "__".length = 2 := by decide
    rcases List.mem_cons.mp hm with rfl | hm
    · simp only [String.length_append, h2]; omega
    · have := ih _ m hm
      simp only [String.length_append, h2] at this; omega

theorem chainNames_nodup (n : String) (rs : List Nested) : (chainNames n rs).Nodup := by
  induction rs generalizing n with
  | nil => simp [chainNames]
  | cons r rs ih =>
    rw [chainNames, List.nodup_cons]
    exact ⟨fun h => absurd (chainNames_longer _ _ _ h) (Nat.lt_irrefl _), ih _⟩

theorem nestedOut_names {ln api n t rs es} (h : NestedOut ln api n t rs es) :
    es.map Entry.place = (chainNames n rs).map (fun m => ("resources", m)) := by
  induction h with
  | nil => rfl
  | cons _ _ _ ih => simp [chainNames, ih, Entry.place]

theorem depth_items {k : String} {v : Val} {d : List (String × Val)} (h : dGet k d = some v) :
    v.depth ≤ Val.depthItems d := by
  induction d with
  | nil => simp [dGet] at h
  | cons p d ih =>
    obtain ⟨a, b⟩ := p
    rw [Val.depthItems]
    simp only [dGet] at h
    split at h
    · cases h; omega
    · have := ih h; omega

theorem depth_item {k : String} {v : Val} {d : List (String × Val)} (h : dGet k d = some v) :
    v.depth < (Val.dict d).depth := by
  rw [Val.depth]
  have := depth_items h
  omega

theorem chain_depth {ln : Bool} {c : Config} {rs : List Nested} (h : Chain c rs) {d : List (String × Val)}
    (hv : c.val ln = .ok (.dict d)) : rs.length < (Val.dict d).depth + 1 := by
  induction h generalizing d with
  | nil => simp
  | @cons c r rs hc _ ih =>
    obtain ⟨v', hd', hg⟩ := childOf_get hc hv
    obtain ⟨d', rfl⟩ := config_isDict hd'
    have h1 := ih hd'
    have h2 := depth_item hg
    have h3 : ∀ x, dGet "__attrs__" [("__name__", Val.str (txt r.name.1)), ("__attrs__", x)] = some x := by
      intro x; simp [dGet]
    have h4 := depth_item (h3 (.dict ([("decorators", .list []), ("type", .str (txt r.type)), ("api_version", .str ""),
        ("existing", .bool r.existing), ("config", .dict d')] ++ lineItems ln (r.lines.1, r.lines.2 - 1))))
    have h5 : dGet "config" ([("decorators", .list []), ("type", .str (txt r.type)), ("api_version", .str ""),
        ("existing", .bool r.existing), ("config", .dict d')] ++ lineItems ln (r.lines.1, r.lines.2 - 1)) =
        some (.dict d') := by simp [dGet]
    have h6 := depth_item h5
    simp only [List.length_cons]
    omega

/-- the contribution of a resource declaration -/
theorem resource_out {ln : Bool} {l : Lines} {ds x b ex c} {o : Out}
    (h : (Decl.resource ds x b ex c).out ln l = .ok o) {rs : List Nested} (hc : Chain c rs) :
    ∃ vs t api d, decoVals ln ds = .ok vs ∧ typeApi b = .ok (t, api) ∧ c.val ln = .ok (.dict d) ∧
      o.own = [⟨"resources", txt x.1, [("decorators", .list vs), ("type", .str t),
        ("api_version", .str api), ("existing", .bool ex),
        ("config", .dict (dErase "__child_resource__" d))] ++ lineItems ln l⟩] ∧
      o.imports = [] ∧ NestedOut ln api (txt x.1) t rs o.children := by
  rw [Decl.out] at h
  obtain ⟨vs, hvs, h⟩ := bind_ok' h
  obtain ⟨⟨t, api⟩, hta, h⟩ := bind_ok' h
  simp only at h
  obtain ⟨v, hv, h⟩ := bind_ok' h
  obtain ⟨⟨cfg, inner⟩, hr, h⟩ := bind_ok' h
  simp only at h
  cases h
  obtain ⟨d, rfl⟩ := config_isDict hv
  have hr := inRule_ok hr
  unfold resourceVal at hr
  obtain ⟨rfl, h2⟩ := processChild_chain hc (chain_depth hc hv) hv rfl hr
  exact ⟨vs, t, api, d, hvs, inRule_ok hta, hv, rfl, rfl, h2⟩

theorem contribs_append {ln : Bool} {p q : Program} {os : List Out} (h : Contribs ln (p ++ q) os) :
    ∃ os1 os2, os = os1 ++ os2 ∧ Contribs ln p os1 ∧ Contribs ln q os2 := by
  induction p generalizing os with
  | nil => exact ⟨[], os, rfl, .nil, h⟩
  | cons d p ih =>
    cases h with
    | cons ho h =>
      obtain ⟨os1, os2, rfl, h1, h2⟩ := ih h
      exact ⟨_ :: os1, os2, rfl, .cons ho h1, h2⟩

theorem contribs_mem {ln : Bool} {p : Program} {os : List Out} (h : Contribs ln p os) {o : Out} (ho : o ∈ os) :
    ∃ l d, (l, d) ∈ p ∧ d.out ln l = .ok o := by
  induction h with
  | nil => simp at ho
  | cons h1 _ ih =>
    rcases List.mem_cons.mp ho with rfl | ho
    · exact ⟨_, _, List.mem_cons_self .., h1⟩
    · obtain ⟨l, d, hm, hd⟩ := ih ho
      exact ⟨l, d, List.mem_cons_of_mem _ hm, hd⟩

/-- nested resources of a program without any named `n` -/
theorem notNested_children {ln : Bool} {p : Program} {os : List Out} (h : Contribs ln p os) {n : String}
    (hn : NotNested p n) : ∀ e ∈ os.flatMap Out.children, e.name ≠ n := by
  intro e he
  obtain ⟨o, ho, he⟩ := List.mem_flatMap.mp he
  obtain ⟨l, d, hm, hd⟩ := contribs_mem h ho
  obtain ⟨ds, x, b, ex, c, rfl⟩ := (out_places hd).2.2.2 (List.ne_nil_of_mem he)
  obtain ⟨rs, hc, hnot⟩ := hn _ _ _ _ _ _ hm
  obtain ⟨_, _, _, _, _, _, _, _, _, hout⟩ := resource_out hd hc
  have h1 := nestedOut_names hout
  rintro rfl
  have h2 : e.place ∈ (chainNames (txt x.1) rs).map (fun m => ("resources", m)) := by
    rw [← h1]; exact List.mem_map_of_mem he
  obtain ⟨m, hm, hme⟩ := List.mem_map.mp h2
  have hme : m = e.name := congrArg Prod.snd hme
  exact hnot (hme ▸ hm)

theorem mem_ownName {d : Decl} {s n : String} (h : (s, n) ∈ d.ownName) : d.ownName = [(s, n)] := by
  cases d <;> simp_all [Decl.ownName]

theorem ownName_ne_imports {d : Decl} {s n : String} (h : (s, n) ∈ d.ownName) : s ≠ "imports" := by
  cases d <;> simp_all [Decl.ownName]

/-- **A reported declaration has its entry in the result.** -/
theorem reported_entry {ln : Bool} {p : Program} {os : List Out} (hc : Contribs ln p os) {s n : String}
    {l : Lines} {d : Decl} (h : Reported p s n l d) : ∃ o attrs, d.out ln l = .ok o ∧ o.own = [⟨s, n, attrs⟩] ∧
      (Val.dict (collect (entries ln os))).at? [.key s, .key n] = some (.dict attrs) := by
  obtain ⟨a, b, rfl, hn, hlater, hnest⟩ := h
  obtain ⟨os1, os2, rfl, h1, h2⟩ := contribs_append hc
  cases h2 with
  | @cons _ _ _ o os2 ho h2 =>
    have hp := (out_places ho).1
    rw [mem_ownName hn] at hp
    obtain ⟨e, he, hpe⟩ := List.map_eq_singleton_iff.mp hp
    obtain ⟨sec, nm, attrs⟩ := e
    simp only [Entry.place, Prod.mk.injEq] at hpe
    obtain ⟨rfl, rfl⟩ := hpe
    refine ⟨o, attrs, ho, he, ?_⟩
    refine (collect_get _ _ _ _).mpr ⟨attrs, rfl, ?_⟩
    refine ⟨defaultScope ln :: os1.flatMap Out.own, os2.flatMap Out.own ++ (os1 ++ o :: os2).flatMap Out.imports ++
      (os1 ++ o :: os2).flatMap Out.children, ?_, ?_⟩
    · simp [entries, he]
    · intro e' he' hse
      rcases List.mem_append.mp he' with he' | he'
      · rcases List.mem_append.mp he' with he' | he'
        · have : e'.place ∈ b.flatMap (fun d => d.2.ownName) := by
            rw [← contribs_own h2]; exact List.mem_map_of_mem he'
          obtain ⟨q, hq, hq'⟩ := List.mem_flatMap.mp this
          apply hlater q hq
          rw [← hse.1, ← hse.2]; exact hq'
        · have : e'.place ∈ ((a ++ (l, d) :: b).flatMap (fun d => d.2.importNames)).map (fun n => ("imports", n)) := by
            rw [← contribs_imports hc]; exact List.mem_map_of_mem he'
          obtain ⟨m, _, hm⟩ := List.mem_map.mp this
          have := congrArg Prod.fst hm
          simp only [Entry.place] at this
          exact ownName_ne_imports hn (by rw [← hse.1, ← this])
      · have hsec := contribs_children hc e' he'
        rw [hse.1] at hsec
        exact notNested_children hc (hnest hsec) e' he' hse.2

theorem nestedOut_get {ln api n t rs es} (h : NestedOut ln api n t rs es) {i : Nat} {r : Nested}
    (hr : rs[i]? = some r) : ∃ m T parent d deps, (chainNames n rs)[i]? = some m ∧ (chainTypes t rs)[i]? = some T ∧
      (n :: chainNames n rs)[i]? = some parent ∧ r.config.val ln = .ok (.dict d) ∧ DepsOf d deps ∧
      es[i]? = some ⟨"resources", m,
        [("decorators", .list []), ("type", .str T),
         ("api_version", .str api), ("existing", .bool r.existing),
         ("config", .dict (nestedConfig parent deps d))] ++ lineItems ln (r.lines.1, r.lines.2 - 1)⟩ := by
  induction h generalizing i with
  | nil => simp at hr
  | @cons n t r' rs es d deps hv hd _ ih =>
    cases i with
    | zero =>
      simp only [List.getElem?_cons_zero, Option.some.injEq] at hr
      subst hr
      exact ⟨_, _, _, d, deps, rfl, rfl, rfl, hv, hd, rfl⟩
    | succ i =>
      simp only [List.getElem?_cons_succ] at hr
      obtain ⟨m, T, parent, d, deps, h1, h2, h3, h4, h5, h6⟩ := ih hr
      exact ⟨m, T, parent, d, deps, by simpa [chainNames] using h1, by simpa [chainTypes] using h2,
        by simpa [chainNames] using h3, h4, h5, by simpa using h6⟩

/-- **A nested resource has its entry in the result.** -/
theorem nested_entry {ln : Bool} {p : Program} {os : List Out} (hc : Contribs ln p os) {n : String}
    {x : Ident} {b : List Char} {rs : List Nested} {i : Nat} {r : Nested} (h : NestedReported p n x b rs i r) :
    ∃ t api T parent d deps, typeApi b = .ok (t, api) ∧ (chainTypes t rs)[i]? = some T ∧
      (txt x.1 :: chainNames (txt x.1) rs)[i]? = some parent ∧ r.config.val ln = .ok (.dict d) ∧ DepsOf d deps ∧
      (Val.dict (collect (entries ln os))).at? [.key "resources", .key n] = some (.dict
        ([("decorators", .list []), ("type", .str T), ("api_version", .str api), ("existing", .bool r.existing),
         ("config", .dict (nestedConfig parent deps d))] ++ lineItems ln (r.lines.1, r.lines.2 - 1))) := by
  obtain ⟨before, l, ds, ex, c, later, rfl, hch, hr, hn, hlater⟩ := h
  obtain ⟨os1, os2, rfl, h1, h2⟩ := contribs_append hc
  cases h2 with
  | @cons _ _ _ o os2 ho h2 =>
    obtain ⟨vs, t, api, d0, _, hta, _, _, _, hout⟩ := resource_out ho hch
    obtain ⟨m, T, parent, d, deps, h3, h4, h5, h6, h7, h8⟩ := nestedOut_get hout hr
    rw [hn] at h3
    cases h3
    refine ⟨t, api, T, parent, d, deps, hta, h4, h5, h6, h7, ?_⟩
    refine (collect_get _ _ _ _).mpr ⟨_, rfl, ?_⟩
    obtain ⟨hi, hi'⟩ := List.getElem?_eq_some_iff.mp h8
    refine ⟨defaultScope ln :: ((os1 ++ o :: os2).flatMap Out.own ++ (os1 ++ o :: os2).flatMap Out.imports) ++
      os1.flatMap Out.children ++ o.children.take i,
      o.children.drop (i + 1) ++ os2.flatMap Out.children, ?_, ?_⟩
    · rw [← hi']
      clear hi' h8
      have : o.children = o.children.take i ++ o.children[i] :: o.children.drop (i + 1) := by
        rw [List.getElem_cons_drop, List.take_append_drop]
      have h9 : (os1 ++ o :: os2).flatMap Out.children = os1.flatMap Out.children ++
          (o.children.take i ++ o.children[i] :: o.children.drop (i + 1)) ++ os2.flatMap Out.children := by
        rw [← this]; simp
      rw [entries, h9]
      simp only [List.append_assoc, List.cons_append]
    · intro e he hse
      rcases List.mem_append.mp he with he | he
      · have hnd := chainNames_nodup (txt x.1) rs
        have hnames := nestedOut_names hout
        obtain ⟨j, hj, rfl⟩ := List.mem_iff_getElem.mp he
        rw [List.getElem_drop] at hse
        have hlt : i + 1 + j < o.children.length := by
          rw [List.length_drop] at hj; omega
        have hlen : o.children.length = (chainNames (txt x.1) rs).length := by
          have := congrArg List.length hnames; simpa using this
        have hk : (chainNames (txt x.1) rs)[i + 1 + j]'(by omega) = n := by
          have h9 : (o.children.map Entry.place)[i + 1 + j]'(by simpa using hlt) =
            ((chainNames (txt x.1) rs).map (fun m => ("resources", m)))[i + 1 + j]'(by simp; omega) := by
            simp only [hnames]
          rw [List.getElem_map, List.getElem_map] at h9
          have := congrArg Prod.snd h9
          simp only [Entry.place] at this
          rw [← this, hse.2]
        obtain ⟨hi2, hi3⟩ := List.getElem?_eq_some_iff.mp hn
        have := (List.Nodup.getElem_inj_iff hnd).mp (hk.trans hi3.symm)
        omega
      · exact notNested_children h2 hlater e he hse.2

theorem nestedConfig_get {parent : String} {deps : List Val} {d : List (String × Val)} {k : String}
    (h1 : k ≠ "__child_resource__") (h2 : k ≠ "depends_on") : dGet k (nestedConfig parent deps d) = dGet k d := by
  unfold nestedConfig
  rw [dGet_dErase_ne h1, dGet_dSet_ne h2]

theorem at_nestedConfig {parent : String} {deps : List Val} {d : List (String × Val)} {π : List PStep} {y : Val}
    (hπ : π ≠ []) (h1 : dGet "__child_resource__" d = .none) (h2 : dGet "depends_on" d = .none)
    (h : (Val.dict d).at? π = some y) : (Val.dict (nestedConfig parent deps d)).at? π = some y := by
  cases π with
  | nil => exact absurd rfl hπ
  | cons s π =>
    cases s with
    | idx i => simp [Val.at?, Val.step?] at h
    | key k =>
      simp only [Val.at?, Val.step?] at h ⊢
      rw [nestedConfig_get, h]
      · rintro rfl; rw [h1] at h; simp at h
      · rintro rfl; rw [h2] at h; simp at h

theorem loop_keys {ln : Bool} {l : Loop} {v : Val} (h : l.val ln = .ok v) :
    ∃ d, v = .dict d ∧ dGet "__child_resource__" d = .none ∧ dGet "depends_on" d = .none := by
  cases l with
  | mk h' c b =>
    rw [Loop.val] at h
    obtain ⟨_, _, h⟩ := bind_ok' h; obtain ⟨_, _, h⟩ := bind_ok' h; obtain ⟨_, _, h⟩ := bind_ok' h
    obtain ⟨_, _, h⟩ := bind_ok' h
    cases h
    exact ⟨_, rfl, by simp [dGet], by simp [dGet]⟩

/-- **Every piece of a program is found at its place in the result.** -/
theorem at_val {ln : Bool} {p : Program} {v : Val} (hv : p.val ln = .ok v) {s n : String} {π : List PStep}
    {m : Node} (h : p.At s n π m) :
    ∃ y, m.val ln = .ok y ∧ v.at? (.key s :: .key n :: π) = some y := by
  rw [Program.val] at hv
  obtain ⟨os, hos, hv⟩ := bind_ok' hv
  cases hv
  have hc := contribs_of hos
  cases h with
  | @own s n l d κ k π _ hr hd hp =>
    obtain ⟨o, attrs, ho, hown, hat⟩ := reported_entry hc hr
    obtain ⟨e, y, he, hy, hat2⟩ := declPlace1_val hd ho
    rw [hown] at he
    cases he
    obtain ⟨z, hz, hat3⟩ := place_val hp hy
    refine ⟨z, hz, ?_⟩
    rw [show PStep.key s :: .key n :: (κ ++ π) = [.key s, .key n] ++ (κ ++ π) from rfl, Val.at?_append, hat]
    simp only [Option.bind_some, Val.at?_append, hat2, hat3]
  | @nested n x b rs i r is key key' e π _ hr hcfg hl hk1 hk2 hp =>
    obtain ⟨t, api, T, parent, d, deps, _, _, _, hd, _, hat⟩ := nested_entry hc hr
    rw [hcfg, Config.val] at hd
    obtain ⟨ps, hps, hd⟩ := bind_ok' hd
    cases hd
    obtain ⟨x', hx, hg⟩ := items_last hps hl
    obtain ⟨z, hz, hat3⟩ := place_val hp (ln := ln) (x := x') hx
    refine ⟨z, hz, ?_⟩
    rw [show PStep.key "resources" :: .key n :: ([.key "config", .key key] ++ π) =
      [.key "resources", .key n] ++ ([.key "config", .key key] ++ π) from rfl, Val.at?_append, hat]
    simp [Val.at?, Val.step?, dGet, nestedConfig_get hk1 hk2, hg, hat3]
  | @nestedLoop n x b rs i r is key key' l π _ hr hcfg hl hk1 hk2 hp =>
    obtain ⟨t, api, T, parent, d, deps, _, _, _, hd, _, hat⟩ := nested_entry hc hr
    rw [hcfg, Config.val] at hd
    obtain ⟨ps, hps, hd⟩ := bind_ok' hd
    cases hd
    obtain ⟨x', hx, hg⟩ := items_last hps hl
    obtain ⟨z, hz, hat3⟩ := place_val hp (ln := ln) (x := x') hx
    refine ⟨z, hz, ?_⟩
    rw [show PStep.key "resources" :: .key n :: ([.key "config", .key key] ++ π) =
      [.key "resources", .key n] ++ ([.key "config", .key key] ++ π) from rfl, Val.at?_append, hat]
    simp [Val.at?, Val.step?, dGet, nestedConfig_get hk1 hk2, hg, hat3]
  | @nestedFor n x b rs i r l π _ hr hcfg hp hne =>
    obtain ⟨t, api, T, parent, d, deps, _, _, _, hd, _, hat⟩ := nested_entry hc hr
    rw [hcfg, Config.val] at hd
    obtain ⟨d', e, hk1, hk2⟩ := loop_keys hd
    cases e
    obtain ⟨z, hz, hat3⟩ := place_val hp (ln := ln) (x := .dict d) hd
    refine ⟨z, hz, ?_⟩
    rw [show PStep.key "resources" :: .key n :: ([.key "config"] ++ π) =
      [.key "resources", .key n] ++ ([.key "config"] ++ π) from rfl, Val.at?_append, hat]
    have := at_nestedConfig (parent := parent) (deps := deps) hne hk1 hk2 hat3
    simp [Val.at?, Val.step?, dGet, this]
  | @nestedCond n x b rs i r c e π _ hr hcfg hp hne =>
    obtain ⟨t, api, T, parent, d, deps, _, _, _, hd, _, hat⟩ := nested_entry hc hr
    rw [hcfg] at hd
    obtain ⟨z, hz, hat3⟩ := place_val hp (ln := ln) (x := .dict d) hd
    rw [Config.val] at hd
    obtain ⟨u1, _, hd⟩ := bind_ok' hd; obtain ⟨u2, _, hd⟩ := bind_ok' hd
    cases hd
    refine ⟨z, hz, ?_⟩
    rw [show PStep.key "resources" :: .key n :: ([.key "config"] ++ π) =
      [.key "resources", .key n] ++ ([.key "config"] ++ π) from rfl, Val.at?_append, hat]
    have := at_nestedConfig (parent := parent) (deps := deps) hne (by simp [dGet]) (by simp [dGet]) hat3
    simp [Val.at?, Val.step?, dGet, this]

end Pycep
