import Verif.Props.Plain
/-
C15, C25, C26, C34, C35, C38, C39: resources, data types, nested resources, imports and functions.
-/
namespace Pycep

/-- a program without representation makes `parse` fail -/
theorem tree_fails {text path tree} (h : createTree' text path = .ok tree) :
    ∃ t p, chosenText text path = .ok t ∧ Spells t p ∧
      ∀ (P : Parser), (∀ v, p.val P.addLineNumbers ≠ .ok v) → ∃ r e, P.parse text path = .error (.visitError r e) := by
  rcases createTree'_cases text path with ⟨e, h1, h2⟩ | ⟨t, m, h1, h2, h3, h4⟩ | ⟨t, h1, h2, _, h3⟩ |
    ⟨t, tree', p, h1, h2, hl, h3, h4, h5⟩
  · rw [h] at h2; cases h2
  · rw [h] at h3; cases h3
  · rw [h] at h3; cases h3
  · rw [h] at h5
    cases h5
    refine ⟨t, p, h1, h3, fun P hbad => ?_⟩
    have hp : P.parse text path = liftV (p.val P.addLineNumbers) := by
      rw [parse_eq, h]; simp only [Except.bind, bicepToJson_program h4]
    cases hv : p.val P.addLineNumbers with
    | ok v => exact absurd hv (hbad v)
    | error e =>
      rw [hv] at hp
      cases e with
      | visit r e => exact ⟨r, e, hp⟩
      | noCallback r => exact absurd ((bicepToJson_program h4).trans hv) ((C05_no_internal_error t).2.2 _ hl _ _)

/-- all declarations of a program with a representation have one -/
theorem outs_mem {ln : Bool} {p : Program} {os : List Out} (h : p.outs ln = .ok os) {l : Lines} {d : Decl}
    (hd : (l, d) ∈ p) : ∃ o, d.out ln l = .ok o := by
  induction p generalizing os with
  | nil => simp at hd
  | cons q p ih =>
    obtain ⟨l', d'⟩ := q
    rw [Program.outs] at h
    obtain ⟨o, ho, h⟩ := bind_ok' h
    obtain ⟨os', hos', h⟩ := bind_ok' h
    rcases List.mem_cons.mp hd with hd | hd
    · cases hd; exact ⟨o, ho⟩
    · exact ih hos' hd

/-! ### C15 -/

theorem splitChars_ne_nil (c : Char) (x : List Char) : splitChars c x ≠ [] := by
  induction x with
  | nil => simp [splitChars]
  | cons a x ih =>
    rw [splitChars]
    split
    · simp
    · split <;> simp

theorem splitChars_one {c : Char} {x a : List Char} : splitChars c x = [a] ↔ x = a ∧ c ∉ x := by
  induction x generalizing a with
  | nil =>
    simp only [splitChars, List.not_mem_nil, not_false_eq_true, and_true, List.cons.injEq]
  | cons y x ih =>
    rw [splitChars]
    split
    · rename_i h
      subst h
      constructor
      · intro h; cases hs : splitChars y x with
        | nil => exact absurd hs (splitChars_ne_nil _ _)
        | cons => rw [hs] at h; cases h
      · rintro ⟨rfl, h⟩; simp at h
    · rename_i h
      cases hs : splitChars c x with
      | nil => exact absurd hs (splitChars_ne_nil _ _)
      | cons z zs =>
        simp only [List.cons.injEq]
        constructor
        · rintro ⟨rfl, rfl⟩
          obtain ⟨h1, h2⟩ := ih.mp hs
          exact ⟨by rw [h1], by simp [Ne.symm h, h2]⟩
        · intro ⟨h1, h2⟩
          rw [List.mem_cons, not_or] at h2
          subst h1
          have := ih.mpr ⟨rfl, h2.2⟩
          rw [hs] at this
          cases this
          simp

theorem splitChars_two {c : Char} {x a b : List Char} :
    splitChars c x = [a, b] ↔ x = a ++ c :: b ∧ c ∉ a ∧ c ∉ b := by
  induction x generalizing a with
  | nil => simp [splitChars]
  | cons y x ih =>
    rw [splitChars]
    split
    · rename_i h
      subst h
      simp only [List.cons.injEq]
      constructor
      · rintro ⟨rfl, h⟩
        obtain ⟨rfl, h2⟩ := splitChars_one.mp h
        exact ⟨rfl, by simp, h2⟩
      · rintro ⟨h1, h2, h3⟩
        cases a with
        | nil =>
          simp only [List.nil_append, List.cons.injEq, true_and] at h1
          subst h1
          exact ⟨rfl, splitChars_one.mpr ⟨rfl, h3⟩⟩
        | cons z a =>
          simp only [List.cons_append, List.cons.injEq] at h1
          rw [h1.1] at h2
          simp at h2
    · rename_i h
      cases hs : splitChars c x with
      | nil => exact absurd hs (splitChars_ne_nil _ _)
      | cons z zs =>
        simp only [List.cons.injEq]
        constructor
        · rintro ⟨rfl, rfl⟩
          obtain ⟨rfl, h1, h2⟩ := ih.mp hs
          exact ⟨rfl, by simp [Ne.symm h, h1], h2⟩
        · rintro ⟨h1, h2, h3⟩
          cases a with
          | nil =>
            simp only [List.nil_append, List.cons.injEq] at h1
            exact absurd h1.1 h
          | cons w a =>
            simp only [List.cons_append, List.cons.injEq] at h1
            rw [List.mem_cons, not_or] at h2
            obtain ⟨rfl, rfl⟩ := h1
            have := ih.mpr ⟨rfl, h2.2, h3⟩
            rw [hs] at this
            cases this
            exact ⟨rfl, rfl⟩

/-- type and version of a literal: exactly one `@` between them -/
theorem typeApi_iff {b : List Char} {t api : String} :
    typeApi b = .ok (t, api) ↔ b = t.toList ++ '@' :: api.toList ∧ '@' ∉ t.toList ∧ '@' ∉ api.toList := by
  rw [← splitChars_two]
  unfold typeApi splitOn
  rw [txt, String.toList_ofList]
  cases h : splitChars '@' b with
  | nil => simp
  | cons x xs =>
    rcases xs with _ | ⟨y, _ | ⟨z, zs⟩⟩
    · simp
    · simp only [List.map_cons, List.map_nil, Except.ok.injEq, Prod.mk.injEq, List.cons.injEq, and_true]
      constructor
      · rintro ⟨rfl, rfl⟩; simp
      · rintro ⟨rfl, rfl⟩; simp
    · simp

/-- **C15.** The type of a resource is the text before, its version the text after the only `@` of
the type literal. -/
theorem C15_type_and_version {P : Parser} {text path v} (h : P.parse text path = .ok v) :
    ∃ t p, chosenText text path = .ok t ∧ Spells t p ∧
      ∀ {n l ds x b ex c}, Reported p "resources" n l (.resource ds x b ex c) →
        ∃ ty api : List Char, b = ty ++ '@' :: api ∧ '@' ∉ ty ∧ '@' ∉ api ∧
          v.at? [.key "resources", .key n, .key "type"] = some (.str (String.ofList ty)) ∧
          v.at? [.key "resources", .key n, .key "api_version"] = some (.str (String.ofList api)) := by
  obtain ⟨t, p, h1, h2, hv⟩ := parse_ok h
  refine ⟨t, p, h1, h2, fun {n l ds x b ex c} hr => ?_⟩
  rw [Program.val] at hv
  obtain ⟨os, hos, hv⟩ := bind_ok' hv
  cases hv
  obtain ⟨o, attrs, ho, hown, hat⟩ := reported_entry (contribs_of hos) hr
  rw [Decl.out] at ho
  obtain ⟨vs, hvs, ho⟩ := bind_ok' ho
  obtain ⟨⟨ty, api⟩, hta, ho⟩ := bind_ok' ho
  simp only at ho
  obtain ⟨y, hy, ho⟩ := bind_ok' ho
  obtain ⟨⟨cfg, inner⟩, hr, ho⟩ := bind_ok' ho
  simp only at ho
  cases ho
  simp only [List.cons.injEq, Entry.mk.injEq, true_and, and_true] at hown
  obtain ⟨_, rfl⟩ := hown
  obtain ⟨hb, h3, h4⟩ := typeApi_iff.mp (inRule_ok hta)
  refine ⟨ty.toList, api.toList, hb, h3, h4, ?_, ?_⟩
  · rw [show [PStep.key "resources", .key n, .key "type"] = [.key "resources", .key n] ++ [.key "type"] from rfl,
      Val.at?_append, hat]
    simp [Val.at?, Val.step?, dGet]
  · rw [show [PStep.key "resources", .key n, .key "api_version"] =
      [.key "resources", .key n] ++ [.key "api_version"] from rfl, Val.at?_append, hat]
    simp [Val.at?, Val.step?, dGet]

/-- **C15.** A resource whose type literal does not contain exactly one `@` makes `parse` fail. -/
theorem C15_other_literals_fail {text path tree} (h : createTree' text path = .ok tree) :
    ∃ t p, chosenText text path = .ok t ∧ Spells t p ∧
      ∀ (P : Parser) {l ds x b ex c}, (l, Decl.resource ds x b ex c) ∈ p → b.count '@' ≠ 1 →
        ∃ r e, P.parse text path = .error (.visitError r e) := by
  obtain ⟨t, p, h1, h2, h3⟩ := tree_fails h
  refine ⟨t, p, h1, h2, fun P {l ds x b ex c} hd hc => h3 P ?_⟩
  intro v hv
  rw [Program.val] at hv
  obtain ⟨os, hos, hv⟩ := bind_ok' hv
  obtain ⟨o, ho⟩ := outs_mem hos hd
  rw [Decl.out] at ho
  obtain ⟨vs, hvs, ho⟩ := bind_ok' ho
  obtain ⟨⟨ty, api⟩, hta, ho⟩ := bind_ok' ho
  obtain ⟨rfl, h3, h4⟩ := typeApi_iff.mp (inRule_ok hta)
  apply hc
  rw [List.count_append, List.count_cons_self, List.count_eq_zero.mpr h3, List.count_eq_zero.mpr h4]

/-! ### C25, C26: data types -/

/-- `n` times `{type: array, item_type: ...}` around `v` -/
def nestArrays (n : Nat) (v : Val) : Val :=
  (fun x => Val.dict [("type", .str "array"), ("item_type", x)])^[n] v

theorem arrayOf_eq (n : Nat) (v : Val) : arrayOf n v = nestArrays n v := by
  induction n with
  | zero => rfl
  | succ n ih => rw [arrayOf, ih, nestArrays, nestArrays, Function.iterate_succ_apply']

/-- **C25.** A data type followed by `n` times `[]` is represented by `n` nested arrays around what
represents the base. -/
theorem C25_array_types {P : Parser} {text path v} (h : P.parse text path = .ok v) :
    ∃ t p, chosenText text path = .ok t ∧ Spells t p ∧
      ∀ {s nm π b n}, p.At s nm π (.type (.mk b n)) →
        v.at? (.key s :: .key nm :: π) = some (nestArrays n b.val) := by
  obtain ⟨t, p, h1, h2, h3⟩ := parse_at h
  refine ⟨t, p, h1, h2, fun ha => ?_⟩
  obtain ⟨y, hy, hat⟩ := h3 ha
  rw [Node.val, DataType.val, arrayOf_eq] at hy
  cases hy; exact hat

theorem types_get : ∀ (ds : List DataType), DataType.vals ds = ds.map DataType.val
  | [] => by rw [DataType.vals]; rfl
  | d :: ds => by rw [DataType.vals, types_get ds]; rfl

/-- **C26.** A named type is represented by its name, a union by its members in order. -/
theorem C26_unions {P : Parser} {text path v} (h : P.parse text path = .ok v) :
    ∃ t p, chosenText text path = .ok t ∧ Spells t p ∧
      (∀ {s n π x}, p.At s n π (.type (.mk (.name x) 0)) →
        v.at? (.key s :: .key n :: π) = some (.str (String.ofList x.1))) ∧
      (∀ {s n π d1 d2 ds}, p.At s n π (.type (.mk (.union d1 d2 ds) 0)) →
        v.at? (.key s :: .key n :: π) = some (.dict [("type", .str "union"),
          ("members", .list ((d1 :: d2 :: ds).map DataType.val))])) := by
  obtain ⟨t, p, h1, h2, h3⟩ := parse_at h
  refine ⟨t, p, h1, h2, fun ha => ?_, fun ha => ?_⟩
  · obtain ⟨y, hy, hat⟩ := h3 ha
    rw [Node.val, DataType.val, arrayOf, BaseType.val] at hy
    cases hy; exact hat
  · obtain ⟨y, hy, hat⟩ := h3 ha
    rw [Node.val, DataType.val, arrayOf, BaseType.val, types_get] at hy
    cases hy; exact hat

theorem ofList_inj {x y : List Char} (h : String.ofList x = String.ofList y) : x = y := by
  have := congrArg String.toList h
  simpa using this

mutual
theorem type_inj : (a b : DataType) → a.val = b.val → a = b
  | .mk b n, .mk b' n', h => by
    rw [DataType.val, DataType.val] at h
    have : n = n' ∧ b.val = b'.val := by
      clear * - h
      have hb : ∀ (b : BaseType) n v, arrayOf (n + 1) v ≠ b.val := by
        intro b n v h
        cases b with
        | name x => rw [BaseType.val, arrayOf] at h; cases h
        | union => rw [BaseType.val, arrayOf] at h; simp at h
      induction n generalizing n' with
      | zero =>
        cases n' with
        | zero => exact ⟨rfl, h⟩
        | succ n' => exact absurd h.symm (hb _ _ _)
      | succ n ih =>
        cases n' with
        | zero => exact absurd h (hb _ _ _)
        | succ n' =>
          rw [arrayOf, arrayOf] at h
          simp only [Val.dict.injEq, List.cons.injEq, Prod.mk.injEq, true_and, and_true] at h
          obtain ⟨h1, h2⟩ := ih n' h
          exact ⟨by rw [h1], h2⟩
    obtain ⟨rfl, h'⟩ := this
    rw [base_inj b b' h']
theorem base_inj : (a b : BaseType) → a.val = b.val → a = b
  | .name x, .name y, h => by
    rw [BaseType.val, BaseType.val] at h
    rw [Subtype.ext (ofList_inj (Val.str.inj h))]
  | .name x, .union d1 d2 ds, h => by rw [BaseType.val, BaseType.val] at h; cases h
  | .union d1 d2 ds, .name x, h => by rw [BaseType.val, BaseType.val] at h; cases h
  | .union d1 d2 ds, .union d1' d2' ds', h => by
    rw [BaseType.val, BaseType.val] at h
    simp only [Val.dict.injEq, List.cons.injEq, Prod.mk.injEq, true_and, and_true, Val.list.injEq] at h
    rw [type_inj d1 d1' h.1, type_inj d2 d2' h.2.1, types_inj ds ds' h.2.2]
theorem types_inj : (a b : List DataType) → DataType.vals a = DataType.vals b → a = b
  | [], [], _ => rfl
  | [], _ :: _, h => by rw [DataType.vals, DataType.vals] at h; cases h
  | _ :: _, [], h => by rw [DataType.vals, DataType.vals] at h; cases h
  | d :: ds, d' :: ds', h => by
    rw [DataType.vals, DataType.vals] at h
    simp only [List.cons.injEq] at h
    rw [type_inj d d' h.1, types_inj ds ds' h.2]
end

/-- **C26.** Different data types are never represented alike. -/
theorem C26_injective {a b : DataType} (h : a.val = b.val) : a = b := type_inj a b h

/-! ### C34, C35: nested resources -/

/-- a text followed by further texts, separated -/
def joined (sep : String) (first : String) (more : List String) : String :=
  more.foldl (fun s x => s ++ sep ++ x) first

theorem chainNames_get (n : String) (rs : List Nested) (i : Nat) (hi : i < rs.length) :
    (chainNames n rs)[i]? = some (joined "__" n ((rs.take (i + 1)).map (fun r => String.ofList r.name.1))) := by
  induction rs generalizing n i with
  | nil => simp at hi
  | cons r rs ih =>
    cases i with
    | zero => simp [chainNames, joined]
    | succ i =>
      rw [chainNames, List.getElem?_cons_succ, ih _ i (by simpa using hi)]
      simp [joined]

theorem chainTypes_get (n : String) (rs : List Nested) (i : Nat) (hi : i < rs.length) :
    (chainTypes n rs)[i]? = some (joined "/" n ((rs.take (i + 1)).map (fun r => String.ofList r.type))) := by
  induction rs generalizing n i with
  | nil => simp at hi
  | cons r rs ih =>
    cases i with
    | zero => simp [chainTypes, joined]
    | succ i =>
      rw [chainTypes, List.getElem?_cons_succ, ih _ i (by simpa using hi)]
      simp [joined]

/-- **C34.** A resource nested in a chain of resources, `i + 1` levels deep, is reported under the
names joined by `__`, with the types joined by `/`, the version of the outermost resource, and its
parent as the last of its dependencies, after those it has of its own. -/
theorem C34_nested_resources {P : Parser} {text path v} (h : P.parse text path = .ok v) :
    ∃ t p, chosenText text path = .ok t ∧ Spells t p ∧
      ∀ {n x b rs i r}, NestedReported p n x b rs i r →
        ∃ (ty api : String) (d : List (String × Val)) (deps : List Val),
          b = ty.toList ++ '@' :: api.toList ∧
          n = joined "__" (String.ofList x.1) ((rs.take (i + 1)).map (fun r => String.ofList r.name.1)) ∧
          v.at? [.key "resources", .key n, .key "type"] =
            some (.str (joined "/" ty ((rs.take (i + 1)).map (fun r => String.ofList r.type)))) ∧
          v.at? [.key "resources", .key n, .key "api_version"] = some (.str api) ∧
          v.at? [.key "resources", .key n, .key "existing"] = some (.bool r.existing) ∧
          r.config.val P.addLineNumbers = .ok (.dict d) ∧
          (dGet "depends_on" d = some (.list deps) ∨ dGet "depends_on" d = .none ∧ deps = []) ∧
          v.at? [.key "resources", .key n, .key "config", .key "depends_on"] =
            some (.list (deps ++ [.elem (joined "__" (String.ofList x.1)
              ((rs.take i).map (fun r => String.ofList r.name.1)))])) := by
  obtain ⟨t, p, h1, h2, hv⟩ := parse_ok h
  refine ⟨t, p, h1, h2, fun {n x b rs i r} hr => ?_⟩
  rw [Program.val] at hv
  obtain ⟨os, hos, hv⟩ := bind_ok' hv
  cases hv
  obtain ⟨ty, api, T, parent, d, deps, hta, hT, hpar, hd, hdeps, hat⟩ := nested_entry (contribs_of hos) hr
  obtain ⟨before, l, ds, ex, c, later, _, _, hri, hni, _⟩ := hr
  have hi : i < rs.length := (List.getElem?_eq_some_iff.mp hri).1
  rw [chainNames_get _ _ _ hi] at hni
  rw [chainTypes_get _ _ _ hi] at hT
  have hpar' : parent = joined "__" (String.ofList x.1) ((rs.take i).map (fun r => String.ofList r.name.1)) := by
    cases i with
    | zero => simp at hpar; rw [← hpar]; rfl
    | succ i =>
      rw [List.getElem?_cons_succ, chainNames_get _ _ _ (by omega)] at hpar
      exact (Option.some.inj hpar).symm
  refine ⟨ty, api, d, deps, (typeApi_iff.mp hta).1, (Option.some.inj hni).symm, ?_, ?_, ?_, hd, hdeps, ?_⟩
  · rw [show [PStep.key "resources", .key n, .key "type"] = [.key "resources", .key n] ++ [.key "type"] from rfl,
      Val.at?_append, hat, Option.some.inj hT]
    simp [Val.at?, Val.step?, dGet]
  · rw [show [PStep.key "resources", .key n, .key "api_version"] =
      [.key "resources", .key n] ++ [.key "api_version"] from rfl, Val.at?_append, hat]
    simp [Val.at?, Val.step?, dGet]
  · rw [show [PStep.key "resources", .key n, .key "existing"] =
      [.key "resources", .key n] ++ [.key "existing"] from rfl, Val.at?_append, hat]
    simp [Val.at?, Val.step?, dGet]
  · rw [show [PStep.key "resources", .key n, .key "config", .key "depends_on"] =
      [.key "resources", .key n] ++ [.key "config", .key "depends_on"] from rfl, Val.at?_append, hat, ← hpar']
    have hg : dGet "depends_on" (nestedConfig parent deps d) = some (.list (deps ++ [.elem parent])) := by
      unfold nestedConfig
      rw [dGet_dErase (by decide), dGet_dSet_self]
    simp [Val.at?, Val.step?, dGet, hg]

/-- the resources declared somewhere in the body of a resource, directly or in a nested resource -/
inductive Inside : Config → Nested → Prop where
  | here {is} {r : Nested} : r.item ∈ is → Inside (.obj is) r
  | deeper {is} {r s : Nested} : s.item ∈ is → Inside s.config r → Inside (.obj is) r

/-- no body has two resources nested directly in it -/
def AtMostOne (c : Config) : Prop :=
  ∀ is, (c = .obj is ∨ ∃ r : Nested, Inside c r ∧ r.config = .obj is) →
    (is.filter (fun i => i.key = "__child_resource__")).length ≤ 1

theorem lastEntry_exists {es : List Entry} {e : Entry} (h : e ∈ es) : ∃ attrs, LastEntry es e.sec e.name attrs := by
  have key : ∀ (es : List Entry), (∃ e' ∈ es, e'.sec = e.sec ∧ e'.name = e.name) →
      ∃ attrs, LastEntry es e.sec e.name attrs := by
    intro es
    induction es using List.reverseRecOn with
    | nil => simp
    | append_singleton es f ih =>
      intro h
      by_cases hf : f.sec = e.sec ∧ f.name = e.name
      · refine ⟨f.attrs, es, [], ?_, by simp⟩
        obtain ⟨s, n, a⟩ := f
        simp only at hf
        rw [hf.1, hf.2]
      · obtain ⟨e', he', hs⟩ := h
        have : e' ∈ es := by
          rcases List.mem_append.mp he' with he' | he'
          · exact he'
          · rw [List.mem_singleton] at he'; subst he'; exact absurd hs hf
        obtain ⟨attrs, a, b, rfl, hb⟩ := ih ⟨e', this, hs⟩
        refine ⟨attrs, a, b ++ [f], by simp, ?_⟩
        intro g hg
        rcases List.mem_append.mp hg with hg | hg
        · exact hb g hg
        · rw [List.mem_singleton] at hg; subst hg; exact hf
  exact key es ⟨e, h, rfl, rfl⟩

theorem inside_chain {c : Config} {rs : List Nested} (hc : Chain c rs) (h1 : AtMostOne c) {r : Nested}
    (h : Inside c r) : r ∈ rs := by
  induction hc generalizing r with
  | @nil c hno =>
    cases h with
    | here hm => exact absurd rfl (hno _ hm)
    | deeper hm _ => exact absurd rfl (hno _ hm)
  | @cons c s rs hch _ ih =>
    obtain ⟨is, rfl, a, b, rfl, hk, hb⟩ := hch
    have hone := h1 _ (.inl rfl)
    -- the only nested resource of this body is `s`
    have only : ∀ q : Nested, q.item ∈ a ++ s.item :: b → q = s := by
      intro q hq
      have hmem : q.item ∈ (a ++ s.item :: b).filter (fun i => i.key = "__child_resource__") :=
        List.mem_filter.mpr ⟨hq, by simp [Nested.item, Item.key]⟩
      have hmem' : s.item ∈ (a ++ s.item :: b).filter (fun i => i.key = "__child_resource__") :=
        List.mem_filter.mpr ⟨by simp, by simp [Nested.item, Item.key]⟩
      have he : q.item = s.item := by
        match hf : (a ++ s.item :: b).filter (fun i => i.key = "__child_resource__"), hone with
        | [], _ => rw [hf] at hmem; simp at hmem
        | [z], _ =>
          rw [hf, List.mem_singleton] at hmem hmem'
          rw [hmem, hmem']
        | _ :: _ :: _, h => rw [hf] at h; simp at h
      obtain ⟨l, x, t, ex, c⟩ := q
      obtain ⟨l', x', t', ex', c'⟩ := s
      simp only [Nested.item, Item.child.injEq] at he
      obtain ⟨rfl, rfl, rfl, rfl, rfl⟩ := he
      rfl
    cases h with
    | here hm => rw [only _ hm]; exact List.mem_cons_self ..
    | @deeper _ _ q hm hin =>
      have hq := only _ hm
      subst hq
      refine List.mem_cons_of_mem _ (ih ?_ hin)
      rintro is' (h | ⟨q', hq', he⟩)
      · exact h1 is' (.inr ⟨q, .here (by simp), h⟩)
      · exact h1 is' (.inr ⟨q', .deeper (by simp) hq', he⟩)

/-- **C35, partial.** If no body has two resources nested directly in it and the key
`__child_resource__` is not used, every resource declared in the body of a resource is in the
section `resources`. -/
theorem C35_nested_partial {P : Parser} {text path v} (h : P.parse text path = .ok v) :
    ∃ t p, chosenText text path = .ok t ∧ Spells t p ∧
      ∀ {l ds x b ex c r}, (l, Decl.resource ds x b ex c) ∈ p → c.Tidy → AtMostOne c → Inside c r →
        ∃ n rs, ∃ i : Nat, ∃ attrs, Chain c rs ∧ rs[i]? = some r ∧ (chainNames (String.ofList x.1) rs)[i]? = some n ∧
          v.at? [.key "resources", .key n] = some (.dict attrs) := by
  obtain ⟨t, p, h1, h2, hv⟩ := parse_ok h
  refine ⟨t, p, h1, h2, fun {l ds x b ex c r} hd ht hone hin => ?_⟩
  rw [Program.val] at hv
  obtain ⟨os, hos, hv⟩ := bind_ok' hv
  cases hv
  obtain ⟨rs, hrs⟩ := tidy_chain _ c (Nat.lt_succ_self _) ht
  obtain ⟨i, hi⟩ := List.mem_iff_getElem?.mp (inside_chain hrs hone hin)
  obtain ⟨before, later, rfl⟩ := List.append_of_mem hd
  obtain ⟨os1, os2, rfl, hc1, hc2⟩ := contribs_append (contribs_of hos)
  cases hc2 with
  | @cons _ _ _ o os2 ho _ =>
    obtain ⟨vs, ty, api, d, _, _, _, _, _, hout⟩ := resource_out ho hrs
    obtain ⟨m, T, parent, d, deps, h3, h4, h5, h6, h7, h8⟩ := nestedOut_get hout hi
    have hmem := List.mem_of_getElem? h8
    obtain ⟨attrs, hat⟩ := lastEntry_exists (es := entries P.addLineNumbers (os1 ++ o :: os2))
      (List.mem_cons_of_mem _ (List.mem_append_right _ (List.mem_flatMap.mpr ⟨o, by simp, hmem⟩)))
    exact ⟨m, rs, i, attrs, hrs, hi, h3, (collect_get _ _ _ _).mpr ⟨attrs, rfl, hat⟩⟩

/-- **C35 does not hold in general**: of two resources nested in the same body the first one is
lost. -/
theorem C35_counterexample : Parser.parse ⟨false⟩ (some "resource a 'T@1' = {\n  resource b 'u' = {\n  }\n  resource c 'w' = {\n  }\n}\n") .none =
    .ok (.dict [("globals", .dict [("scope", .dict [("value", .str "resourceGroup")])]),
      ("resources", .dict [("a", .dict [("decorators", .list []), ("type", .str "T"), ("api_version", .str "1"),
        ("existing", .bool false), ("config", .dict [])]),
        ("a__c", .dict [("decorators", .list []), ("type", .str "T/w"), ("api_version", .str "1"),
        ("existing", .bool false), ("config", .dict [("depends_on", .list [.elem "a"])])])])]) :=
  eq_of_outIs (by decide +kernel)

/-- two levels of nested resources -/
example : Parser.parse ⟨false⟩ (some "resource a 'T@1' = {\n  resource b 'u' = {\n    resource c 'w' = {\n      depends_on: [x]\n    }\n  }\n}\n") .none =
    .ok (.dict [("globals", .dict [("scope", .dict [("value", .str "resourceGroup")])]),
      ("resources", .dict [("a", .dict [("decorators", .list []), ("type", .str "T"), ("api_version", .str "1"),
        ("existing", .bool false), ("config", .dict [])]),
        ("a__b", .dict [("decorators", .list []), ("type", .str "T/u"), ("api_version", .str "1"),
        ("existing", .bool false), ("config", .dict [("depends_on", .list [.elem "a"])])]),
        ("a__b__c", .dict [("decorators", .list []), ("type", .str "T/u/w"), ("api_version", .str "1"),
        ("existing", .bool false), ("config", .dict [("depends_on", .list [.elem "x", .elem "a__b"])])])])]) :=
  eq_of_outIs (by decide +kernel)

/-! ### C38: imports -/

/-- the attributes of an imported name -/
def importAttrs (file : List Char) (al : Option Ident) : List (String × Val) :=
  ("file_path", .str (String.ofList file)) ::
    (match al with | some a => [("alias", .str (String.ofList a.1))] | .none => [])

/-- the last import of a name -/
def LastImport (p : Program) (n : String) (l : Lines) (b : List Char) (al : Option Ident) : Prop :=
  ∃ before i is later a c, p = before ++ (l, .importFrom i is b) :: later ∧
    i :: is = a ++ c ∧ (∃ j r, c = j :: r ∧ j.name.text = n ∧ j.alias = al ∧ ∀ k ∈ r, k.name.text ≠ n) ∧
    ∀ q ∈ later, n ∉ q.2.importNames

/-- entries of the section `imports` come from imports -/
theorem own_not_imports {ln : Bool} {p : Program} {os : List Out} (h : Contribs ln p os) :
    ∀ e ∈ os.flatMap Out.own, e.sec ≠ "imports" := by
  intro e he hs
  have := List.mem_map_of_mem (f := Entry.place) he
  rw [contribs_own h] at this
  obtain ⟨q, _, hq⟩ := List.mem_flatMap.mp this
  have := mem_ownName (s := e.sec) (n := e.name) hq
  exact ownName_ne_imports hq hs

/-- **C38.** A name imported from a file is reported with the file and its alias, if any; `*` is
reported under `*`. -/
theorem C38_imports {P : Parser} {text path v} (h : P.parse text path = .ok v) :
    ∃ t p, chosenText text path = .ok t ∧ Spells t p ∧
      ∀ {n l b al}, LastImport p n l b al →
        v.at? [.key "imports", .key n] = some (.dict (importAttrs b al ++ lineItems P.addLineNumbers l)) := by
  obtain ⟨t, p, h1, h2, hv⟩ := parse_ok h
  refine ⟨t, p, h1, h2, fun {n l b al} hr => ?_⟩
  rw [Program.val] at hv
  obtain ⟨os, hos, hv⟩ := bind_ok' hv
  cases hv
  obtain ⟨before, i, is, later, a, c, rfl, hsplit, ⟨j, r, rfl, hj, hal, hr⟩, hlater⟩ := hr
  have hc := contribs_of hos
  obtain ⟨os1, os2, rfl, hc1, hc2⟩ := contribs_append hc
  cases hc2 with
  | @cons _ _ _ o os2 ho hc2 =>
    rw [Decl.out] at ho
    cases ho
    rw [hsplit] at hc ⊢
    refine (collect_get _ _ _ _).mpr ⟨_, rfl, ?_⟩
    refine ⟨defaultScope P.addLineNumbers :: ((os1 ++ ⟨[], (a ++ j :: r).map (ImportItem.entry P.addLineNumbers l b), []⟩ :: os2).flatMap Out.own ++
        (os1.flatMap Out.imports ++ a.map (ImportItem.entry P.addLineNumbers l b))),
      r.map (ImportItem.entry P.addLineNumbers l b) ++ os2.flatMap Out.imports ++
        (os1 ++ ⟨[], (a ++ j :: r).map (ImportItem.entry P.addLineNumbers l b), []⟩ :: os2).flatMap Out.children, ?_, ?_⟩
    · have he : (⟨"imports", n, importAttrs b al ++ lineItems P.addLineNumbers l⟩ : Entry) =
          ImportItem.entry P.addLineNumbers l b j := by
        unfold ImportItem.entry importAttrs
        rw [hj, hal]
        cases al <;> simp [aliasItem]
      rw [he, entries]
      simp only [List.flatMap_append, List.flatMap_cons, List.map_append, List.map_cons, List.append_assoc,
        List.cons_append, List.nil_append]
    · intro e he hse
      rcases List.mem_append.mp he with he | he
      · rcases List.mem_append.mp he with he | he
        · obtain ⟨k, hk, rfl⟩ := List.mem_map.mp he
          exact hr k hk hse.2
        · have := List.mem_map_of_mem (f := Entry.place) he
          rw [contribs_imports hc2] at this
          obtain ⟨m, hm, hme⟩ := List.mem_map.mp this
          obtain ⟨q, hq, hm⟩ := List.mem_flatMap.mp hm
          have : m = n := by
            have := congrArg Prod.snd hme
            simp only [Entry.place] at this
            rw [this, hse.2]
          subst this
          exact hlater q hq hm
      · have := contribs_children hc e he
        rw [hse.1] at this
        exact absurd this (by decide)

/-- the last import of a namespace -/
def LastNamespace (p : Program) (b : List Char) : Prop :=
  ∃ before l later, p = before ++ (l, .importNs b) :: later ∧ ∀ q ∈ later, String.ofList b ∉ q.2.importNames

/-- **C38.** An imported namespace has no attributes. -/
theorem C38_namespaces {P : Parser} {text path v} (h : P.parse text path = .ok v) :
    ∃ t p, chosenText text path = .ok t ∧ Spells t p ∧
      ∀ {b}, LastNamespace p b → v.at? [.key "imports", .key (String.ofList b)] = some (.dict []) := by
  obtain ⟨t, p, h1, h2, hv⟩ := parse_ok h
  refine ⟨t, p, h1, h2, fun {b} hr => ?_⟩
  rw [Program.val] at hv
  obtain ⟨os, hos, hv⟩ := bind_ok' hv
  cases hv
  obtain ⟨before, l, later, rfl, hlater⟩ := hr
  have hc := contribs_of hos
  obtain ⟨os1, os2, rfl, hc1, hc2⟩ := contribs_append hc
  cases hc2 with
  | @cons _ _ _ o os2 ho hc2 =>
    rw [Decl.out] at ho
    cases ho
    refine (collect_get _ _ _ _).mpr ⟨_, rfl, ?_⟩
    refine ⟨defaultScope P.addLineNumbers :: ((os1 ++ ⟨[], [⟨"imports", txt b, []⟩], []⟩ :: os2).flatMap Out.own ++
        os1.flatMap Out.imports), os2.flatMap Out.imports ++
        (os1 ++ ⟨[], [⟨"imports", txt b, []⟩], []⟩ :: os2).flatMap Out.children, ?_, ?_⟩
    · rw [entries]
      simp only [List.flatMap_append, List.flatMap_cons, List.append_assoc, List.cons_append, List.nil_append, txt]
    · intro e he hse
      rcases List.mem_append.mp he with he | he
      · have := List.mem_map_of_mem (f := Entry.place) he
        rw [contribs_imports hc2] at this
        obtain ⟨m, hm, hme⟩ := List.mem_map.mp this
        obtain ⟨q, hq, hm⟩ := List.mem_flatMap.mp hm
        have : m = String.ofList b := by
          have := congrArg Prod.snd hme
          simp only [Entry.place] at this
          rw [this, hse.2]
        subst this
        exact hlater q hq hm
      · have := contribs_children hc e he
        rw [hse.1] at this
        exact absurd this (by decide)

/-- imports of all kinds -/
example : Parser.parse ⟨true⟩ (some "import 'az'\nimport {a, b as c} from 'f'\nimport * as d from 'g'\n") .none =
    .ok (.dict [("globals", .dict [("scope", .dict [("value", .str "resourceGroup"), ("__start_line__", .int 0),
        ("__end_line__", .int 0)])]),
      ("imports", .dict [("az", .dict []),
        ("a", .dict [("file_path", .str "f"), ("__start_line__", .int 2), ("__end_line__", .int 2)]),
        ("b", .dict [("file_path", .str "f"), ("alias", .str "c"), ("__start_line__", .int 2), ("__end_line__", .int 2)]),
        ("*", .dict [("file_path", .str "g"), ("alias", .str "d"), ("__start_line__", .int 3), ("__end_line__", .int 3)])])]) :=
  eq_of_outIs (by decide +kernel)

/-! ### C39: user-defined functions -/

/-- **C39.** The arguments of a user-defined function with distinct parameter names are its
parameters in order, each with its data type; its type is the declared one. -/
theorem C39_functions {P : Parser} {text path v} (h : P.parse text path = .ok v) :
    ∃ t p, chosenText text path = .ok t ∧ Spells t p ∧
      ∀ {n l ds x params ret body}, Reported p "functions" n l (.func ds x params ret body) →
        (params.map Prod.fst).Nodup →
        v.at? [.key "functions", .key n, .key "args"] =
          some (.dict (params.map (fun q => (String.ofList q.1.1, q.2.val)))) ∧
        v.at? [.key "functions", .key n, .key "type"] = some ret.val := by
  obtain ⟨t, p, h1, h2, hv⟩ := parse_ok h
  refine ⟨t, p, h1, h2, fun {n l ds x params ret body} hr hn => ?_⟩
  rw [Program.val] at hv
  obtain ⟨os, hos, hv⟩ := bind_ok' hv
  cases hv
  obtain ⟨o, attrs, ho, hown, hat⟩ := reported_entry (contribs_of hos) hr
  rw [Decl.out] at ho
  obtain ⟨vs, hvs, ho⟩ := bind_ok' ho
  obtain ⟨y, hy, ho⟩ := bind_ok' ho
  cases ho
  simp only [List.cons.injEq, Entry.mk.injEq, true_and, and_true] at hown
  obtain ⟨_, rfl⟩ := hown
  have hn' : ((params.map (fun q => (txt q.1.1, q.2.val))).map Prod.fst).Nodup := by
    have := hn.map (f := fun z : Ident => txt z.1) (fun a b hab => Subtype.ext (ofList_inj hab))
    rw [List.map_map] at this ⊢
    exact this
  rw [lastWins_of_nodup hn'] at hat
  refine ⟨?_, ?_⟩
  · rw [show [PStep.key "functions", .key n, .key "args"] =
      [.key "functions", .key n] ++ [.key "args"] from rfl, Val.at?_append, hat]
    simp [Val.at?, Val.step?, dGet, txt]
  · rw [show [PStep.key "functions", .key n, .key "type"] =
      [.key "functions", .key n] ++ [.key "type"] from rfl, Val.at?_append, hat]
    simp [Val.at?, Val.step?, dGet]

/-- a function with two parameters -/
example : Parser.parse ⟨false⟩ (some "func f(a string, b int[]) bool => a\n") .none =
    .ok (.dict [("globals", .dict [("scope", .dict [("value", .str "resourceGroup")])]),
      ("functions", .dict [("f", .dict [("decorators", .list []), ("args", .dict [("a", .str "string"),
        ("b", .dict [("type", .str "array"), ("item_type", .str "int")])]), ("type", .str "bool"),
        ("expression", .elem "a")])])]) :=
  eq_of_outIs (by decide +kernel)

/-- a parameter whose type is an array of a union -/
example : Parser.parse ⟨false⟩ (some "param p (a | b[])[]\n") .none =
    .ok (.dict [("globals", .dict [("scope", .dict [("value", .str "resourceGroup")])]),
      ("parameters", .dict [("p", .dict [("decorators", .list []),
        ("type", .dict [("type", .str "array"), ("item_type", .dict [("type", .str "union"), ("members",
          .list [.str "a", .dict [("type", .str "array"), ("item_type", .str "b")]])])]), ("default", .none)])])]) :=
  eq_of_outIs (by decide +kernel)

/-- a type literal without version -/
example : ∃ r e, Parser.parse ⟨false⟩ (some "resource a 'T' = {\n}\n") .none = .error (.visitError r e) :=
  ⟨_, _, eq_of_errIs (e := .visitError "type_api_pair" (.valueError "")) (by decide +kernel)⟩

end Pycep
