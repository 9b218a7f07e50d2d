import Verif.Proofs.Documents
/-
C68: the result determines the document.
-/
namespace Pycep

/-- **C68.** Two documents about which nothing is lost have equal results if and only if they are the
same document. Both are parsed with or both without line numbers. -/
theorem C68_same {P P' : Parser} {text path text' path' v v'} (hln : P'.addLineNumbers = P.addLineNumbers)
    (h : P.parse text path = .ok v) (h' : P'.parse text' path' = .ok v') :
    ∃ t p t' p', chosenText text path = .ok t ∧ Spells t p ∧ chosenText text' path' = .ok t' ∧ Spells t' p' ∧
      (p.Faithful → p'.Faithful → (v = v' ↔ p.Same P.addLineNumbers p')) := by
  obtain ⟨t, p, os, h1, h2, h3, rfl⟩ := parse_entries h
  obtain ⟨t', p', os', h1', h2', h3', rfl⟩ := parse_entries h'
  rw [hln] at h3'
  refine ⟨t, p, t', p', h1, h2, h1', h2', fun hf hf' => ?_⟩
  rw [Val.dict.injEq, hln]
  exact program_same_iff h3 h3' hf hf'

/-! ### Concrete cases -/

/-- `@sys.minLength(3) @own(m) param n t = -1`, `import {m as n} from 'f'` and
`resource n 'A/b@1' = if (m) { resource: n }` -/
private def sample (a x : DecoName) (n m : Ident) (d d1 : Digits) (t : DataType) : Program :=
  [((1, 2), .param [⟨a, some (.int d)⟩, ⟨x, some (.ident m)⟩] n t (some (.minus (.int d1)))),
   ((3, 3), .importFrom ⟨.name m, some n⟩ [] ['f']),
   ((4, 4), .resource [] n "A/b@1".toList false (.cond (.ident m) (.object [.pair .resource (.ident n)])))]

/-- it is faithful -/
example (a x : DecoName) (n m : Ident) (d d1 : Digits) (t : DataType) (ha : a.1 = "sys.minLength".toList)
    (hx : x.1 = "own".toList) : (sample a x n m d d1 t).Faithful := by
  refine ⟨by simp [sample, Decl.declares, Decl.ownName], ?_⟩
  have h1 : ∀ n ∈ "minValue" :: "maxValue" :: flags, "sys.minLength" ∉ decoNames n ∧ "own" ∉ decoNames n := by decide +kernel
  intro q hq
  simp only [sample, List.mem_cons, List.not_mem_nil, or_false] at hq
  rcases hq with rfl | rfl | rfl
  · refine ⟨?_, ?_⟩
    · intro y hy
      simp only [List.mem_cons, List.not_mem_nil, or_false] at hy
      rcases hy with rfl | rfl
      · have e : String.ofList a.1 = "sys.minLength" := by rw [ha]; rfl
        refine ⟨fun n hn h => ?_, fun h => ?_, fun h => ?_, ?_⟩
        · rw [e] at h; exact ((h1 n (by simp [hn])).1 h).elim
        · rw [e] at h; exact ((h1 _ (by simp)).1 h).elim
        · rw [e] at h; exact ((h1 _ (by simp)).1 h).elim
        · intro z hz; cases hz; simp [Expr.Faithful]
      · have e : String.ofList x.1 = "own" := by rw [hx]; rfl
        refine ⟨fun n hn h => ?_, fun h => ?_, fun h => ?_, ?_⟩
        · rw [e] at h; exact ((h1 n (by simp [hn])).2 h).elim
        · rw [e] at h; exact ((h1 _ (by simp)).2 h).elim
        · rw [e] at h; exact ((h1 _ (by simp)).2 h).elim
        · intro z hz; cases hz; simp [Expr.Faithful]
    · intro z hz; cases hz; simp [Expr.Faithful]
  · exact trivial
  · refine ⟨by simp, ?_, trivial⟩
    simp [Config.Faithful, Expr.Faithful, Item.FaithfulAll, Item.Faithful, Item.key, Key.text, reservedKeys]

/-- the prefix of the decorator and the order of declarations of different kinds do not matter here -/
example (a a' x : DecoName) (n m : Ident) (d d1 : Digits) (t : DataType) (ha : a.1 = "sys.minLength".toList)
    (ha' : a'.1 = "minLength".toList) :
    (sample a x n m d d1 t).Same false
      [((9, 9), .importFrom ⟨.name m, some n⟩ [] ['f']), ((7, 7), .scope "resourceGroup".toList),
       ((2, 2), .param [⟨a', some (.int d)⟩, ⟨x, some (.ident m)⟩] n t (some (.minus (.int d1)))),
       ((1, 1), .resource [] n "A/b@1".toList false (.cond (.ident m) (.object [.pair .resource (.ident n)])))] := by
  have hs : SameDeco a a' := .inr ⟨"minLength", by decide, by
    rw [ha, show String.ofList "sys.minLength".toList = "sys.minLength" from rfl]; decide, by
    rw [ha', show String.ofList "minLength".toList = "minLength" from rfl]; decide⟩
  refine ⟨fun k _ => ?_, by simp [sample, Program.kinds, Decl.kind, ordinary], by
    simp [sample, Program.imported, Decl.imported], by simp [sample, Program.target, Decl.target]⟩
  by_cases h1 : k = "parameters"
  · subst h1
    simp only [sample, Program.ofKind, List.filter, Decl.kind, String.reduceEq, decide_false, decide_true]
    exact .cons ⟨.param (.cons ⟨hs, .some (.int rfl)⟩ (.cons ⟨.inl rfl, .some .ident⟩ .nil))
      (.some (.minus (.int rfl))), by simp⟩ .nil
  · by_cases h2 : k = "resources"
    · subst h2
      simp only [sample, Program.ofKind, List.filter, Decl.kind, String.reduceEq, decide_false, decide_true]
      exact .cons ⟨.resource .nil (.cond .ident (.object (.cons (.pair rfl .ident) .nil))), by simp⟩ .nil
    · rename_i hk
      have h3 : k ≠ "imports" := by rintro rfl; cases hk
      have h4 : k ≠ "globals" := by rintro rfl; cases hk
      simp only [sample, Program.ofKind, List.filter, Decl.kind, Ne.symm h1, Ne.symm h2, Ne.symm h3, Ne.symm h4,
        decide_false]
      exact .nil

/-- interleaving does not matter -/
example : Parser.parse ⟨false⟩ (some "import {x} from 'f'\nparam a string\nvar b = 1\nparam c int\nimport {y} from 'f'\n") .none =
    Parser.parse ⟨false⟩ (some "param a string = null\nparam c int\nvar b = 01\nimport {x, y} from 'f'\n") .none :=
  (eq_of_outIs (v := .dict [("globals", .dict [("scope", .dict [("value", .str "resourceGroup")])]),
      ("parameters", .dict [("a", .dict [("decorators", .list []), ("type", .str "string"), ("default", .none)]),
        ("c", .dict [("decorators", .list []), ("type", .str "int"), ("default", .none)])]),
      ("variables", .dict [("b", .dict [("decorators", .list []), ("value", .int 1)])]),
      ("imports", .dict [("x", .dict [("file_path", .str "f")]), ("y", .dict [("file_path", .str "f")])])])
    (by decide +kernel)).trans (eq_of_outIs (by decide +kernel)).symm

/-- why names declared twice are left out -/
example : Parser.parse ⟨false⟩ (some "var b = 1\nvar b = 2\n") .none =
    Parser.parse ⟨false⟩ (some "var b = 2\n") .none :=
  (eq_of_outIs (v := .dict [("globals", .dict [("scope", .dict [("value", .str "resourceGroup")])]),
      ("variables", .dict [("b", .dict [("decorators", .list []), ("value", .int 2)])])])
    (by decide +kernel)).trans (eq_of_outIs (by decide +kernel)).symm

/-- why arguments of flags and arguments of `maxValue` other than numbers are left out -/
example : Parser.parse ⟨false⟩ (some "@secure(1)\n@maxValue('5')\nparam a int\n") .none =
    Parser.parse ⟨false⟩ (some "@secure()\n@maxValue(5)\nparam a int\n") .none :=
  (eq_of_outIs (v := .dict [("globals", .dict [("scope", .dict [("value", .str "resourceGroup")])]),
      ("parameters", .dict [("a", .dict [("decorators", .list [.dict [("type", .str "secure")],
        .dict [("type", .str "max_value"), ("argument", .int 5)]]), ("type", .str "int"), ("default", .none)])])])
    (by decide +kernel)).trans (eq_of_outIs (by decide +kernel)).symm

/-- why `-0` is left out as an argument of `minValue` -/
example : Parser.parse ⟨false⟩ (some "@minValue(-0)\nparam a int\n") .none =
    Parser.parse ⟨false⟩ (some "@minValue(0)\nparam a int\n") .none :=
  (eq_of_outIs (v := .dict [("globals", .dict [("scope", .dict [("value", .str "resourceGroup")])]),
      ("parameters", .dict [("a", .dict [("decorators", .list [
        .dict [("type", .str "min_value"), ("argument", .int 0)]]), ("type", .str "int"), ("default", .none)])])])
    (by decide +kernel)).trans (eq_of_outIs (by decide +kernel)).symm

/-- why negated names are left out as arguments of `minValue` -/
example : Parser.parse ⟨false⟩ (some "@minValue(-x)\nparam a int\n") .none =
    Parser.parse ⟨false⟩ (some "@minValue(-y)\nparam a int\n") .none :=
  (eq_of_outIs (v := .dict [("globals", .dict [("scope", .dict [("value", .str "resourceGroup")])]),
      ("parameters", .dict [("a", .dict [("decorators", .list [
        .dict [("type", .str "min_value"), ("argument", .str "")]]), ("type", .str "int"), ("default", .none)])])])
    (by decide +kernel)).trans (eq_of_outIs (by decide +kernel)).symm

/-- why types with alternatives are left out -/
example : Parser.parse ⟨false⟩ (some "type a = 'x' | 'y'\n") .none =
    Parser.parse ⟨false⟩ (some "type a = 'x | y'\n") .none :=
  (eq_of_outIs (v := .dict [("globals", .dict [("scope", .dict [("value", .str "resourceGroup")])]),
      ("types", .dict [("a", .dict [("decorators", .list []), ("value", .str "x | y")])])])
    (by decide +kernel)).trans (eq_of_outIs (by decide +kernel)).symm

/-- why functions with equally named parameters are left out -/
example : Parser.parse ⟨false⟩ (some "func f(x int, x string) int => 1\n") .none =
    Parser.parse ⟨false⟩ (some "func f(x string) int => 1\n") .none :=
  (eq_of_outIs (v := .dict [("globals", .dict [("scope", .dict [("value", .str "resourceGroup")])]),
      ("functions", .dict [("f", .dict [("decorators", .list []), ("args", .dict [("x", .str "string")]),
        ("type", .str "int"), ("expression", .int 1)])])])
    (by decide +kernel)).trans (eq_of_outIs (by decide +kernel)).symm

/-- why bodies with the keys of a conditional deployment are left out -/
example : Parser.parse ⟨false⟩ (some "resource r 'A/b@1' = {\n  condition: c\n  config: {}\n}\n") .none =
    Parser.parse ⟨false⟩ (some "resource r 'A/b@1' = if (c) {}\n") .none :=
  (eq_of_outIs (v := .dict [("globals", .dict [("scope", .dict [("value", .str "resourceGroup")])]),
      ("resources", .dict [("r", .dict [("decorators", .list []), ("type", .str "A/b"), ("api_version", .str "1"),
        ("existing", .bool false), ("config", .dict [("condition", .elem "c"), ("config", .dict [])])])])])
    (by decide +kernel)).trans (eq_of_outIs (by decide +kernel)).symm

/-- why nested resources are left out -/
example : Parser.parse ⟨false⟩ (some "resource r 'A/b@1' = {\n  resource c 'w' = {\n  }\n}\n") .none =
    Parser.parse ⟨false⟩ (some "resource r 'A/b@1' = {}\nresource r__c 'A/b/w@1' = {\n  depends_on: [r]\n}\n") .none :=
  (eq_of_outIs (v := .dict [("globals", .dict [("scope", .dict [("value", .str "resourceGroup")])]),
      ("resources", .dict [("r", .dict [("decorators", .list []), ("type", .str "A/b"), ("api_version", .str "1"),
        ("existing", .bool false), ("config", .dict [])]),
        ("r__c", .dict [("decorators", .list []), ("type", .str "A/b/w"), ("api_version", .str "1"),
        ("existing", .bool false), ("config", .dict [("depends_on", .list [.elem "r"])])])])])
    (by decide +kernel)).trans (eq_of_outIs (by decide +kernel)).symm

/-- why bodies with a key `__child_resource__` are left out -/
example : Parser.parse ⟨false⟩ (some "resource r 'A/b@1' = {\n  __child_resource__: {\n    __name__: 'c'\n    __attrs__: {\n      type: 'w'\n      config: {}\n    }\n  }\n}\n") .none =
    Parser.parse ⟨false⟩ (some "resource r 'A/b@1' = {\n  __child_resource__: {\n    __name__: c\n    __attrs__: {\n      type: w\n      config: {}\n    }\n  }\n}\n") .none :=
  (eq_of_outIs (v := .dict [("globals", .dict [("scope", .dict [("value", .str "resourceGroup")])]),
      ("resources", .dict [("r", .dict [("decorators", .list []), ("type", .str "A/b"), ("api_version", .str "1"),
        ("existing", .bool false), ("config", .dict [])]),
        ("r__c", .dict [("type", .str "A/b/w"), ("config", .dict [("depends_on", .list [.elem "r"])]),
          ("api_version", .str "1")])])])
    (by decide +kernel)).trans (eq_of_outIs (by decide +kernel)).symm

end Pycep
