import Verif.Props.ApiProps
import Verif.Proofs.PrettyDecl
import Verif.Proofs.Examples
/-
C73: what `create_tree` prints decides what `parse` returns.
-/
namespace Pycep

theorem createTree_ok {P : Parser} {text path s} (h : P.createTree text path = .ok s) :
    ∃ t w p tree, chosenText text path = .ok t ∧ Tiling 1 t.toList w ∧ ProgSyn p w tEND ∧ DerL [N.start] [tree] w tEND ∧
      tree.core = p.tree ∧ tree.prettyAux 0 = s ∧ createTree' text path = .ok tree ∧ tree.noBreaks = true := by
  unfold Parser.createTree at h
  rcases createTree'_cases text path with ⟨e, _, h2⟩ | ⟨t, m, _, _, h3, _⟩ | ⟨t, _, _, _, h3⟩ |
    ⟨t, tree, p, h1, _, h3, _, _, h6⟩
  · rw [h2] at h; cases h
  · rw [h3] at h; cases h
  · rw [h3] at h; cases h
  · rw [h6] at h
    simp only [Except.map, Except.ok.injEq] at h
    obtain ⟨w, hw, hd⟩ := (larkParse_sound t).2.2 tree h3
    obtain ⟨p, hp, hs⟩ := derL_program hd hw.tokText
    exact ⟨t, w, p, tree, h1, hw, hs, hd, hp, h, h6, larkParse_noBreaks h3⟩

/-- **C73.**  If `create_tree` prints the same for two inputs, if no token of theirs goes over more
than one line and if none of them has an alias `None`, then `parse` (without line numbers) has the
same outcome for both. -/
theorem C73_tree_decides {P P' : Parser} {text text' : Option String} {path path' : Option PathArg} {s : String}
    (h : P.createTree text path = .ok s) (h' : P'.createTree text' path' = .ok s) :
    ∃ t w p t' w' p', chosenText text path = .ok t ∧ Tiling 1 t.toList w ∧ ProgSyn p w tEND ∧
      chosenText text' path' = .ok t' ∧ Tiling 1 t'.toList w' ∧ ProgSyn p' w' tEND ∧
      (OneLine w → OneLine w' → ¬ AsNone w → ¬ AsNone w' →
        (Parser.mk false).parse text path = (Parser.mk false).parse text' path') := by
  obtain ⟨t, w, p, tree, h1, h2, h3, h4, h5, h6, h7, h8⟩ := createTree_ok h
  obtain ⟨t', w', p', tree', h1', h2', h3', h4', h5', h6', h7', h8'⟩ := createTree_ok h'
  refine ⟨t, w, p, t', w', p', h1, h2, h3, h1', h2', h3', fun ho ho' ha ha' => ?_⟩
  have nice : ∀ {tr : Tree} {w : List Tok} {x : List Char}, Tiling 1 x w → DerL [N.start] [tr] w tEND →
      tr.noBreaks = true → OneLine w → tr.core.Nice := by
    intro tr w x ht hd hb ho
    have := hd.der.nicer fun u hu hb => (ht.tokText u hu).2.nice (ht.tokText u hu).1 hb (ho u hu hb)
    exact nice_core (this.1.nice hb)
  have hal : Alike p.tree p'.tree := by
    rw [← h5, ← h5']
    refine pretty_alike (nice h2 h4 h8 ho) (nice h2' h4' h8' ho') ?_
    rw [pretty_core, pretty_core, h6, h6']
  have hnm := nm_program (h3.named ha) (h3'.named ha') hal
  rw [parse_eq, parse_eq, h7, h7']
  simp only [Except.bind]
  rw [← bicepToJson_core, ← bicepToJson_core false tree', h5, h5', ← bicepToJson_norm, hnm, bicepToJson_norm]

/-! ### Examples -/

/-- the tree is printed as `s` -/
def printsAs (r : Except ApiErr Tree) (s : String) : Bool :=
  match r with
  | .ok t => rowsText (t.rows 0) == s.toList
  | .error _ => false

theorem createTree_of {P : Parser} {text path s} (h : printsAs (createTree' text path) s = true) :
    P.createTree text path = .ok s := by
  unfold Parser.createTree
  unfold printsAs at h
  split at h
  · rename_i t e
    rw [e]
    simp only [Except.map, Except.ok.injEq]
    rw [← String.toList_inj, pretty_rows]
    exact eq_of_beq h
  · cases h

/-- Brackets, marks, comments and layout are not printed and do not matter. -/
example : let s := "start\n  param\n    None\n    a\n    data_type\n      base_type\tint\n    int_type\t1\n"
    let v := Val.dict [("globals", .dict [("scope", .dict [("value", .str "resourceGroup")])]),
      ("parameters", .dict [("a", .dict [("decorators", .list []), ("type", .str "int"), ("default", .int 1)])])]
    (Parser.mk false).createTree (some "param a int? = (1)\n") .none = .ok s ∧
    (Parser.mk false).createTree (some "param a int /* b\n */ = 1") .none = .ok s ∧
    (Parser.mk false).parse (some "param a int? = (1)\n") .none = .ok v ∧
    (Parser.mk false).parse (some "param a int /* b\n */ = 1") .none = .ok v :=
  ⟨createTree_of (by decide +kernel), createTree_of (by decide +kernel), eq_of_outIs (by decide +kernel),
    eq_of_outIs (by decide +kernel)⟩

/-- the tokens of `param a int? = (1)` meet the conditions -/
example : let w : List Tok := [⟨T.PARAM, "param".toList, 1, 1⟩, ⟨T.STRING, ['a'], 1, 1⟩, ⟨T.STRING, "int".toList, 1, 1⟩,
      ⟨T.QMARK, ['?'], 1, 1⟩, ⟨T.EQUAL, ['='], 1, 1⟩, ⟨T.LPAR, ['('], 1, 1⟩, ⟨T.INT, ['1'], 1, 1⟩, ⟨T.RPAR, [')'], 1, 1⟩,
      ⟨T._CPP_COMMENT_NL, ['\n'], 1, 2⟩]
    OneLine w ∧ ¬ AsNone w := by
  refine ⟨by unfold OneLine; decide +kernel, ?_⟩
  rintro ⟨a, b, u, v, e, _, hv⟩
  have hm : v ∈ a ++ u :: v :: b := by simp
  rw [← e] at hm
  clear e
  have no : ∀ l : List Tok, (∀ x ∈ l, x.text ≠ "None".toList) → v ∉ l := fun l h hm => h v hm hv
  exact no _ (by decide +kernel) hm

/-- **C73, what is excluded (1).**  An alias `None` is printed like no alias. -/
theorem C73_alias_None :
    let a := "import {x} from 'y'"
    let b := "import {x as None} from 'y'"
    (∃ s, (Parser.mk false).createTree (some a) .none = .ok s ∧ (Parser.mk false).createTree (some b) .none = .ok s) ∧
    ∃ v v', (Parser.mk false).parse (some a) .none = .ok v ∧ (Parser.mk false).parse (some b) .none = .ok v' ∧ v ≠ v' := by
  refine ⟨⟨"start\n  custom_import\n    import_alias\n      x\n      None\n    'y'\n", createTree_of (by decide +kernel),
    createTree_of (by decide +kernel)⟩,
    .dict [("globals", .dict [("scope", .dict [("value", .str "resourceGroup")])]),
      ("imports", .dict [("x", .dict [("file_path", .str "y")])])],
    .dict [("globals", .dict [("scope", .dict [("value", .str "resourceGroup")])]),
      ("imports", .dict [("x", .dict [("file_path", .str "y"), ("alias", .str "None")])])],
    eq_of_outIs (by decide +kernel), eq_of_outIs (by decide +kernel), by intro h; injection h with h; simp at h⟩

/-- **C73, what is excluded (2).**  A string literal over several lines can be printed like several
declarations. -/
theorem C73_several_lines :
    let a := "var a = '${' # '\nvar b = '}'"
    let b := "var a = '${'\n  var\n    None\n    b\n    None\n    string\t'}'"
    (∃ s, (Parser.mk false).createTree (some a) .none = .ok s ∧ (Parser.mk false).createTree (some b) .none = .ok s) ∧
    ∃ v v', (Parser.mk false).parse (some a) .none = .ok v ∧ (Parser.mk false).parse (some b) .none = .ok v' ∧ v ≠ v' := by
  refine ⟨⟨"start\n  var\n    None\n    a\n    None\n    string\t'${'\n  var\n    None\n    b\n    None\n    string\t'}'\n",
    createTree_of (by decide +kernel), createTree_of (by decide +kernel)⟩,
    .dict [("globals", .dict [("scope", .dict [("value", .str "resourceGroup")])]),
      ("variables", .dict [("a", .dict [("decorators", .list []), ("value", .str "${")]),
        ("b", .dict [("decorators", .list []), ("value", .str "}")])])],
    .dict [("globals", .dict [("scope", .dict [("value", .str "resourceGroup")])]),
      ("variables", .dict [("a", .dict [("decorators", .list []),
        ("value", .str "${'\n  var\n    None\n    b\n    None\n    string\t'}")])])],
    eq_of_outIs (by decide +kernel), eq_of_outIs (by decide +kernel), by intro h; injection h with h; simp at h⟩

end Pycep
