import Verif.Props.Chains
import Verif.Props.Words
import Verif.Proofs.Reserved
/-
C80: which words can be names.
-/
namespace Pycep

/-- the texts of the three literals -/
def literalTexts : List (List Char) := ["null".toList, "true".toList, "false".toList]

theorem other_literals {x : Ident} : x.Other literals ↔ x.1 ∉ literalTexts := by
  have h : literals.map fixedChars = literalTexts := by decide +kernel
  rw [← h]
  simp [Ident.Other]
  tauto

/-- **C80, values.** Wherever an expression is expected, `null`, `true` and `false` are these values: no
identifier of the program is one of the three words. -/
theorem C80_literals {P : Parser} {text path v} (h : P.parse text path = .ok v) :
    ∃ t p, chosenText text path = .ok t ∧ Spells t p ∧ (∃ w, WordTiling 1 t.toList w ∧ ProgSyn p w tEND) ∧
      Program.val P.addLineNumbers p = .ok v ∧ ∀ {x}, p.Has (.expr (.ident x)) → x.1 ∉ literalTexts := by
  rw [parse_eq] at h
  rcases createTree'_cases text path with ⟨e, h1, h2⟩ | ⟨t, m, h1, h2, h3, h4⟩ | ⟨t, h1, h2, _, h3⟩ |
    ⟨t, tree, _, h1, h2, h3, _, _, h5⟩
  · rw [h2] at h; cases h
  · rw [h3] at h; cases h
  · rw [h3] at h; cases h
  · obtain ⟨p, w, h6, h7, h8, h9⟩ := larkParse_words h3
    refine ⟨t, p, h1, h9, ⟨w, h6, h7⟩, ?_, fun hx => ?_⟩
    · rw [h5] at h
      simp only [Except.bind, bicepToJson_program h8] at h
      unfold liftV at h
      split at h <;> simp_all
    · have := (larkParse_nolit h3).core
      rw [h8] at this
      exact other_literals.mp (this.has hx).ident

/-! ### Names of declarations -/

/-- the number 1 -/
def one : Expr := .int ⟨['1'], by decide⟩
/-- the type `t` -/
def tType : DataType := .mk (.name (letter 't' rfl)) 0

/-- declarations of every kind: what stands in front of the name and behind it, and the section in which the
declaration is reported -/
def nameTexts : List (String × String × String) :=
  [("var ", " = 1 \n ", "variables"),
   ("param ", " t \n ", "parameters"),
   ("output ", " t = 1 \n ", "outputs"),
   ("metadata ", " = 'a' \n ", "metadata"),
   ("type ", " = 1 \n ", "types"),
   ("func ", " ( ) t => 1 \n ", "functions"),
   ("module ", " 'm' = { \n } \n ", "modules"),
   ("resource ", " 't@v' = { \n } \n ", "resources"),
   ("extension ", " \n ", "extensions")]

/-- the declarations with these texts -/
def named (x : Ident) : List Decl :=
  [.var [] x .none (.expr one), .param [] x tType .none, .output [] x tType (.expr one), .metadata x ['a'],
   .typ [] x one [], .func [] x [] tType one, .module [] x ['m'] (.obj []),
   .resource [] x ['t', '@', 'v'] false (.obj []), .extension x .none .none]

theorem named_texts (x : Ident) : nameTexts.map (fun q => q.1 ++ txt x.1 ++ q.2.1) =
    (named x).map fun d => Program.render [((0, 0), d)] := by
  have : ∀ (a b : String), a ++ txt x.1 ++ b = String.ofList (a.toList ++ (x.1 ++ b.toList)) := by
    intro a b
    apply String.toList_inj.mp
    simp [txt]
  simp only [this]
  rfl

theorem tType_ok : tType.ok := by
  show Ident.Other keywordIds _
  unfold Ident.Other; decide +kernel

theorem named_ok (x : Ident) : ∀ d ∈ named x, Program.ok [((0, 0), d)] ∧ Program.clear [((0, 0), d)] = true := by
  have hs : ∀ c ∈ ['a', 'm'], StrOK false [c] := by
    intro c hc
    refine ⟨.chr ?_ ?_ ?_ ?_ .nil, by unfold NoQuotes3; revert c; decide⟩ <;> (rintro rfl; revert hc; decide)
  have ht : StrOK false ['t', '@', 'v'] :=
    ⟨.chr (by decide) (by decide) (by decide) (by decide) (.chr (by decide) (by decide) (by decide) (by decide)
      (.chr (by decide) (by decide) (by decide) (by decide) .nil)), by unfold NoQuotes3; decide⟩
  have hn : Deco.okL [] := by intro d hd; cases hd
  intro d hd
  simp only [named, List.mem_cons, List.not_mem_nil, or_false] at hd
  refine ⟨fun e he => ?_, ?_⟩
  · simp only [List.mem_singleton] at he
    subst he
    rcases hd with rfl | rfl | rfl | rfl | rfl | rfl | rfl | rfl | rfl
    · exact ⟨hn, by simp, trivial⟩
    · exact ⟨hn, tType_ok, trivial⟩
    · exact ⟨hn, tType_ok, trivial⟩
    · exact hs _ (by simp)
    · exact ⟨hn, trivial, trivial⟩
    · exact ⟨hn, by simp, tType_ok, trivial⟩
    · exact ⟨hn, hs _ (by simp), trivial⟩
    · exact ⟨hn, ht, trivial⟩
    · exact trivial
  · rcases hd with rfl | rfl | rfl | rfl | rfl | rfl | rfl | rfl | rfl <;> rfl

/-- the result for a document with one declaration, `y` reported under the name `x` of the section `s` -/
def onlyVal (s x : String) (y : Val) : Val :=
  .dict [("globals", .dict [("scope", .dict [("value", .str "resourceGroup")])]), (s, .dict [(x, y)])]

/-- what is reported for the declarations -/
def nameVals : List Val :=
  [.dict [("decorators", .list []), ("value", .int 1)],
   .dict [("decorators", .list []), ("type", .str "t"), ("default", .none)],
   .dict [("decorators", .list []), ("type", .str "t"), ("value", .int 1)],
   .dict [("value", .str "a")],
   .dict [("decorators", .list []), ("value", .int 1)],
   .dict [("decorators", .list []), ("args", .dict []), ("type", .str "t"), ("expression", .int 1)],
   .dict [("decorators", .list []), ("type", .str "local"),
     ("detail", .dict [("full", .str "m"), ("path", .str "m")]), ("config", .dict [])],
   .dict [("decorators", .list []), ("type", .str "t"), ("api_version", .str "v"), ("existing", .bool false),
     ("config", .dict [])],
   .dict []]

theorem single_val {ln : Bool} {d : Decl} {s n : String} {attrs : List (String × Val)} (hs : "globals" ≠ s)
    (h : d.out ln (0, 0) = .ok ⟨[⟨s, n, attrs⟩], [], []⟩) : Program.val ln [((0, 0), d)] =
      .ok (.dict [("globals", .dict [("scope", .dict (defaultScope ln).attrs)]), (s, .dict [(n, .dict attrs)])]) := by
  have hn : (s == "globals") = false := by simpa using fun e => hs e.symm
  simp [Program.val, Program.outs, h, Except.bind, bind, entries, collect, defaultScope, List.eraseDups_cons, hn,
    lastWins, hs, hs.symm, List.lookup]

theorem named_vals (x : Ident) : (named x).map (fun d => Program.val false [((0, 0), d)]) =
    (nameTexts.zip nameVals).map fun q => .ok (onlyVal q.1.2.2 (txt x.1) q.2) := by
  simp only [named, nameTexts, nameVals, List.map_cons, List.map_nil, List.zip_cons_cons, List.zip_nil_right,
    List.cons.injEq, and_true]
  have h1 : one.val false = .ok (.int 1) := by rfl
  have h2 : tType.val = .str "t" := by rfl
  have h3 : typeApi ['t', '@', 'v'] = .ok ("t", "v") := by decide +kernel
  have h4 : classifyModulePath (txt ['m']) =
      .ok (.dict [("type", .str "local"), ("detail", .dict [("full", .str "m"), ("path", .str "m")])]) := by rfl
  have h5 : (Config.obj []).val false = .ok (.dict []) := by rfl
  have h6 : ∀ n, resourceVal n "t" "v" (.dict []) = .ok ([], []) := fun n => by rfl
  refine ⟨?_, ?_, ?_, ?_, ?_, ?_, ?_, ?_, ?_⟩
  · exact single_val (by decide) (by simp [Decl.out, decoVals, LoopOrExpr.val, h1, typeItem, lineItems, bind, Except.bind])
  · exact single_val (by decide) (by simp [Decl.out, decoVals, Expr.optVal, h2, lineItems, bind, Except.bind])
  · exact single_val (by decide) (by simp [Decl.out, decoVals, LoopOrExpr.val, h1, h2, lineItems, bind, Except.bind])
  · exact single_val (by decide) (by simp [Decl.out, lineItems, txt])
  · exact single_val (by decide) (by simp [Decl.out, decoVals, typeVal, h1, lineItems, bind, Except.bind])
  · exact single_val (by decide) (by simp [Decl.out, decoVals, h1, h2, lastWins, lineItems, bind, Except.bind])
  · exact single_val (by decide) (by simp [Decl.out, decoVals, inRule, h4, h5, Val.item, dGet, lineItems, bind, Except.bind])
  · exact single_val (by decide) (by simp [Decl.out, decoVals, inRule, h3, h5, h6, lineItems, bind, Except.bind])
  · exact single_val (by decide) (by simp [Decl.out, configItem, aliasItem, lineItems, bind, Except.bind])

theorem text_eq (x : Ident) (a b : String) : a ++ txt x.1 ++ b = String.ofList (a.toList ++ (x.1 ++ b.toList)) := by
  apply String.toList_inj.mp
  simp [txt]

/-- **C80, names of declarations.** Every identifier, keyword or not, can name a declaration of any kind, and
the declaration is reported under it; what else is reported does not depend on the name. -/
theorem C80_names (x : Ident) : nameTexts.map (fun q => (Parser.mk false).parse (some (q.1 ++ txt x.1 ++ q.2.1)) .none) =
    (nameTexts.zip nameVals).map fun q => .ok (onlyVal q.1.2.2 (txt x.1) q.2) := by
  have h1 := congrArg (List.map fun s => (Parser.mk false).parse (some s) .none) (named_texts x)
  rw [List.map_map] at h1
  have h2 := congrArg (List.map liftV) (named_vals x)
  rw [List.map_map, List.map_map] at h2
  refine h1.trans (Eq.trans ?_ h2)
  rw [List.map_map]
  refine List.map_congr_left fun d hd => ?_
  exact parse_render_plain (named_ok x d hd).1 (named_ok x d hd).2 (by simp)

/-! ### References and keys -/

/-- what a word is as an expression -/
def wordVal (x : List Char) : Val :=
  if x = "null".toList then .none
  else if x = "true".toList then .bool true
  else if x = "false".toList then .bool false
  else .elem (txt x)

/-- `var y = e` -/
def varY (e : Expr) : Program := [((0, 0), .var [] (letter 'y' rfl) .none (.expr e))]

theorem varY_val {e : Expr} {v : Val} (h : e.val false = .ok v) : (varY e).val false =
    .ok (onlyVal "variables" "y" (.dict [("decorators", .list []), ("value", v)])) := by
  refine single_val (n := "y") (by decide) ?_
  simp [Decl.out, decoVals, LoopOrExpr.val, h, typeItem, lineItems, bind, Except.bind, letter, txt]

theorem varY_ok {e : Expr} (h : e.ok) : (varY e).ok := by
  intro d hd
  simp only [varY, List.mem_singleton] at hd
  subst hd
  exact ⟨(by intro d hd; cases hd), (by simp), h⟩

/-- **C80, references.** In an expression every word except `null`, `true` and `false` is a reference to the
element of that name, keyword or not. -/
theorem C80_refs (x : Ident) : (Parser.mk false).parse (some ("var y = ( " ++ txt x.1 ++ " ) \n ")) .none =
    .ok (onlyVal "variables" "y" (.dict [("decorators", .list []), ("value", wordVal x.1)])) := by
  have key : ∀ e : Expr, e.ok → (varY e).clear = true → e.val false = .ok (wordVal x.1) →
      "var y = ( " ++ txt x.1 ++ " ) \n " = (varY e).renderWith (fun _ => { paren := true }) →
      (Parser.mk false).parse (some ("var y = ( " ++ txt x.1 ++ " ) \n ")) .none =
        .ok (onlyVal "variables" "y" (.dict [("decorators", .list []), ("value", wordVal x.1)])) := by
    intro e h1 h2 h3 h4
    rw [h4, brackets_irrelevant _ (varY_ok h1) h2 (by simp [varY]), varY_val h3]
    rfl
  obtain ⟨x, hx⟩ := x
  by_cases h1 : x = "null".toList
  · subst h1; exact key .null trivial rfl rfl rfl
  by_cases h2 : x = "true".toList
  · subst h2; exact key .tru trivial rfl rfl rfl
  by_cases h3 : x = "false".toList
  · subst h3; exact key .fls trivial rfl rfl rfl
  refine key (.ident ⟨x, hx⟩) (other_literals.mpr ?_) rfl ?_ ?_
  · simp only [literalTexts, List.mem_cons, List.not_mem_nil, or_false]; tauto
  · simp only [wordVal, if_neg h1, if_neg h2, if_neg h3]; rfl
  · rw [text_eq]
    simp only [Program.renderWith, Program.toks, progToks, varY, Decl.toks, LoopOrExpr.toks, Expr.opd, wrap,
      Bool.not_true, Bool.and_false]
    rfl

/-- **C80, keys.** At the beginning of a line in an object, every word except `null`, `true` and `false` is a
key, keyword or not; a line that begins with one of the three words is a syntax error. -/
theorem C80_keys (x : Ident) :
    (Parser.mk false).parse (some ("var y = { \n " ++ txt x.1 ++ " : 1 \n } \n ")) .none =
      if x.1 ∈ literalTexts then .error .unexpectedInput
      else .ok (onlyVal "variables" "y"
        (.dict [("decorators", .list []), ("value", .dict [(txt x.1, .int 1)])])) := by
  by_cases hl : x.1 ∈ literalTexts
  · rw [if_pos hl]
    simp only [literalTexts, List.mem_cons, List.not_mem_nil, or_false] at hl
    rcases hl with h | h | h <;> rw [h] <;> exact eq_of_errIs (by decide +kernel)
  rw [if_neg hl]
  by_cases hr : x.1 = "resource".toList
  · rw [hr]
    exact eq_of_outIs (by decide +kernel)
  by_cases hf : x.1 = "for".toList
  · rw [hf]
    exact eq_of_outIs (by decide +kernel)
  have ho : x.Other (T.RESOURCE :: T.FOR :: literals) := by
    have h' : (T.RESOURCE :: T.FOR :: literals).map fixedChars =
        "resource".toList :: "for".toList :: literalTexts := by decide +kernel
    have h : x.1 ∉ "resource".toList :: "for".toList :: literalTexts := by
      simp only [List.mem_cons (b := "resource".toList), List.mem_cons (b := "for".toList)]; tauto
    rw [← h'] at h
    intro k hk e
    exact h (List.mem_map.mpr ⟨k, hk, e.symm⟩)
  have hr : "var y = { \n " ++ txt x.1 ++ " : 1 \n } \n " = (varY (.object [.pair (.ident x) one])).render := by
    rw [text_eq]; rfl
  have hv : (Expr.object [.pair (.ident x) one]).val false = .ok (.dict [(txt x.1, .int 1)]) := by
    have h1 : one.val false = .ok (.int 1) := by rfl
    simp [Expr.val, Item.vals, Item.val, h1, Key.text, lastWins, bind, Except.bind, List.eraseDups_cons]
  rw [hr, parse_render_plain (varY_ok (show (Expr.object [.pair (.ident x) one]).ok from ⟨⟨ho, trivial⟩, trivial⟩))
    rfl (by simp [varY]), varY_val hv]
  rfl

/-- In the first line of an object, next to the brace, `null` is a key. -/
theorem C80_keys_first : (Parser.mk false).parse (some "var y = { null : 1 \n } \n ") .none =
    .ok (onlyVal "variables" "y" (.dict [("decorators", .list []), ("value", .dict [("null", .int 1)])])) :=
  eq_of_outIs (by decide +kernel)

/-- the identifier `a` -/
def aName : Ident := letter 'a' rfl

/-- the tokens of `var y = a op x` -/
def operandToks (op : BinOp) (x : Ident) : List Lexeme :=
  kw T.VAR :: idTok (letter 'y' rfl) :: kw T.EQUAL :: idTok aName :: kw op.token :: idTok x :: [nl]

theorem operand_text {op : BinOp} {s : String} (x : Ident) (hs : op.sign = some s) :
    "var y = a " ++ s ++ " " ++ txt x.1 ++ " \n " = String.ofList (spaced (operandToks op x)) := by
  rw [text_eq]
  revert hs
  cases op <;> (intro hs; cases hs) <;> rfl

theorem operand_good {op : BinOp} {s : String} {x : Ident} (hs : op.sign = some s) (hx : x.Other literals) :
    Good tEND (operandToks op x) := by
  have hd : Good op.token (idTok x :: [nl]) := by
    refine good_id (free_of_other (ks := literals) ?_ hx) (.of fun _ => good_nl .nil)
    revert hs
    cases op <;> (intro hs; cases hs) <;> decide +kernel
  have ho : ∀ p, Good p (kw op.token :: idTok x :: [nl]) := by
    intro p
    by_cases h : op = .prop
    · subst h; exact good_dot hd
    · exact good_kw' (op_mem op h) hd
  refine good_named (by decide) (by decide +kernel) (.of fun _ => good_kw (by decide) (.of fun p => ?_))
  exact good_id (free_of_plain (by decide +kernel)) (.of ho)

theorem literal_text {op : BinOp} {s : String} (hs : op.sign = some s) :
    "var y = a " ++ s ++ " " ++ txt "null".toList ++ " \n " = chainText (letter 'y' rfl) (.op (.ident aName) op (.last .null)) ∧
    "var y = a " ++ s ++ " " ++ txt "true".toList ++ " \n " = chainText (letter 'y' rfl) (.op (.ident aName) op (.last .tru)) ∧
    "var y = a " ++ s ++ " " ++ txt "false".toList ++ " \n " = chainText (letter 'y' rfl) (.op (.ident aName) op (.last .fls)) := by
  revert hs
  cases op <;> (intro hs; cases hs) <;> decide +kernel

/-- **C80, operands.** On the right of every operator that is written as a sign, among them the dot in front
of the name of a property, every word except `null`, `true` and `false` is a reference, keyword or not. -/
theorem C80_operands {op : BinOp} {s : String} (hs : op.sign = some s) (x : Ident) :
    (Parser.mk false).parse (some ("var y = a " ++ s ++ " " ++ txt x.1 ++ " \n ")) .none =
      .ok (onlyVal "variables" "y" (.dict [("decorators", .list []), ("value",
        opVal op.label [("operand_1", .elem "a"), ("operand_2", wordVal x.1)])])) := by
  have ha : aName.Other literals := by unfold Ident.Other; decide +kernel
  have hval : ∀ {e v}, e.val false = .ok v → (Expr.bin op (.ident aName) e).val false =
      .ok (opVal op.label [("operand_1", .elem "a"), ("operand_2", v)]) := by
    intro e v h
    simp [Expr.val, h, bind, Except.bind]
    rfl
  have key : ∀ e : Expr, e.ok → e.clear = true → e.val false = .ok (wordVal x.1) →
      "var y = a " ++ s ++ " " ++ txt x.1 ++ " \n " =
        chainText (letter 'y' rfl) (.op (.ident aName) op (.last e)) →
      (Parser.mk false).parse (some ("var y = a " ++ s ++ " " ++ txt x.1 ++ " \n ")) .none =
        .ok (onlyVal "variables" "y" (.dict [("decorators", .list []), ("value",
          opVal op.label [("operand_1", .elem "a"), ("operand_2", wordVal x.1)])])) := by
    intro e h1 h2 h3 h4
    rw [h4, chain_text (c := .op (.ident aName) op (.last e)) (show OpChain.ok (.op (.ident aName) op (.last e)) from ⟨ha, (by rintro rfl; cases hs), h1⟩)
      (by simp [OpChain.nested, Expr.clear, h2]), ← Program.bare_val]
    have hb : Program.bare [((1, 1), varDecl (letter 'y' rfl) (OpChain.op (.ident aName) op (.last e)).nested)] =
        Program.bare (varY (.bin op (.ident aName) e)) := by rfl
    rw [hb, Program.bare_val, varY_val (hval h3)]
    rfl
  by_cases hl : x.1 ∈ literalTexts
  · obtain ⟨x, hx⟩ := x
    simp only [literalTexts, List.mem_cons, List.not_mem_nil, or_false] at hl
    rcases hl with rfl | rfl | rfl
    · exact key .null trivial rfl rfl (literal_text hs).1
    · exact key .tru trivial rfl rfl (literal_text hs).2.1
    · exact key .fls trivial rfl rfl (literal_text hs).2.2
  have hx := other_literals.mpr hl
  have hv : (Expr.ident x).val false = .ok (wordVal x.1) := by
    simp only [literalTexts, List.mem_cons, List.not_mem_nil, or_false, not_or] at hl
    simp only [wordVal, if_neg hl.1, if_neg hl.2.1, if_neg hl.2.2]; rfl
  have hg := operand_good hs hx
  rw [operand_text x hs]
  have hsh := sh_place (operandToks op x) 1
  have hlay := hg.layout 1
  revert hlay
  generalize hw : place 1 (operandToks op x) = w at hsh
  intro hlay
  simp only [operandToks, sh_cons, sh_nil] at hsh
  obtain ⟨u, _, rfl, hu, v, _, rfl, hv', q, _, rfl, hq, a, _, rfl, ha', o, _, rfl, ho, b, _, rfl, hb, z, _, rfl, hz, rfl⟩ := hsh
  obtain ⟨l, hln⟩ := linesOf_exists (w := u :: v :: q :: [a, o, b]) (by simp)
  have hz' : NoInfix z.type ∧ NoBang z.type := by rw [(type_of hz).1]; exact ends_ok _ (by decide)
  obtain ⟨ho1, ho2, _⟩ := op_ok op
  have hso : Kw s o := kw_of ho (ho2 s hs)
  have hE : OpChainSyn (.op (.ident aName) op (.last (.ident x))) ([a] ++ (o :: [b])) z.type :=
    .op hs (.plain (.ident (w := []) (.inl rfl) (id_of ha')) (by rw [lex_type ho]; exact ho1)) hso
      (.last (.plain (.ident (w := []) (.inl rfl) (id_of hb)) hz'.2))
  have := chains_nest_right (Parser.mk false) (text := some (String.ofList (spaced (operandToks op x)))) (path := .none)
    (t := String.ofList (spaced (operandToks op x))) (p1 := []) (p2 := []) (w1 := []) (w2 := []) (u := u) (v := v) (q := q)
    (w := [a] ++ (o :: [b])) (z := z) (x := letter 'y' rfl) (l := l)
    (by unfold chosenText; rw [← operand_text x hs]; simp) hg.valid (by simpa using hlay)
    (kw_of hu (by decide +kernel)) (id_of hv') (kw_of hq (by decide +kernel)) (type_of hz).1 .nil .nil hE hln
    (by simp [Program.clear, varDecl, Decl.clear, LoopOrExpr.clear, OpChain.nested, Expr.clear])
  rw [this]
  have hb : Program.bare [(l, varDecl (letter 'y' rfl) (.bin op (.ident aName) (.ident x)))] =
      Program.bare (varY (.bin op (.ident aName) (.ident x))) := by rfl
  rw [List.nil_append]
  simp only [OpChain.nested]
  rw [← Program.bare_val, hb, Program.bare_val, varY_val (hval hv)]
  rfl

/-- the word `param` -/
def paramWord : Ident := ⟨"param".toList, 'p', "aram".toList, rfl, .inl (by decide), by decide⟩

/-- a keyword as name, as reference and as key -/
example : (Parser.mk false).parse (some "var y = ( param ) \n ") .none =
    .ok (onlyVal "variables" "y" (.dict [("decorators", .list []), ("value", .elem "param")])) :=
  C80_refs paramWord

example : (Parser.mk false).parse (some "var y = a . param \n ") .none =
    .ok (onlyVal "variables" "y" (.dict [("decorators", .list []), ("value",
      opVal "property_accessor" [("operand_1", .elem "a"), ("operand_2", .elem "param")])])) :=
  C80_operands (op := .prop) rfl paramWord

end Pycep
