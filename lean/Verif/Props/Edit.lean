import Verif.Proofs.EditOk
import Verif.Props.Canonical
import Verif.Proofs.Examples
/-
C75: an edit of one piece changes the result in one place.
-/
namespace Pycep

/-- **C75.** Two documents that differ in one piece, reported at the place `π`, have results that agree
in everything but what is found at `π`; there each of them has the value of its own piece. -/
theorem C75_edit {P : Parser} {text path text' path' v v'} (h : P.parse text path = .ok v)
    (h' : P.parse text' path' = .ok v') :
    ∃ t p t' p', chosenText text path = .ok t ∧ Spells t p ∧ chosenText text' path' = .ok t' ∧ Spells t' p' ∧
      ∀ π m m', p.Edited p' π m m' → ∃ y y', m.val P.addLineNumbers = .ok y ∧ m'.val P.addLineNumbers = .ok y' ∧
        Val.OnlyAt π v v' y y' := by
  obtain ⟨t, p, h1, h2, h3⟩ := parse_ok h
  obtain ⟨t', p', h1', h2', h3'⟩ := parse_ok h'
  exact ⟨t, p, t', p', h1, h2, h1', h2', fun π m m' he => edited_val he h3 h3'⟩

/-- **C75.** Without line numbers the lines do not matter: the edited piece may be longer or shorter. -/
theorem C75_plain {text path text' path' v v'} (h : (Parser.mk false).parse text path = .ok v)
    (h' : (Parser.mk false).parse text' path' = .ok v') :
    ∃ t p t' p', chosenText text path = .ok t ∧ Spells t p ∧ chosenText text' path' = .ok t' ∧ Spells t' p' ∧
      ∀ π m m', p.bare.Edited p'.bare π m m' → ∃ y y', m.val false = .ok y ∧ m'.val false = .ok y' ∧
        Val.OnlyAt π v v' y y' := by
  obtain ⟨t, p, h1, h2, h3⟩ := parse_ok h
  obtain ⟨t', p', h1', h2', h3'⟩ := parse_ok h'
  exact ⟨t, p, t', p', h1, h2, h1', h2', fun π m m' he =>
    edited_val he ((Program.bare_val p).trans h3) ((Program.bare_val p').trans h3')⟩

theorem liftV_ok {x : Except VErr Val} {v : Val} (h : liftV x = .ok v) : x = .ok v := by
  cases x with
  | ok w => cases h; rfl
  | error e => cases e <;> cases h

theorem parse_valid {P : Parser} {text path v t} (h : P.parse text path = .ok v) (ht : chosenText text path = .ok t) :
    isValid t = true := by
  rcases parse_cases P text path with ⟨e, _, h2⟩ | ⟨_, _, _, _, h2, _⟩ | ⟨_, _, _, h2⟩ | ⟨t2, _, h2, hv2, _⟩
  · rw [h] at h2; cases h2
  · rw [h] at h2; cases h2
  · rw [h] at h2; cases h2
  · rw [ht] at h2; cases h2; exact hv2

/-- **C75.** The same for the programs a reader sees in two clearly written documents. -/
theorem C75_written {P : Parser} {text path text' path' v v'} {t t' : String} {p p' : Program}
    (ht : chosenText text path = .ok t) (ht' : chosenText text' path' = .ok t') (hw : Writes t p) (hw' : Writes t' p')
    (hc : p.clear = true) (hc' : p'.clear = true) (h : P.parse text path = .ok v) (h' : P.parse text' path' = .ok v')
    {π m m'} (he : p.Edited p' π m m') :
    ∃ y y', m.val P.addLineNumbers = .ok y ∧ m'.val P.addLineNumbers = .ok y' ∧ Val.OnlyAt π v v' y y' := by
  have hv := parse_valid h ht
  have hv' := parse_valid h' ht'
  rw [parse_writes _ ht hv hw hc] at h
  rw [parse_writes _ ht' hv' hw' hc'] at h'
  exact edited_val he (liftV_ok h) (liftV_ok h')

/-- **C75.** An edit is refused only because of the new piece: if a document is accepted, then the
edited one is accepted, too, when the new piece has a value; and the result differs in this value only. -/
theorem C75_accepted {P : Parser} {text path text' path' v} {t' : String} {p' : Program}
    (h : P.parse text path = .ok v) (ht' : chosenText text' path' = .ok t') (hv' : isValid t' = true)
    (hw' : Writes t' p') (hc' : p'.clear = true) :
    ∃ t p, chosenText text path = .ok t ∧ Spells t p ∧
      ∀ π m m' y', p.Edited p' π m m' → m'.val P.addLineNumbers = .ok y' →
        ∃ v' y, P.parse text' path' = .ok v' ∧ m.val P.addLineNumbers = .ok y ∧ Val.OnlyAt π v v' y y' := by
  obtain ⟨t, p, h1, h2, h3⟩ := parse_ok h
  refine ⟨t, p, h1, h2, fun π m m' y' he hy' => ?_⟩
  obtain ⟨v', h4⟩ := edited_ok he h3 hy'
  obtain ⟨y, y2, h5, h6, h7⟩ := edited_val he h3 h4
  rw [hy'] at h6
  cases h6
  exact ⟨v', y, by rw [parse_writes _ ht' hv' hw' hc', h4]; rfl, h5, h7⟩

/-- **C75.** What this means when looking something up: at the place of the edit each result has the
value of its own piece, and at every place that is neither above nor below it both have the same. -/
theorem C75_lookup {π : List PStep} {v v' y y' : Val} (h : Val.OnlyAt π v v' y y') :
    v.at? π = some y ∧ v'.at? π = some y' ∧ ∀ σ, ¬ σ <+: π → ¬ π <+: σ → v.at? σ = v'.at? σ :=
  ⟨h.at.1, h.at.2, fun _ h1 h2 => h.off h1 h2⟩

/-- above the place of the edit the keys stay the same, in the same order -/
theorem C75_keys {π σ : List PStep} {v v' y y' : Val} (h : Val.OnlyAt (π ++ σ) v v' y y') (hσ : σ ≠ []) :
    ∃ u u', v.at? π = some u ∧ v'.at? π = some u' ∧ u.keys = u'.keys := by
  induction π generalizing v v' with
  | nil =>
    refine ⟨v, v', rfl, rfl, ?_⟩
    cases h with
    | here => exact absurd rfl hσ
    | key => simp [Val.keys]
    | idx => rfl
  | cons s π ih =>
    rw [List.cons_append] at h
    have hat : ∀ {s : PStep} {π : List PStep} {v v' : Val}, Val.OnlyAt (s :: π) v v' y y' →
        ∃ w w', v.step? s = some w ∧ v'.step? s = some w' ∧ Val.OnlyAt π w w' y y' := by
      intro s π v v' h
      cases h with
      | key h1 h2 h3 =>
        exact ⟨_, _, by simp [Val.step?, dGet_append_of_notMem h1, dGet],
          by simp [Val.step?, dGet_append_of_notMem h1, dGet], h3⟩
      | idx h3 => exact ⟨_, _, by simp [Val.step?], by simp [Val.step?], h3⟩
    obtain ⟨w, w', h1, h2, h3⟩ := hat h
    obtain ⟨u, u', h4, h5, h6⟩ := ih h3
    exact ⟨u, u', by rw [Val.at?, h1]; exact h4, by rw [Val.at?, h2]; exact h5, h6⟩

/-! ### Concrete cases -/

/-- A piece deep inside a declaration: in `var a = [x, { k: f(x, e) }]` the argument `e` becomes `e'`,
whatever these are. -/
theorem C75_case_deep (l : Lines) (e e' : Expr) (x a k : Ident) (f : FunName) (b : Program) (hf : txt f.1 = "foo")
    (hb : ∀ q ∈ b, ("variables", txt a.1) ∉ q.2.ownName) :
    Program.Edited
      ((l, .var [] a .none (.expr (.array [.ident x, .object [.pair (.ident k) (.call f [.ident x, e])]]))) :: b)
      ((l, .var [] a .none (.expr (.array [.ident x, .object [.pair (.ident k) (.call f [.ident x, e'])]]))) :: b)
      [.key "variables", .key (txt a.1), .key "value", .idx 1, .key (Key.text (.ident k)),
        .key "function", .key "parameters", .key "arg_2"] (.expr e) (.expr e') :=
  have ha : ArgKey (txt f.1) 2 1 "arg_2" := by
    rw [hf]; exact .unknown (f := "foo") (n := 2) (i := 1) (by decide)
  .own (a := []) (κ := [.key "value"]) (π := [.idx 1, .key (Key.text (.ident k)),
      .key "function", .key "parameters", .key "arg_2"]) .varExpr
    (.step (π := [.idx 1]) (.elem (a := [.ident x]) (b := []))
      (.step (π := [.key (Key.text (.ident k))]) (.member (a := []) (b := []) (by simp))
        (.step (σ := []) (.arg (a := [.ident x]) (b := []) (k := "arg_2") ha) .refl)))
    (by simp [Decl.ownName]) hb (by simp)

/-- A piece of a nested resource: the place is in the entry of the nested one. -/
theorem C75_case_nested (l l' : Lines) (e e' : Expr) (a b k : Ident) (ta ty : List Char)
    (hk : Key.text (.ident k) ≠ "__child_resource__") (hk' : Key.text (.ident k) ≠ "depends_on") :
    Program.Edited
      [(l, .resource [] a ta false (.obj [.child l' b ty false (.obj [.pair (.ident k) e])]))]
      [(l, .resource [] a ta false (.obj [.child l' b ty false (.obj [.pair (.ident k) e'])]))]
      [.key "resources", .key (txt a.1 ++ "__" ++ txt b.1), .key "config", .key (Key.text (.ident k))]
      (.expr e) (.expr e') :=
  .nested (a := []) (b := []) (i := 0) (rs := [⟨l', b, ty, false, .obj [.pair (.ident k) e]⟩])
    (r := ⟨l', b, ty, false, .obj [.pair (.ident k) e]⟩) (r' := ⟨l', b, ty, false, .obj [.pair (.ident k) e']⟩)
    (π := []) (.here (a := []) (b := []) (by simp)) rfl (.member (a := []) (b := []) (by simp) hk hk') .refl
    (.cons ⟨_, rfl, [], [], rfl, rfl, by simp⟩ (.nil (by simpa [NoChild, Item.key] using hk))) rfl
    (by simp [NotNested])

/-- a result with the value `w` somewhere inside -/
def exEdited (w : Val) : Val := .dict [("globals", .dict [("scope", .dict [("value", .str "resourceGroup"),
    ("__start_line__", .int 0), ("__end_line__", .int 0)])]),
    ("variables", .dict [("a", .dict [("decorators", .list []), ("value", .list [.elem "x",
      .dict [("k", .dict [("function", .dict [("type", .str "foo"), ("parameters", .dict
        [("arg_1", .elem "x"), ("arg_2", w)])])])]]), ("__start_line__", .int 1), ("__end_line__", .int 3)]),
      ("b", .dict [("decorators", .list []), ("value", .int 2), ("__start_line__", .int 4), ("__end_line__", .int 4)])])]

/-- the two results of such an edit, computed: only the second argument of `foo` differs -/
example : ∃ v v', Parser.parse ⟨true⟩ (some "var a = [x, {\n  k: foo(x, 1)\n}]\nvar b = 2\n") .none = .ok v ∧
    Parser.parse ⟨true⟩ (some "var a = [x, {\n  k: foo(x, y.z)\n}]\nvar b = 2\n") .none = .ok v' ∧
    v.at? [.key "variables", .key "a", .key "value", .idx 1, .key "k", .key "function", .key "parameters",
      .key "arg_2"] = some (.int 1) ∧
    v.at? [.key "variables", .key "b"] = v'.at? [.key "variables", .key "b"] ∧ v ≠ v' := by
  refine ⟨exEdited (.int 1), exEdited (.dict [("operator", .dict [("type", .str "property_accessor"), ("operands", .dict
    [("operand_1", .elem "y"), ("operand_2", .elem "z")])])]), eq_of_outIs (by decide +kernel),
    eq_of_outIs (by decide +kernel), rfl, rfl, ?_⟩
  intro h
  simp [exEdited] at h

/-- a result with the entries `w` among the operands -/
def exMethod (w : List (String × Val)) : Val := .dict [("globals", .dict [("scope", .dict [("value", .str "resourceGroup")])]),
      ("variables", .dict [("v", .dict [("decorators", .list []), ("value", .dict [("operator", .dict
        [("type", .str "function_accessor"), ("operands", .dict ([("operand_1", .elem "x"),
          ("func_name", .str "listFoo")] ++ w ++ [("operand_3", .str "a")]))])])])])]

/-- Arguments of methods are not covered, for a reason: here the edit of the first argument adds an
entry. -/
theorem C75_methods_differ : ∃ v v', Parser.parse ⟨false⟩ (some "var v = x.listFoo(0, 'a')\n") .none = .ok v ∧
    Parser.parse ⟨false⟩ (some "var v = x.listFoo(1, 'a')\n") .none = .ok v' ∧
    ∀ y y', ¬ Val.OnlyAt [.key "variables", .key "v", .key "value", .key "operator", .key "operands", .key "operand_2"]
      v v' y y' := by
  refine ⟨exMethod [], exMethod [("operand_2", .int 1)], eq_of_outIs (by decide +kernel), eq_of_outIs (by decide +kernel), ?_⟩
  intro y y' h
  have := h.at.1
  simp [exMethod, Val.at?, Val.step?, dGet] at this

end Pycep
