import Verif.Proofs.SynBase
/-
GENERATED by tools/gen_syntax_proofs.py.
The trees and tokens of derivations are those of syntax: one case per grammar rule.
-/
set_option linter.all false
namespace Pycep.SynRules
theorem r_2 : RuleOK ⟨N.«element», [T.«TARGETSCOPE», T.«EQUAL», T.«QUOTED_INTERPOLATION»], "scope", false, [(2, false, 0)], 0⟩ := by
  refine ruleOK_node ?_
  intro cs w n l h hc hl
  obtain ⟨c0, cs, w0, w, rfl, rfl, h0, h⟩ := fitsW_cons.mp h
  obtain ⟨c1, cs, w1, w, rfl, rfl, h1, h⟩ := fitsW_cons.mp h
  obtain ⟨c2, rfl, h2⟩ := fitsW_one.mp h
  rename' w => w2
  obtain ⟨u0, rfl, rfl, k0⟩ := shw_TARGETSCOPE h0
  obtain ⟨u1, rfl, rfl, k1⟩ := shw_EQUAL h1
  obtain ⟨x2, u2, rfl, rfl, k2⟩ := shw_QUOTED_INTERPOLATION h2
  exact ⟨l, .scope x2, rfl, .scope k0 k1 k2, hl rfl⟩

theorem r_6 : RuleOK ⟨N.«element», [T.«EXTENSION», T.«STRING», T.«AS», T.«STRING»], "extension", false, [(1, false, 0), (3, false, 1)], 0⟩ := by
  refine ruleOK_node ?_
  intro cs w n l h hc hl
  obtain ⟨c0, cs, w0, w, rfl, rfl, h0, h⟩ := fitsW_cons.mp h
  obtain ⟨c1, cs, w1, w, rfl, rfl, h1, h⟩ := fitsW_cons.mp h
  obtain ⟨c2, cs, w2, w, rfl, rfl, h2, h⟩ := fitsW_cons.mp h
  obtain ⟨c3, rfl, h3⟩ := fitsW_one.mp h
  rename' w => w3
  obtain ⟨u0, rfl, rfl, k0⟩ := shw_EXTENSION h0
  obtain ⟨x1, u1, rfl, rfl, k1⟩ := shw_STRING h1
  obtain ⟨u2, rfl, rfl, k2⟩ := shw_AS h2
  obtain ⟨x3, u3, rfl, rfl, k3⟩ := shw_STRING h3
  exact ⟨l, .extension x1 .none (some x3), rfl, (by have := DeclSyn.extension (w1 := []) (w2 := [u2, u3]) (n := n) k0 k1 .no (.yes k2 k3); simpa only [List.append_assoc, List.nil_append, List.append_nil, List.cons_append, nextT_append, nextT_cons, nextT_nil] using this), hl rfl⟩

theorem r_10 : RuleOK ⟨N.«element», [N.«decorators», T.«PARAM», T.«STRING», N.«data_type», T.«QMARK»], "param", false, [(0, false, 0), (2, false, 0), (3, false, 0)], 1⟩ := by
  refine ruleOK_node ?_
  intro cs w n l h hc hl
  obtain ⟨c0, cs, w0, w, rfl, rfl, h0, h⟩ := fitsW_cons.mp h
  obtain ⟨c1, cs, w1, w, rfl, rfl, h1, h⟩ := fitsW_cons.mp h
  obtain ⟨c2, cs, w2, w, rfl, rfl, h2, h⟩ := fitsW_cons.mp h
  obtain ⟨c3, cs, w3, w, rfl, rfl, h3, h⟩ := fitsW_cons.mp h
  obtain ⟨c4, rfl, h4⟩ := fitsW_one.mp h
  rename' w => w4
  obtain ⟨x0, y0, rfl, k0⟩ := h0
  obtain ⟨u1, rfl, rfl, k1⟩ := shw_PARAM h1
  obtain ⟨x2, u2, rfl, rfl, k2⟩ := shw_STRING h2
  obtain ⟨x3, rfl, k3⟩ := h3
  obtain ⟨u4, rfl, rfl, k4⟩ := shw_QMARK h4
  exact ⟨l, .param (x0 :: y0) x2 x3 .none, rfl, (by have := DeclSyn.param (ds := (x0 :: y0)) (w0 := w0) (w2 := [u4]) (w3 := []) (n := n) k0 k1 k2 k3 (optMark_some k4) .no; simpa only [List.append_assoc, List.nil_append, List.append_nil, List.cons_append, nextT_append, nextT_cons, nextT_nil] using this), hl rfl⟩

theorem r_14 : RuleOK ⟨N.«element», [T.«PARAM», T.«STRING», N.«data_type», T.«QMARK»], "param", false, [(1, false, 1), (2, false, 0)], 1⟩ := by
  refine ruleOK_node ?_
  intro cs w n l h hc hl
  obtain ⟨c0, cs, w0, w, rfl, rfl, h0, h⟩ := fitsW_cons.mp h
  obtain ⟨c1, cs, w1, w, rfl, rfl, h1, h⟩ := fitsW_cons.mp h
  obtain ⟨c2, cs, w2, w, rfl, rfl, h2, h⟩ := fitsW_cons.mp h
  obtain ⟨c3, rfl, h3⟩ := fitsW_one.mp h
  rename' w => w3
  obtain ⟨u0, rfl, rfl, k0⟩ := shw_PARAM h0
  obtain ⟨x1, u1, rfl, rfl, k1⟩ := shw_STRING h1
  obtain ⟨x2, rfl, k2⟩ := h2
  obtain ⟨u3, rfl, rfl, k3⟩ := shw_QMARK h3
  exact ⟨l, .param [] x1 x2 .none, rfl, (by have := DeclSyn.param (ds := []) (w0 := []) (w2 := [u3]) (w3 := []) (n := n) .nil k0 k1 k2 (optMark_some k3) .no; simpa only [List.append_assoc, List.nil_append, List.append_nil, List.cons_append, nextT_append, nextT_cons, nextT_nil] using this), hl rfl⟩

theorem r_18 : RuleOK ⟨N.«element», [N.«decorators», T.«VAR», T.«STRING», N.«data_type», T.«EQUAL», N.«var_value»], "var", false, [(0, false, 0), (2, false, 0), (3, false, 0), (5, false, 0)], 0⟩ := by
  refine ruleOK_node ?_
  intro cs w n l h hc hl
  obtain ⟨c0, cs, w0, w, rfl, rfl, h0, h⟩ := fitsW_cons.mp h
  obtain ⟨c1, cs, w1, w, rfl, rfl, h1, h⟩ := fitsW_cons.mp h
  obtain ⟨c2, cs, w2, w, rfl, rfl, h2, h⟩ := fitsW_cons.mp h
  obtain ⟨c3, cs, w3, w, rfl, rfl, h3, h⟩ := fitsW_cons.mp h
  obtain ⟨c4, cs, w4, w, rfl, rfl, h4, h⟩ := fitsW_cons.mp h
  obtain ⟨c5, rfl, h5⟩ := fitsW_one.mp h
  rename' w => w5
  obtain ⟨x0, y0, rfl, k0⟩ := h0
  obtain ⟨u1, rfl, rfl, k1⟩ := shw_VAR h1
  obtain ⟨x2, u2, rfl, rfl, k2⟩ := shw_STRING h2
  obtain ⟨x3, rfl, k3⟩ := h3
  obtain ⟨u4, rfl, rfl, k4⟩ := shw_EQUAL h4
  obtain ⟨x5, rfl, k5⟩ := h5
  exact ⟨l, .var (x0 :: y0) x2 (some x3) x5, rfl, (by have := DeclSyn.var (ds := (x0 :: y0)) (w0 := w0) (w1 := (w3 ++ [])) k0 k1 k2 (.yes k3 optMark_none) k4 k5; simpa only [List.append_assoc, List.nil_append, List.append_nil, List.cons_append, nextT_append, nextT_cons, nextT_nil] using this), hl rfl⟩

theorem r_22 : RuleOK ⟨N.«element», [T.«VAR», T.«STRING», T.«EQUAL», N.«var_value»], "var", false, [(1, false, 1), (3, false, 1)], 0⟩ := by
  refine ruleOK_node ?_
  intro cs w n l h hc hl
  obtain ⟨c0, cs, w0, w, rfl, rfl, h0, h⟩ := fitsW_cons.mp h
  obtain ⟨c1, cs, w1, w, rfl, rfl, h1, h⟩ := fitsW_cons.mp h
  obtain ⟨c2, cs, w2, w, rfl, rfl, h2, h⟩ := fitsW_cons.mp h
  obtain ⟨c3, rfl, h3⟩ := fitsW_one.mp h
  rename' w => w3
  obtain ⟨u0, rfl, rfl, k0⟩ := shw_VAR h0
  obtain ⟨x1, u1, rfl, rfl, k1⟩ := shw_STRING h1
  obtain ⟨u2, rfl, rfl, k2⟩ := shw_EQUAL h2
  obtain ⟨x3, rfl, k3⟩ := h3
  exact ⟨l, .var [] x1 .none x3, rfl, .var (w0 := []) (w1 := []) .nil k0 k1 .no k2 k3, hl rfl⟩

theorem r_26 : RuleOK ⟨N.«element», [T.«OUTPUT», T.«STRING», N.«data_type», T.«EQUAL», N.«output_value»], "output", false, [(1, false, 1), (2, false, 0), (4, false, 0)], 0⟩ := by
  refine ruleOK_node ?_
  intro cs w n l h hc hl
  obtain ⟨c0, cs, w0, w, rfl, rfl, h0, h⟩ := fitsW_cons.mp h
  obtain ⟨c1, cs, w1, w, rfl, rfl, h1, h⟩ := fitsW_cons.mp h
  obtain ⟨c2, cs, w2, w, rfl, rfl, h2, h⟩ := fitsW_cons.mp h
  obtain ⟨c3, cs, w3, w, rfl, rfl, h3, h⟩ := fitsW_cons.mp h
  obtain ⟨c4, rfl, h4⟩ := fitsW_one.mp h
  rename' w => w4
  obtain ⟨u0, rfl, rfl, k0⟩ := shw_OUTPUT h0
  obtain ⟨x1, u1, rfl, rfl, k1⟩ := shw_STRING h1
  obtain ⟨x2, rfl, k2⟩ := h2
  obtain ⟨u3, rfl, rfl, k3⟩ := shw_EQUAL h3
  obtain ⟨x4, rfl, k4⟩ := h4
  exact ⟨l, .output [] x1 x2 x4, rfl, .output (w0 := []) (w2 := []) .nil k0 k1 k2 optMark_none k3 k4, hl rfl⟩

theorem r_30 : RuleOK ⟨N.«element», [T.«RESOURCE», T.«STRING», N.«type_api_pair», T.«EQUAL», N.«resource_value»], "resource", false, [(1, false, 1), (2, false, 0), (4, false, 1)], 0⟩ := by
  refine ruleOK_node ?_
  intro cs w n l h hc hl
  obtain ⟨c0, cs, w0, w, rfl, rfl, h0, h⟩ := fitsW_cons.mp h
  obtain ⟨c1, cs, w1, w, rfl, rfl, h1, h⟩ := fitsW_cons.mp h
  obtain ⟨c2, cs, w2, w, rfl, rfl, h2, h⟩ := fitsW_cons.mp h
  obtain ⟨c3, cs, w3, w, rfl, rfl, h3, h⟩ := fitsW_cons.mp h
  obtain ⟨c4, rfl, h4⟩ := fitsW_one.mp h
  rename' w => w4
  obtain ⟨u0, rfl, rfl, k0⟩ := shw_RESOURCE h0
  obtain ⟨x1, u1, rfl, rfl, k1⟩ := shw_STRING h1
  obtain ⟨x2, u2, rfl, rfl, k2⟩ := h2
  obtain ⟨u3, rfl, rfl, k3⟩ := shw_EQUAL h3
  obtain ⟨x4, rfl, k4⟩ := h4
  exact ⟨l, .resource [] x1 x2 false x4, rfl, .resource (w0 := []) (w1 := []) .nil k0 k1 k2 .no k3 k4, hl rfl⟩

theorem r_34 : RuleOK ⟨N.«element», [T.«TYPE», T.«STRING», T.«EQUAL», N.«type_value»], "custom_type", false, [(1, false, 1), (3, false, 0)], 0⟩ := by
  refine ruleOK_node ?_
  intro cs w n l h hc hl
  obtain ⟨c0, cs, w0, w, rfl, rfl, h0, h⟩ := fitsW_cons.mp h
  obtain ⟨c1, cs, w1, w, rfl, rfl, h1, h⟩ := fitsW_cons.mp h
  obtain ⟨c2, cs, w2, w, rfl, rfl, h2, h⟩ := fitsW_cons.mp h
  obtain ⟨c3, rfl, h3⟩ := fitsW_one.mp h
  rename' w => w3
  obtain ⟨u0, rfl, rfl, k0⟩ := shw_TYPE h0
  obtain ⟨x1, u1, rfl, rfl, k1⟩ := shw_STRING h1
  obtain ⟨u2, rfl, rfl, k2⟩ := shw_EQUAL h2
  obtain ⟨x3, y3, a3, b3, rfl, rfl, k3, m3, o3⟩ := h3
  exact ⟨l, .typ [] x1 x3 y3, rfl, .typ (w0 := []) (w1 := a3) (w2 := b3) .nil k0 k1 k2 k3 m3 o3, hl rfl⟩

theorem r_38 : RuleOK ⟨N.«value», [T.«NULL»], "null", false, [], 0⟩ := by
  refine ruleOK_node ?_
  intro cs w n l h hc hl
  obtain ⟨c0, rfl, h0⟩ := fitsW_one.mp h
  rename' w => w0
  obtain ⟨u0, rfl, rfl, k0⟩ := shw_NULL h0
  exact ⟨.null, rfl, .null (w := []) optNewline_none k0⟩

theorem r_42 : RuleOK ⟨N.«value», [T.«FALSE»], "false", false, [], 0⟩ := by
  refine ruleOK_node ?_
  intro cs w n l h hc hl
  obtain ⟨c0, rfl, h0⟩ := fitsW_one.mp h
  rename' w => w0
  obtain ⟨u0, rfl, rfl, k0⟩ := shw_FALSE h0
  exact ⟨.fls, rfl, .fls (w := []) optNewline_none k0⟩

theorem r_46 : RuleOK ⟨N.«value», [T.«STRING»], "string", false, [(0, false, 0)], 0⟩ := by
  refine ruleOK_node ?_
  intro cs w n l h hc hl
  obtain ⟨c0, rfl, h0⟩ := fitsW_one.mp h
  rename' w => w0
  obtain ⟨x0, u0, rfl, rfl, k0⟩ := shw_STRING h0
  exact ⟨.ident x0, rfl, .ident (w := []) optNewline_none k0⟩

theorem r_50 : RuleOK ⟨N.«value», [N.«array»], "value", true, [(0, false, 0)], 0⟩ := by
  refine ruleOK_ex ?_
  intro cs w n h hc
  obtain ⟨c0, rfl, h0⟩ := fitsW_one.mp h
  rename' w => w0
  obtain ⟨x0, rfl, k0⟩ := h0
  exact ⟨_, rfl, w_expr_nometa (.array x0), .array x0, rfl, k0⟩

theorem r_54 : RuleOK ⟨N.«value», [N.«operator»], "value", true, [(0, false, 0)], 0⟩ := by
  refine ruleOK_ex ?_
  intro cs w n h hc
  obtain ⟨c0, rfl, h0⟩ := fitsW_one.mp h
  rename' w => w0
  obtain ⟨x0, rfl, k0⟩ := h0
  exact ⟨_, rfl, w_expr_nometa x0, x0, rfl, k0⟩

theorem r_58 : RuleOK ⟨N.«value_brackets», [T.«LPAR», N.«value», T.«RPAR», T.«BANG»], "value_brackets", true, [(1, false, 0)], 0⟩ := by
  refine ruleOK_ex ?_
  intro cs w n h hc
  obtain ⟨c0, cs, w0, w, rfl, rfl, h0, h⟩ := fitsW_cons.mp h
  obtain ⟨c1, cs, w1, w, rfl, rfl, h1, h⟩ := fitsW_cons.mp h
  obtain ⟨c2, cs, w2, w, rfl, rfl, h2, h⟩ := fitsW_cons.mp h
  obtain ⟨c3, rfl, h3⟩ := fitsW_one.mp h
  rename' w => w3
  obtain ⟨u0, rfl, rfl, k0⟩ := shw_LPAR h0
  obtain ⟨x1, rfl, k1⟩ := h1
  obtain ⟨u2, rfl, rfl, k2⟩ := shw_RPAR h2
  obtain ⟨u3, rfl, rfl, k3⟩ := shw_BANG h3
  exact ⟨_, rfl, w_expr_nometa x1, x1, rfl, .parenBang k0 k1 k2 k3⟩

theorem r_62 : RuleOK ⟨N.«_import_statement», [N.«import_alias», T.«FROM», T.«QUOTED_INTERPOLATION»], "_import_statement", false, [(0, false, 0), (2, false, 0)], 0⟩ := by
  refine ruleOK_node ?_
  intro cs w n l h hc hl
  obtain ⟨c0, cs, w0, w, rfl, rfl, h0, h⟩ := fitsW_cons.mp h
  obtain ⟨c1, cs, w1, w, rfl, rfl, h1, h⟩ := fitsW_cons.mp h
  obtain ⟨c2, rfl, h2⟩ := fitsW_one.mp h
  rename' w => w2
  obtain ⟨x0, rfl, k0⟩ := h0
  obtain ⟨u1, rfl, rfl, k1⟩ := shw_FROM h1
  obtain ⟨x2, u2, rfl, rfl, k2⟩ := shw_QUOTED_INTERPOLATION h2
  exact .inr (.inl ⟨x0, x2, _, u1, u2, rfl, rfl, k0, k1, k2⟩)

theorem r_66 : RuleOK ⟨N.«_func_statement», [T.«STRING», T.«LPAR», T.«RPAR», N.«data_type», T.«__ANON_0», N.«value_brackets»], "_func_statement", false, [(0, false, 0), (3, false, 0), (5, false, 0)], 0⟩ := by
  refine ruleOK_node ?_
  intro cs w n l h hc hl
  obtain ⟨c0, cs, w0, w, rfl, rfl, h0, h⟩ := fitsW_cons.mp h
  obtain ⟨c1, cs, w1, w, rfl, rfl, h1, h⟩ := fitsW_cons.mp h
  obtain ⟨c2, cs, w2, w, rfl, rfl, h2, h⟩ := fitsW_cons.mp h
  obtain ⟨c3, cs, w3, w, rfl, rfl, h3, h⟩ := fitsW_cons.mp h
  obtain ⟨c4, cs, w4, w, rfl, rfl, h4, h⟩ := fitsW_cons.mp h
  obtain ⟨c5, rfl, h5⟩ := fitsW_one.mp h
  rename' w => w5
  obtain ⟨x0, u0, rfl, rfl, k0⟩ := shw_STRING h0
  obtain ⟨u1, rfl, rfl, k1⟩ := shw_LPAR h1
  obtain ⟨u2, rfl, rfl, k2⟩ := shw_RPAR h2
  obtain ⟨x3, rfl, k3⟩ := h3
  obtain ⟨u4, rfl, rfl, k4⟩ := shw___ANON_0 h4
  obtain ⟨x5, rfl, k5⟩ := h5
  exact ⟨x0, [], x3, x5, u0, u1, [], u2, w3, u4, w5, rfl, rfl, k0, k1, .nil, k2, k3, k4, k5, (hc.noInfix rfl)⟩

theorem r_70 : RuleOK ⟨N.«output_value», [N.«value_brackets»], "output_value", true, [(0, false, 0)], 0⟩ := by
  refine ruleOK_ex ?_
  intro cs w n h hc
  obtain ⟨c0, rfl, h0⟩ := fitsW_one.mp h
  rename' w => w0
  obtain ⟨x0, rfl, k0⟩ := h0
  exact ⟨_, rfl, w_expr_nometa x0, .expr x0, rfl, .expr k0 (hc.noInfix rfl)⟩

theorem r_74 : RuleOK ⟨N.«resource_value», [N.«deploy_condition»], "resource_value", true, [(0, false, 0)], 0⟩ := by
  refine ruleOK_ex ?_
  intro cs w n h hc
  obtain ⟨c0, rfl, h0⟩ := fitsW_one.mp h
  rename' w => w0
  obtain ⟨x0, y0, rfl, k0⟩ := h0
  exact ⟨_, rfl, w_config_nometa (.cond x0 y0), .cond x0 y0, rfl, k0⟩

theorem r_78 : RuleOK ⟨N.«child_resource», [T.«RESOURCE», T.«STRING», T.«QUOTED_INTERPOLATION», T.«EXISTING», T.«EQUAL», N.«object», N.«__child_resource_plus_3»], "child_resource", false, [(1, false, 0), (2, false, 0), (3, false, 0), (5, false, 0), (6, true, 0)], 0⟩ := by
  refine ruleOK_node ?_
  intro cs w n l h hc hl
  obtain ⟨c0, cs, w0, w, rfl, rfl, h0, h⟩ := fitsW_cons.mp h
  obtain ⟨c1, cs, w1, w, rfl, rfl, h1, h⟩ := fitsW_cons.mp h
  obtain ⟨c2, cs, w2, w, rfl, rfl, h2, h⟩ := fitsW_cons.mp h
  obtain ⟨c3, cs, w3, w, rfl, rfl, h3, h⟩ := fitsW_cons.mp h
  obtain ⟨c4, cs, w4, w, rfl, rfl, h4, h⟩ := fitsW_cons.mp h
  obtain ⟨c5, cs, w5, w, rfl, rfl, h5, h⟩ := fitsW_cons.mp h
  obtain ⟨c6, rfl, h6⟩ := fitsW_one.mp h
  rename' w => w6
  obtain ⟨u0, rfl, rfl, k0⟩ := shw_RESOURCE h0
  obtain ⟨x1, u1, rfl, rfl, k1⟩ := shw_STRING h1
  obtain ⟨x2, u2, rfl, rfl, k2⟩ := shw_QUOTED_INTERPOLATION h2
  obtain ⟨u3, rfl, rfl, k3⟩ := shw_EXISTING h3
  obtain ⟨u4, rfl, rfl, k4⟩ := shw_EQUAL h4
  obtain ⟨x5, rfl, k5⟩ := h5
  obtain ⟨q6, k6, m6⟩ := h6
  exact ⟨.child l x1 x2 true (.obj x5), (by simp only [keepKids', List.flatMap_cons, List.flatMap_nil, List.replicate_zero, List.replicate_succ, List.getElem?_cons_zero, List.getElem?_cons_succ, Bool.false_eq_true, if_true, if_false, List.append_nil, List.nil_append, List.cons_append, List.append_assoc, w_kids_mkCore, q6] <;> rfl), .mk (w1 := [u3]) (w2 := w5) (w3 := w6) k0 k1 k2 (.yes k3) k4 (.obj k5) k6 m6 (hc.childNL rfl) (hl rfl)⟩

theorem r_82 : RuleOK ⟨N.«child_resource», [T.«RESOURCE», T.«STRING», T.«QUOTED_INTERPOLATION», T.«EQUAL», N.«loop», N.«__child_resource_plus_3»], "child_resource", false, [(1, false, 0), (2, false, 0), (4, false, 1), (5, true, 0)], 0⟩ := by
  refine ruleOK_node ?_
  intro cs w n l h hc hl
  obtain ⟨c0, cs, w0, w, rfl, rfl, h0, h⟩ := fitsW_cons.mp h
  obtain ⟨c1, cs, w1, w, rfl, rfl, h1, h⟩ := fitsW_cons.mp h
  obtain ⟨c2, cs, w2, w, rfl, rfl, h2, h⟩ := fitsW_cons.mp h
  obtain ⟨c3, cs, w3, w, rfl, rfl, h3, h⟩ := fitsW_cons.mp h
  obtain ⟨c4, cs, w4, w, rfl, rfl, h4, h⟩ := fitsW_cons.mp h
  obtain ⟨c5, rfl, h5⟩ := fitsW_one.mp h
  rename' w => w5
  obtain ⟨u0, rfl, rfl, k0⟩ := shw_RESOURCE h0
  obtain ⟨x1, u1, rfl, rfl, k1⟩ := shw_STRING h1
  obtain ⟨x2, u2, rfl, rfl, k2⟩ := shw_QUOTED_INTERPOLATION h2
  obtain ⟨u3, rfl, rfl, k3⟩ := shw_EQUAL h3
  obtain ⟨x4, rfl, k4⟩ := h4
  obtain ⟨q5, k5, m5⟩ := h5
  exact ⟨.child l x1 x2 false (.loop x4), (by simp only [keepKids', List.flatMap_cons, List.flatMap_nil, List.replicate_zero, List.replicate_succ, List.getElem?_cons_zero, List.getElem?_cons_succ, Bool.false_eq_true, if_true, if_false, List.append_nil, List.nil_append, List.cons_append, List.append_assoc, w_kids_mkCore, q5] <;> rfl), .mk (w1 := []) (w2 := w4) (w3 := w5) k0 k1 k2 .no k3 (.loop k4) k5 m5 (hc.childNL rfl) (hl rfl)⟩

theorem r_86 : RuleOK ⟨N.«data_type», [N.«base_type», N.«__data_type_star_5»], "data_type", false, [(0, false, 0), (1, true, 0)], 0⟩ := by
  refine ruleOK_node ?_
  intro cs w n l h hc hl
  obtain ⟨c0, cs, w0, w, rfl, rfl, h0, h⟩ := fitsW_cons.mp h
  obtain ⟨c1, rfl, h1⟩ := fitsW_one.mp h
  rename' w => w1
  obtain ⟨x0, rfl, k0⟩ := h0
  obtain ⟨x1, q1, k1⟩ := h1
  exact ⟨.mk x0 x1, (by simp only [keepKids', List.flatMap_cons, List.flatMap_nil, List.replicate_zero, List.replicate_succ, List.getElem?_cons_zero, List.getElem?_cons_succ, Bool.false_eq_true, if_true, if_false, List.append_nil, List.nil_append, List.cons_append, List.append_assoc, w_kids_mkCore, q1] <;> rfl), .mk k0 k1⟩

theorem r_90 : RuleOK ⟨N.«union_type», [T.«LPAR», N.«data_type», N.«__union_type_plus_6», T.«RPAR»], "union_type", false, [(1, false, 0), (2, true, 0)], 0⟩ := by
  refine ruleOK_node ?_
  intro cs w n l h hc hl
  obtain ⟨c0, cs, w0, w, rfl, rfl, h0, h⟩ := fitsW_cons.mp h
  obtain ⟨c1, cs, w1, w, rfl, rfl, h1, h⟩ := fitsW_cons.mp h
  obtain ⟨c2, cs, w2, w, rfl, rfl, h2, h⟩ := fitsW_cons.mp h
  obtain ⟨c3, rfl, h3⟩ := fitsW_one.mp h
  rename' w => w3
  obtain ⟨u0, rfl, rfl, k0⟩ := shw_LPAR h0
  obtain ⟨x1, rfl, k1⟩ := h1
  obtain ⟨x2, y2, q2, k2⟩ := h2
  obtain ⟨u3, rfl, rfl, k3⟩ := shw_RPAR h3
  exact ⟨x1, x2, y2, (by simp only [keepKids', List.flatMap_cons, List.flatMap_nil, List.replicate_zero, List.replicate_succ, List.getElem?_cons_zero, List.getElem?_cons_succ, Bool.false_eq_true, if_true, if_false, List.append_nil, List.nil_append, List.cons_append, List.append_assoc, w_kids_mkCore, q2] <;> rfl), .union k0 k1 k2 k3⟩

theorem r_94 : RuleOK ⟨N.«import_alias», [T.«STRING», T.«AS», T.«STRING»], "import_alias", false, [(0, false, 0), (2, false, 0)], 0⟩ := by
  refine ruleOK_node ?_
  intro cs w n l h hc hl
  obtain ⟨c0, cs, w0, w, rfl, rfl, h0, h⟩ := fitsW_cons.mp h
  obtain ⟨c1, cs, w1, w, rfl, rfl, h1, h⟩ := fitsW_cons.mp h
  obtain ⟨c2, rfl, h2⟩ := fitsW_one.mp h
  rename' w => w2
  obtain ⟨x0, u0, rfl, rfl, k0⟩ := shw_STRING h0
  obtain ⟨u1, rfl, rfl, k1⟩ := shw_AS h1
  obtain ⟨x2, u2, rfl, rfl, k2⟩ := shw_STRING h2
  exact ⟨⟨.name x0, some x2⟩, rfl, .nameAs k0 k1 k2⟩

theorem r_98 : RuleOK ⟨N.«loop», [T.«LSQB», T.«_CPP_COMMENT_NL», T.«FOR», N.«loop_array», T.«COLON», N.«value_brackets», N.«value_brackets», T.«_CPP_COMMENT_NL», T.«RSQB»], "loop", false, [(3, false, 0), (5, false, 0), (6, false, 0)], 0⟩ := by
  refine ruleOK_node ?_
  intro cs w n l h hc hl
  obtain ⟨c0, cs, w0, w, rfl, rfl, h0, h⟩ := fitsW_cons.mp h
  obtain ⟨c1, cs, w1, w, rfl, rfl, h1, h⟩ := fitsW_cons.mp h
  obtain ⟨c2, cs, w2, w, rfl, rfl, h2, h⟩ := fitsW_cons.mp h
  obtain ⟨c3, cs, w3, w, rfl, rfl, h3, h⟩ := fitsW_cons.mp h
  obtain ⟨c4, cs, w4, w, rfl, rfl, h4, h⟩ := fitsW_cons.mp h
  obtain ⟨c5, cs, w5, w, rfl, rfl, h5, h⟩ := fitsW_cons.mp h
  obtain ⟨c6, cs, w6, w, rfl, rfl, h6, h⟩ := fitsW_cons.mp h
  obtain ⟨c7, cs, w7, w, rfl, rfl, h7, h⟩ := fitsW_cons.mp h
  obtain ⟨c8, rfl, h8⟩ := fitsW_one.mp h
  rename' w => w8
  obtain ⟨u0, rfl, rfl, k0⟩ := shw_LSQB h0
  obtain ⟨u1, rfl, k1⟩ := shw__CPP_COMMENT_NL h1
  obtain ⟨u2, rfl, rfl, k2⟩ := shw_FOR h2
  obtain ⟨x3, rfl, k3⟩ := h3
  obtain ⟨u4, rfl, rfl, k4⟩ := shw_COLON h4
  obtain ⟨x5, rfl, k5⟩ := h5
  obtain ⟨x6, rfl, k6⟩ := h6
  obtain ⟨u7, rfl, k7⟩ := shw__CPP_COMMENT_NL h7
  obtain ⟨u8, rfl, rfl, k8⟩ := shw_RSQB h8
  exact ⟨.mk x3 (some x5) x6, rfl, .filter (w1 := [u1]) (w4 := [u7]) k0 (optBreak_some k1) k2 k3 k4 (by have := k5; simpa only [List.append_assoc, List.nil_append, List.append_nil, List.cons_append, nextT_append, nextT_cons, nextT_nil] using this) k6 (optBreak_some k7) k8⟩

theorem r_102 : RuleOK ⟨N.«loop», [T.«LSQB», T.«_CPP_COMMENT_NL», T.«FOR», N.«loop_array_index», T.«COLON», N.«value_brackets», N.«value_brackets», T.«_CPP_COMMENT_NL», T.«RSQB»], "loop", false, [(3, false, 0), (5, false, 0), (6, false, 0)], 0⟩ := by
  refine ruleOK_node ?_
  intro cs w n l h hc hl
  obtain ⟨c0, cs, w0, w, rfl, rfl, h0, h⟩ := fitsW_cons.mp h
  obtain ⟨c1, cs, w1, w, rfl, rfl, h1, h⟩ := fitsW_cons.mp h
  obtain ⟨c2, cs, w2, w, rfl, rfl, h2, h⟩ := fitsW_cons.mp h
  obtain ⟨c3, cs, w3, w, rfl, rfl, h3, h⟩ := fitsW_cons.mp h
  obtain ⟨c4, cs, w4, w, rfl, rfl, h4, h⟩ := fitsW_cons.mp h
  obtain ⟨c5, cs, w5, w, rfl, rfl, h5, h⟩ := fitsW_cons.mp h
  obtain ⟨c6, cs, w6, w, rfl, rfl, h6, h⟩ := fitsW_cons.mp h
  obtain ⟨c7, cs, w7, w, rfl, rfl, h7, h⟩ := fitsW_cons.mp h
  obtain ⟨c8, rfl, h8⟩ := fitsW_one.mp h
  rename' w => w8
  obtain ⟨u0, rfl, rfl, k0⟩ := shw_LSQB h0
  obtain ⟨u1, rfl, k1⟩ := shw__CPP_COMMENT_NL h1
  obtain ⟨u2, rfl, rfl, k2⟩ := shw_FOR h2
  obtain ⟨x3, rfl, k3⟩ := h3
  obtain ⟨u4, rfl, rfl, k4⟩ := shw_COLON h4
  obtain ⟨x5, rfl, k5⟩ := h5
  obtain ⟨x6, rfl, k6⟩ := h6
  obtain ⟨u7, rfl, k7⟩ := shw__CPP_COMMENT_NL h7
  obtain ⟨u8, rfl, rfl, k8⟩ := shw_RSQB h8
  exact ⟨.mk x3 (some x5) x6, rfl, .filter (w1 := [u1]) (w4 := [u7]) k0 (optBreak_some k1) k2 k3 k4 (by have := k5; simpa only [List.append_assoc, List.nil_append, List.append_nil, List.cons_append, nextT_append, nextT_cons, nextT_nil] using this) k6 (optBreak_some k7) k8⟩

theorem r_106 : RuleOK ⟨N.«loop», [T.«LSQB», T.«_CPP_COMMENT_NL», T.«FOR», N.«loop_object», T.«COLON», N.«value_brackets», N.«value_brackets», T.«_CPP_COMMENT_NL», T.«RSQB»], "loop", false, [(3, false, 0), (5, false, 0), (6, false, 0)], 0⟩ := by
  refine ruleOK_node ?_
  intro cs w n l h hc hl
  obtain ⟨c0, cs, w0, w, rfl, rfl, h0, h⟩ := fitsW_cons.mp h
  obtain ⟨c1, cs, w1, w, rfl, rfl, h1, h⟩ := fitsW_cons.mp h
  obtain ⟨c2, cs, w2, w, rfl, rfl, h2, h⟩ := fitsW_cons.mp h
  obtain ⟨c3, cs, w3, w, rfl, rfl, h3, h⟩ := fitsW_cons.mp h
  obtain ⟨c4, cs, w4, w, rfl, rfl, h4, h⟩ := fitsW_cons.mp h
  obtain ⟨c5, cs, w5, w, rfl, rfl, h5, h⟩ := fitsW_cons.mp h
  obtain ⟨c6, cs, w6, w, rfl, rfl, h6, h⟩ := fitsW_cons.mp h
  obtain ⟨c7, cs, w7, w, rfl, rfl, h7, h⟩ := fitsW_cons.mp h
  obtain ⟨c8, rfl, h8⟩ := fitsW_one.mp h
  rename' w => w8
  obtain ⟨u0, rfl, rfl, k0⟩ := shw_LSQB h0
  obtain ⟨u1, rfl, k1⟩ := shw__CPP_COMMENT_NL h1
  obtain ⟨u2, rfl, rfl, k2⟩ := shw_FOR h2
  obtain ⟨x3, rfl, k3⟩ := h3
  obtain ⟨u4, rfl, rfl, k4⟩ := shw_COLON h4
  obtain ⟨x5, rfl, k5⟩ := h5
  obtain ⟨x6, rfl, k6⟩ := h6
  obtain ⟨u7, rfl, k7⟩ := shw__CPP_COMMENT_NL h7
  obtain ⟨u8, rfl, rfl, k8⟩ := shw_RSQB h8
  exact ⟨.mk x3 (some x5) x6, rfl, .filter (w1 := [u1]) (w4 := [u7]) k0 (optBreak_some k1) k2 k3 k4 (by have := k5; simpa only [List.append_assoc, List.nil_append, List.append_nil, List.cons_append, nextT_append, nextT_cons, nextT_nil] using this) k6 (optBreak_some k7) k8⟩

theorem r_110 : RuleOK ⟨N.«loop», [T.«LSQB», T.«FOR», N.«loop_array», T.«COLON», N.«value_brackets», N.«value_brackets», T.«_CPP_COMMENT_NL», T.«RSQB»], "loop", false, [(2, false, 0), (4, false, 0), (5, false, 0)], 0⟩ := by
  refine ruleOK_node ?_
  intro cs w n l h hc hl
  obtain ⟨c0, cs, w0, w, rfl, rfl, h0, h⟩ := fitsW_cons.mp h
  obtain ⟨c1, cs, w1, w, rfl, rfl, h1, h⟩ := fitsW_cons.mp h
  obtain ⟨c2, cs, w2, w, rfl, rfl, h2, h⟩ := fitsW_cons.mp h
  obtain ⟨c3, cs, w3, w, rfl, rfl, h3, h⟩ := fitsW_cons.mp h
  obtain ⟨c4, cs, w4, w, rfl, rfl, h4, h⟩ := fitsW_cons.mp h
  obtain ⟨c5, cs, w5, w, rfl, rfl, h5, h⟩ := fitsW_cons.mp h
  obtain ⟨c6, cs, w6, w, rfl, rfl, h6, h⟩ := fitsW_cons.mp h
  obtain ⟨c7, rfl, h7⟩ := fitsW_one.mp h
  rename' w => w7
  obtain ⟨u0, rfl, rfl, k0⟩ := shw_LSQB h0
  obtain ⟨u1, rfl, rfl, k1⟩ := shw_FOR h1
  obtain ⟨x2, rfl, k2⟩ := h2
  obtain ⟨u3, rfl, rfl, k3⟩ := shw_COLON h3
  obtain ⟨x4, rfl, k4⟩ := h4
  obtain ⟨x5, rfl, k5⟩ := h5
  obtain ⟨u6, rfl, k6⟩ := shw__CPP_COMMENT_NL h6
  obtain ⟨u7, rfl, rfl, k7⟩ := shw_RSQB h7
  exact ⟨.mk x2 (some x4) x5, rfl, .filter (w1 := []) (w4 := [u6]) k0 optBreak_none k1 k2 k3 (by have := k4; simpa only [List.append_assoc, List.nil_append, List.append_nil, List.cons_append, nextT_append, nextT_cons, nextT_nil] using this) k5 (optBreak_some k6) k7⟩

theorem r_114 : RuleOK ⟨N.«loop», [T.«LSQB», T.«FOR», N.«loop_array_index», T.«COLON», N.«value_brackets», N.«value_brackets», T.«_CPP_COMMENT_NL», T.«RSQB»], "loop", false, [(2, false, 0), (4, false, 0), (5, false, 0)], 0⟩ := by
  refine ruleOK_node ?_
  intro cs w n l h hc hl
  obtain ⟨c0, cs, w0, w, rfl, rfl, h0, h⟩ := fitsW_cons.mp h
  obtain ⟨c1, cs, w1, w, rfl, rfl, h1, h⟩ := fitsW_cons.mp h
  obtain ⟨c2, cs, w2, w, rfl, rfl, h2, h⟩ := fitsW_cons.mp h
  obtain ⟨c3, cs, w3, w, rfl, rfl, h3, h⟩ := fitsW_cons.mp h
  obtain ⟨c4, cs, w4, w, rfl, rfl, h4, h⟩ := fitsW_cons.mp h
  obtain ⟨c5, cs, w5, w, rfl, rfl, h5, h⟩ := fitsW_cons.mp h
  obtain ⟨c6, cs, w6, w, rfl, rfl, h6, h⟩ := fitsW_cons.mp h
  obtain ⟨c7, rfl, h7⟩ := fitsW_one.mp h
  rename' w => w7
  obtain ⟨u0, rfl, rfl, k0⟩ := shw_LSQB h0
  obtain ⟨u1, rfl, rfl, k1⟩ := shw_FOR h1
  obtain ⟨x2, rfl, k2⟩ := h2
  obtain ⟨u3, rfl, rfl, k3⟩ := shw_COLON h3
  obtain ⟨x4, rfl, k4⟩ := h4
  obtain ⟨x5, rfl, k5⟩ := h5
  obtain ⟨u6, rfl, k6⟩ := shw__CPP_COMMENT_NL h6
  obtain ⟨u7, rfl, rfl, k7⟩ := shw_RSQB h7
  exact ⟨.mk x2 (some x4) x5, rfl, .filter (w1 := []) (w4 := [u6]) k0 optBreak_none k1 k2 k3 (by have := k4; simpa only [List.append_assoc, List.nil_append, List.append_nil, List.cons_append, nextT_append, nextT_cons, nextT_nil] using this) k5 (optBreak_some k6) k7⟩

theorem r_118 : RuleOK ⟨N.«loop», [T.«LSQB», T.«FOR», N.«loop_object», T.«COLON», N.«value_brackets», N.«value_brackets», T.«_CPP_COMMENT_NL», T.«RSQB»], "loop", false, [(2, false, 0), (4, false, 0), (5, false, 0)], 0⟩ := by
  refine ruleOK_node ?_
  intro cs w n l h hc hl
  obtain ⟨c0, cs, w0, w, rfl, rfl, h0, h⟩ := fitsW_cons.mp h
  obtain ⟨c1, cs, w1, w, rfl, rfl, h1, h⟩ := fitsW_cons.mp h
  obtain ⟨c2, cs, w2, w, rfl, rfl, h2, h⟩ := fitsW_cons.mp h
  obtain ⟨c3, cs, w3, w, rfl, rfl, h3, h⟩ := fitsW_cons.mp h
  obtain ⟨c4, cs, w4, w, rfl, rfl, h4, h⟩ := fitsW_cons.mp h
  obtain ⟨c5, cs, w5, w, rfl, rfl, h5, h⟩ := fitsW_cons.mp h
  obtain ⟨c6, cs, w6, w, rfl, rfl, h6, h⟩ := fitsW_cons.mp h
  obtain ⟨c7, rfl, h7⟩ := fitsW_one.mp h
  rename' w => w7
  obtain ⟨u0, rfl, rfl, k0⟩ := shw_LSQB h0
  obtain ⟨u1, rfl, rfl, k1⟩ := shw_FOR h1
  obtain ⟨x2, rfl, k2⟩ := h2
  obtain ⟨u3, rfl, rfl, k3⟩ := shw_COLON h3
  obtain ⟨x4, rfl, k4⟩ := h4
  obtain ⟨x5, rfl, k5⟩ := h5
  obtain ⟨u6, rfl, k6⟩ := shw__CPP_COMMENT_NL h6
  obtain ⟨u7, rfl, rfl, k7⟩ := shw_RSQB h7
  exact ⟨.mk x2 (some x4) x5, rfl, .filter (w1 := []) (w4 := [u6]) k0 optBreak_none k1 k2 k3 (by have := k4; simpa only [List.append_assoc, List.nil_append, List.append_nil, List.cons_append, nextT_append, nextT_cons, nextT_nil] using this) k5 (optBreak_some k6) k7⟩

theorem r_122 : RuleOK ⟨N.«loop_array», [T.«STRING», T.«IN», N.«value_brackets»], "loop_array", false, [(0, false, 0), (2, false, 0)], 0⟩ := by
  refine ruleOK_node ?_
  intro cs w n l h hc hl
  obtain ⟨c0, cs, w0, w, rfl, rfl, h0, h⟩ := fitsW_cons.mp h
  obtain ⟨c1, cs, w1, w, rfl, rfl, h1, h⟩ := fitsW_cons.mp h
  obtain ⟨c2, rfl, h2⟩ := fitsW_one.mp h
  rename' w => w2
  obtain ⟨x0, u0, rfl, rfl, k0⟩ := shw_STRING h0
  obtain ⟨u1, rfl, rfl, k1⟩ := shw_IN h1
  obtain ⟨x2, rfl, k2⟩ := h2
  exact ⟨.arr x0 x2, rfl, .arr k0 k1 k2 (hc.noInfix rfl)⟩

theorem r_126 : RuleOK ⟨N.«deploy_condition», [T.«IF», T.«LPAR», N.«value_brackets», T.«RPAR», N.«value_brackets»], "deploy_condition", false, [(2, false, 0), (4, false, 0)], 0⟩ := by
  refine ruleOK_node ?_
  intro cs w n l h hc hl
  obtain ⟨c0, cs, w0, w, rfl, rfl, h0, h⟩ := fitsW_cons.mp h
  obtain ⟨c1, cs, w1, w, rfl, rfl, h1, h⟩ := fitsW_cons.mp h
  obtain ⟨c2, cs, w2, w, rfl, rfl, h2, h⟩ := fitsW_cons.mp h
  obtain ⟨c3, cs, w3, w, rfl, rfl, h3, h⟩ := fitsW_cons.mp h
  obtain ⟨c4, rfl, h4⟩ := fitsW_one.mp h
  rename' w => w4
  obtain ⟨u0, rfl, rfl, k0⟩ := shw_IF h0
  obtain ⟨u1, rfl, rfl, k1⟩ := shw_LPAR h1
  obtain ⟨x2, rfl, k2⟩ := h2
  obtain ⟨u3, rfl, rfl, k3⟩ := shw_RPAR h3
  obtain ⟨x4, rfl, k4⟩ := h4
  exact ⟨x2, x4, rfl, .cond (w1 := []) optBreak_none k0 k1 k2 k3 k4 (hc.noInfix rfl)⟩

theorem r_130 : RuleOK ⟨N.«array», [T.«LSQB», N.«__child_resource_plus_3», N.«__array_star_8», T.«RSQB»], "array", false, [(1, true, 0), (2, true, 0)], 0⟩ := by
  refine ruleOK_node ?_
  intro cs w n l h hc hl
  obtain ⟨c0, cs, w0, w, rfl, rfl, h0, h⟩ := fitsW_cons.mp h
  obtain ⟨c1, cs, w1, w, rfl, rfl, h1, h⟩ := fitsW_cons.mp h
  obtain ⟨c2, cs, w2, w, rfl, rfl, h2, h⟩ := fitsW_cons.mp h
  obtain ⟨c3, rfl, h3⟩ := fitsW_one.mp h
  rename' w => w3
  obtain ⟨u0, rfl, rfl, k0⟩ := shw_LSQB h0
  obtain ⟨q1, k1, m1⟩ := h1
  obtain ⟨x2, q2, k2⟩ := h2
  obtain ⟨u3, rfl, rfl, k3⟩ := shw_RSQB h3
  exact ⟨x2, (by simp only [keepKids', List.flatMap_cons, List.flatMap_nil, List.replicate_zero, List.replicate_succ, List.getElem?_cons_zero, List.getElem?_cons_succ, Bool.false_eq_true, if_true, if_false, List.append_nil, List.nil_append, List.cons_append, List.append_assoc, w_kids_mkCore, q1, q2] <;> rfl), .array (w1 := w1) (w2 := w2) k0 k1 k2 k3⟩

theorem r_134 : RuleOK ⟨N.«object», [T.«LBRACE», N.«__child_resource_plus_3», N.«__object_star_10», T.«RBRACE»], "object", false, [(1, true, 0), (2, true, 0)], 0⟩ := by
  refine ruleOK_node ?_
  intro cs w n l h hc hl
  obtain ⟨c0, cs, w0, w, rfl, rfl, h0, h⟩ := fitsW_cons.mp h
  obtain ⟨c1, cs, w1, w, rfl, rfl, h1, h⟩ := fitsW_cons.mp h
  obtain ⟨c2, cs, w2, w, rfl, rfl, h2, h⟩ := fitsW_cons.mp h
  obtain ⟨c3, rfl, h3⟩ := fitsW_one.mp h
  rename' w => w3
  obtain ⟨u0, rfl, rfl, k0⟩ := shw_LBRACE h0
  obtain ⟨q1, k1, m1⟩ := h1
  obtain ⟨x2, q2, k2⟩ := h2
  obtain ⟨u3, rfl, rfl, k3⟩ := shw_RBRACE h3
  exact ⟨x2, (by simp only [keepKids', List.flatMap_cons, List.flatMap_nil, List.replicate_zero, List.replicate_succ, List.getElem?_cons_zero, List.getElem?_cons_succ, Bool.false_eq_true, if_true, if_false, List.append_nil, List.nil_append, List.cons_append, List.append_assoc, w_kids_mkCore, q1, q2] <;> rfl), .mk (w1 := w1) (w2 := w2) k0 k1 k2 k3⟩

theorem r_138 : RuleOK ⟨N.«pair», [N.«key», T.«COLON», N.«value_brackets», T.«QMARK»], "pair", false, [(0, false, 0), (2, false, 0)], 0⟩ := by
  refine ruleOK_node ?_
  intro cs w n l h hc hl
  obtain ⟨c0, cs, w0, w, rfl, rfl, h0, h⟩ := fitsW_cons.mp h
  obtain ⟨c1, cs, w1, w, rfl, rfl, h1, h⟩ := fitsW_cons.mp h
  obtain ⟨c2, cs, w2, w, rfl, rfl, h2, h⟩ := fitsW_cons.mp h
  obtain ⟨c3, rfl, h3⟩ := fitsW_one.mp h
  rename' w => w3
  obtain ⟨x0, u0, rfl, rfl, k0⟩ := h0
  obtain ⟨u1, rfl, rfl, k1⟩ := shw_COLON h1
  obtain ⟨x2, rfl, k2⟩ := h2
  obtain ⟨u3, rfl, rfl, k3⟩ := shw_QMARK h3
  exact ⟨.pair x0 x2, rfl, .exprOpt k0 k1 k2 k3 (hc.pairOpt rfl).1 (hc.pairOpt rfl).2⟩

theorem r_142 : RuleOK ⟨N.«key», [T.«RESOURCE»], "key", false, [(0, false, 0)], 0⟩ := by
  refine ruleOK_node ?_
  intro cs w n l h hc hl
  obtain ⟨c0, rfl, h0⟩ := fitsW_one.mp h
  rename' w => w0
  obtain ⟨u0, rfl, rfl, k0⟩ := shw_RESOURCE h0
  exact ⟨.resource, u0, rfl, rfl, .resource k0⟩

theorem r_146 : RuleOK ⟨N.«decorator», [T.«AT», T.«__ANON_2», T.«LPAR», T.«_CPP_COMMENT_NL», N.«value_brackets», T.«_CPP_COMMENT_NL», T.«RPAR»], "decorator", false, [(1, false, 0), (4, false, 0)], 0⟩ := by
  refine ruleOK_node ?_
  intro cs w n l h hc hl
  obtain ⟨c0, cs, w0, w, rfl, rfl, h0, h⟩ := fitsW_cons.mp h
  obtain ⟨c1, cs, w1, w, rfl, rfl, h1, h⟩ := fitsW_cons.mp h
  obtain ⟨c2, cs, w2, w, rfl, rfl, h2, h⟩ := fitsW_cons.mp h
  obtain ⟨c3, cs, w3, w, rfl, rfl, h3, h⟩ := fitsW_cons.mp h
  obtain ⟨c4, cs, w4, w, rfl, rfl, h4, h⟩ := fitsW_cons.mp h
  obtain ⟨c5, cs, w5, w, rfl, rfl, h5, h⟩ := fitsW_cons.mp h
  obtain ⟨c6, rfl, h6⟩ := fitsW_one.mp h
  rename' w => w6
  obtain ⟨u0, rfl, rfl, k0⟩ := shw_AT h0
  obtain ⟨x1, u1, rfl, rfl, k1⟩ := shw___ANON_2 h1
  obtain ⟨u2, rfl, rfl, k2⟩ := shw_LPAR h2
  obtain ⟨u3, rfl, k3⟩ := shw__CPP_COMMENT_NL h3
  obtain ⟨x4, rfl, k4⟩ := h4
  obtain ⟨u5, rfl, k5⟩ := shw__CPP_COMMENT_NL h5
  obtain ⟨u6, rfl, rfl, k6⟩ := shw_RPAR h6
  exact ⟨⟨x1, some x4⟩, rfl, .arg (w1 := [u3]) (w3 := [u5]) (w4 := []) k0 k1 k2 (optBreak_some k3) k4 (optBreak_some k5) k6 breaks_nil (by simp)⟩

theorem r_150 : RuleOK ⟨N.«decorator», [T.«AT», T.«__ANON_2», T.«LPAR», T.«_CPP_COMMENT_NL», N.«value_brackets», T.«_CPP_COMMENT_NL», T.«RPAR», T.«_CPP_COMMENT_NL», T.«_CPP_COMMENT_NL», T.«_CPP_COMMENT_NL», T.«_CPP_COMMENT_NL»], "decorator", false, [(1, false, 0), (4, false, 0)], 0⟩ := by
  refine ruleOK_node ?_
  intro cs w n l h hc hl
  obtain ⟨c0, cs, w0, w, rfl, rfl, h0, h⟩ := fitsW_cons.mp h
  obtain ⟨c1, cs, w1, w, rfl, rfl, h1, h⟩ := fitsW_cons.mp h
  obtain ⟨c2, cs, w2, w, rfl, rfl, h2, h⟩ := fitsW_cons.mp h
  obtain ⟨c3, cs, w3, w, rfl, rfl, h3, h⟩ := fitsW_cons.mp h
  obtain ⟨c4, cs, w4, w, rfl, rfl, h4, h⟩ := fitsW_cons.mp h
  obtain ⟨c5, cs, w5, w, rfl, rfl, h5, h⟩ := fitsW_cons.mp h
  obtain ⟨c6, cs, w6, w, rfl, rfl, h6, h⟩ := fitsW_cons.mp h
  obtain ⟨c7, cs, w7, w, rfl, rfl, h7, h⟩ := fitsW_cons.mp h
  obtain ⟨c8, cs, w8, w, rfl, rfl, h8, h⟩ := fitsW_cons.mp h
  obtain ⟨c9, cs, w9, w, rfl, rfl, h9, h⟩ := fitsW_cons.mp h
  obtain ⟨c10, rfl, h10⟩ := fitsW_one.mp h
  rename' w => w10
  obtain ⟨u0, rfl, rfl, k0⟩ := shw_AT h0
  obtain ⟨x1, u1, rfl, rfl, k1⟩ := shw___ANON_2 h1
  obtain ⟨u2, rfl, rfl, k2⟩ := shw_LPAR h2
  obtain ⟨u3, rfl, k3⟩ := shw__CPP_COMMENT_NL h3
  obtain ⟨x4, rfl, k4⟩ := h4
  obtain ⟨u5, rfl, k5⟩ := shw__CPP_COMMENT_NL h5
  obtain ⟨u6, rfl, rfl, k6⟩ := shw_RPAR h6
  obtain ⟨u7, rfl, k7⟩ := shw__CPP_COMMENT_NL h7
  obtain ⟨u8, rfl, k8⟩ := shw__CPP_COMMENT_NL h8
  obtain ⟨u9, rfl, k9⟩ := shw__CPP_COMMENT_NL h9
  obtain ⟨u10, rfl, k10⟩ := shw__CPP_COMMENT_NL h10
  exact ⟨⟨x1, some x4⟩, rfl, .arg (w1 := [u3]) (w3 := [u5]) (w4 := [u7, u8, u9, u10]) k0 k1 k2 (optBreak_some k3) k4 (optBreak_some k5) k6 (breaks_cons k7 (breaks_cons k8 (breaks_cons k9 (breaks_cons k10 breaks_nil)))) (by simp)⟩

theorem r_154 : RuleOK ⟨N.«decorator», [T.«AT», T.«__ANON_2», T.«LPAR», T.«_CPP_COMMENT_NL», N.«value_brackets», T.«_CPP_COMMENT_NL», T.«RPAR», T.«_CPP_COMMENT_NL», T.«_CPP_COMMENT_NL», T.«_CPP_COMMENT_NL», T.«_CPP_COMMENT_NL», T.«_CPP_COMMENT_NL», T.«_CPP_COMMENT_NL», T.«_CPP_COMMENT_NL», T.«_CPP_COMMENT_NL»], "decorator", false, [(1, false, 0), (4, false, 0)], 0⟩ := by
  refine ruleOK_node ?_
  intro cs w n l h hc hl
  obtain ⟨c0, cs, w0, w, rfl, rfl, h0, h⟩ := fitsW_cons.mp h
  obtain ⟨c1, cs, w1, w, rfl, rfl, h1, h⟩ := fitsW_cons.mp h
  obtain ⟨c2, cs, w2, w, rfl, rfl, h2, h⟩ := fitsW_cons.mp h
  obtain ⟨c3, cs, w3, w, rfl, rfl, h3, h⟩ := fitsW_cons.mp h
  obtain ⟨c4, cs, w4, w, rfl, rfl, h4, h⟩ := fitsW_cons.mp h
  obtain ⟨c5, cs, w5, w, rfl, rfl, h5, h⟩ := fitsW_cons.mp h
  obtain ⟨c6, cs, w6, w, rfl, rfl, h6, h⟩ := fitsW_cons.mp h
  obtain ⟨c7, cs, w7, w, rfl, rfl, h7, h⟩ := fitsW_cons.mp h
  obtain ⟨c8, cs, w8, w, rfl, rfl, h8, h⟩ := fitsW_cons.mp h
  obtain ⟨c9, cs, w9, w, rfl, rfl, h9, h⟩ := fitsW_cons.mp h
  obtain ⟨c10, cs, w10, w, rfl, rfl, h10, h⟩ := fitsW_cons.mp h
  obtain ⟨c11, cs, w11, w, rfl, rfl, h11, h⟩ := fitsW_cons.mp h
  obtain ⟨c12, cs, w12, w, rfl, rfl, h12, h⟩ := fitsW_cons.mp h
  obtain ⟨c13, cs, w13, w, rfl, rfl, h13, h⟩ := fitsW_cons.mp h
  obtain ⟨c14, rfl, h14⟩ := fitsW_one.mp h
  rename' w => w14
  obtain ⟨u0, rfl, rfl, k0⟩ := shw_AT h0
  obtain ⟨x1, u1, rfl, rfl, k1⟩ := shw___ANON_2 h1
  obtain ⟨u2, rfl, rfl, k2⟩ := shw_LPAR h2
  obtain ⟨u3, rfl, k3⟩ := shw__CPP_COMMENT_NL h3
  obtain ⟨x4, rfl, k4⟩ := h4
  obtain ⟨u5, rfl, k5⟩ := shw__CPP_COMMENT_NL h5
  obtain ⟨u6, rfl, rfl, k6⟩ := shw_RPAR h6
  obtain ⟨u7, rfl, k7⟩ := shw__CPP_COMMENT_NL h7
  obtain ⟨u8, rfl, k8⟩ := shw__CPP_COMMENT_NL h8
  obtain ⟨u9, rfl, k9⟩ := shw__CPP_COMMENT_NL h9
  obtain ⟨u10, rfl, k10⟩ := shw__CPP_COMMENT_NL h10
  obtain ⟨u11, rfl, k11⟩ := shw__CPP_COMMENT_NL h11
  obtain ⟨u12, rfl, k12⟩ := shw__CPP_COMMENT_NL h12
  obtain ⟨u13, rfl, k13⟩ := shw__CPP_COMMENT_NL h13
  obtain ⟨u14, rfl, k14⟩ := shw__CPP_COMMENT_NL h14
  exact ⟨⟨x1, some x4⟩, rfl, .arg (w1 := [u3]) (w3 := [u5]) (w4 := [u7, u8, u9, u10, u11, u12, u13, u14]) k0 k1 k2 (optBreak_some k3) k4 (optBreak_some k5) k6 (breaks_cons k7 (breaks_cons k8 (breaks_cons k9 (breaks_cons k10 (breaks_cons k11 (breaks_cons k12 (breaks_cons k13 (breaks_cons k14 breaks_nil)))))))) (by simp)⟩

theorem r_158 : RuleOK ⟨N.«decorator», [T.«AT», T.«__ANON_2», T.«LPAR», T.«_CPP_COMMENT_NL», N.«value_brackets», T.«RPAR», T.«_CPP_COMMENT_NL»], "decorator", false, [(1, false, 0), (4, false, 0)], 0⟩ := by
  refine ruleOK_node ?_
  intro cs w n l h hc hl
  obtain ⟨c0, cs, w0, w, rfl, rfl, h0, h⟩ := fitsW_cons.mp h
  obtain ⟨c1, cs, w1, w, rfl, rfl, h1, h⟩ := fitsW_cons.mp h
  obtain ⟨c2, cs, w2, w, rfl, rfl, h2, h⟩ := fitsW_cons.mp h
  obtain ⟨c3, cs, w3, w, rfl, rfl, h3, h⟩ := fitsW_cons.mp h
  obtain ⟨c4, cs, w4, w, rfl, rfl, h4, h⟩ := fitsW_cons.mp h
  obtain ⟨c5, cs, w5, w, rfl, rfl, h5, h⟩ := fitsW_cons.mp h
  obtain ⟨c6, rfl, h6⟩ := fitsW_one.mp h
  rename' w => w6
  obtain ⟨u0, rfl, rfl, k0⟩ := shw_AT h0
  obtain ⟨x1, u1, rfl, rfl, k1⟩ := shw___ANON_2 h1
  obtain ⟨u2, rfl, rfl, k2⟩ := shw_LPAR h2
  obtain ⟨u3, rfl, k3⟩ := shw__CPP_COMMENT_NL h3
  obtain ⟨x4, rfl, k4⟩ := h4
  obtain ⟨u5, rfl, rfl, k5⟩ := shw_RPAR h5
  obtain ⟨u6, rfl, k6⟩ := shw__CPP_COMMENT_NL h6
  exact ⟨⟨x1, some x4⟩, rfl, .arg (w1 := [u3]) (w3 := []) (w4 := [u6]) k0 k1 k2 (optBreak_some k3) k4 optBreak_none k5 (breaks_cons k6 breaks_nil) (by simp)⟩

theorem r_162 : RuleOK ⟨N.«decorator», [T.«AT», T.«__ANON_2», T.«LPAR», T.«_CPP_COMMENT_NL», N.«value_brackets», T.«RPAR», T.«_CPP_COMMENT_NL», T.«_CPP_COMMENT_NL», T.«_CPP_COMMENT_NL», T.«_CPP_COMMENT_NL», T.«_CPP_COMMENT_NL»], "decorator", false, [(1, false, 0), (4, false, 0)], 0⟩ := by
  refine ruleOK_node ?_
  intro cs w n l h hc hl
  obtain ⟨c0, cs, w0, w, rfl, rfl, h0, h⟩ := fitsW_cons.mp h
  obtain ⟨c1, cs, w1, w, rfl, rfl, h1, h⟩ := fitsW_cons.mp h
  obtain ⟨c2, cs, w2, w, rfl, rfl, h2, h⟩ := fitsW_cons.mp h
  obtain ⟨c3, cs, w3, w, rfl, rfl, h3, h⟩ := fitsW_cons.mp h
  obtain ⟨c4, cs, w4, w, rfl, rfl, h4, h⟩ := fitsW_cons.mp h
  obtain ⟨c5, cs, w5, w, rfl, rfl, h5, h⟩ := fitsW_cons.mp h
  obtain ⟨c6, cs, w6, w, rfl, rfl, h6, h⟩ := fitsW_cons.mp h
  obtain ⟨c7, cs, w7, w, rfl, rfl, h7, h⟩ := fitsW_cons.mp h
  obtain ⟨c8, cs, w8, w, rfl, rfl, h8, h⟩ := fitsW_cons.mp h
  obtain ⟨c9, cs, w9, w, rfl, rfl, h9, h⟩ := fitsW_cons.mp h
  obtain ⟨c10, rfl, h10⟩ := fitsW_one.mp h
  rename' w => w10
  obtain ⟨u0, rfl, rfl, k0⟩ := shw_AT h0
  obtain ⟨x1, u1, rfl, rfl, k1⟩ := shw___ANON_2 h1
  obtain ⟨u2, rfl, rfl, k2⟩ := shw_LPAR h2
  obtain ⟨u3, rfl, k3⟩ := shw__CPP_COMMENT_NL h3
  obtain ⟨x4, rfl, k4⟩ := h4
  obtain ⟨u5, rfl, rfl, k5⟩ := shw_RPAR h5
  obtain ⟨u6, rfl, k6⟩ := shw__CPP_COMMENT_NL h6
  obtain ⟨u7, rfl, k7⟩ := shw__CPP_COMMENT_NL h7
  obtain ⟨u8, rfl, k8⟩ := shw__CPP_COMMENT_NL h8
  obtain ⟨u9, rfl, k9⟩ := shw__CPP_COMMENT_NL h9
  obtain ⟨u10, rfl, k10⟩ := shw__CPP_COMMENT_NL h10
  exact ⟨⟨x1, some x4⟩, rfl, .arg (w1 := [u3]) (w3 := []) (w4 := [u6, u7, u8, u9, u10]) k0 k1 k2 (optBreak_some k3) k4 optBreak_none k5 (breaks_cons k6 (breaks_cons k7 (breaks_cons k8 (breaks_cons k9 (breaks_cons k10 breaks_nil))))) (by simp)⟩

theorem r_166 : RuleOK ⟨N.«decorator», [T.«AT», T.«__ANON_2», T.«LPAR», T.«_CPP_COMMENT_NL», N.«value_brackets», T.«RPAR», T.«_CPP_COMMENT_NL», T.«_CPP_COMMENT_NL», T.«_CPP_COMMENT_NL», T.«_CPP_COMMENT_NL», T.«_CPP_COMMENT_NL», T.«_CPP_COMMENT_NL», T.«_CPP_COMMENT_NL», T.«_CPP_COMMENT_NL», T.«_CPP_COMMENT_NL»], "decorator", false, [(1, false, 0), (4, false, 0)], 0⟩ := by
  refine ruleOK_node ?_
  intro cs w n l h hc hl
  obtain ⟨c0, cs, w0, w, rfl, rfl, h0, h⟩ := fitsW_cons.mp h
  obtain ⟨c1, cs, w1, w, rfl, rfl, h1, h⟩ := fitsW_cons.mp h
  obtain ⟨c2, cs, w2, w, rfl, rfl, h2, h⟩ := fitsW_cons.mp h
  obtain ⟨c3, cs, w3, w, rfl, rfl, h3, h⟩ := fitsW_cons.mp h
  obtain ⟨c4, cs, w4, w, rfl, rfl, h4, h⟩ := fitsW_cons.mp h
  obtain ⟨c5, cs, w5, w, rfl, rfl, h5, h⟩ := fitsW_cons.mp h
  obtain ⟨c6, cs, w6, w, rfl, rfl, h6, h⟩ := fitsW_cons.mp h
  obtain ⟨c7, cs, w7, w, rfl, rfl, h7, h⟩ := fitsW_cons.mp h
  obtain ⟨c8, cs, w8, w, rfl, rfl, h8, h⟩ := fitsW_cons.mp h
  obtain ⟨c9, cs, w9, w, rfl, rfl, h9, h⟩ := fitsW_cons.mp h
  obtain ⟨c10, cs, w10, w, rfl, rfl, h10, h⟩ := fitsW_cons.mp h
  obtain ⟨c11, cs, w11, w, rfl, rfl, h11, h⟩ := fitsW_cons.mp h
  obtain ⟨c12, cs, w12, w, rfl, rfl, h12, h⟩ := fitsW_cons.mp h
  obtain ⟨c13, cs, w13, w, rfl, rfl, h13, h⟩ := fitsW_cons.mp h
  obtain ⟨c14, rfl, h14⟩ := fitsW_one.mp h
  rename' w => w14
  obtain ⟨u0, rfl, rfl, k0⟩ := shw_AT h0
  obtain ⟨x1, u1, rfl, rfl, k1⟩ := shw___ANON_2 h1
  obtain ⟨u2, rfl, rfl, k2⟩ := shw_LPAR h2
  obtain ⟨u3, rfl, k3⟩ := shw__CPP_COMMENT_NL h3
  obtain ⟨x4, rfl, k4⟩ := h4
  obtain ⟨u5, rfl, rfl, k5⟩ := shw_RPAR h5
  obtain ⟨u6, rfl, k6⟩ := shw__CPP_COMMENT_NL h6
  obtain ⟨u7, rfl, k7⟩ := shw__CPP_COMMENT_NL h7
  obtain ⟨u8, rfl, k8⟩ := shw__CPP_COMMENT_NL h8
  obtain ⟨u9, rfl, k9⟩ := shw__CPP_COMMENT_NL h9
  obtain ⟨u10, rfl, k10⟩ := shw__CPP_COMMENT_NL h10
  obtain ⟨u11, rfl, k11⟩ := shw__CPP_COMMENT_NL h11
  obtain ⟨u12, rfl, k12⟩ := shw__CPP_COMMENT_NL h12
  obtain ⟨u13, rfl, k13⟩ := shw__CPP_COMMENT_NL h13
  obtain ⟨u14, rfl, k14⟩ := shw__CPP_COMMENT_NL h14
  exact ⟨⟨x1, some x4⟩, rfl, .arg (w1 := [u3]) (w3 := []) (w4 := [u6, u7, u8, u9, u10, u11, u12, u13, u14]) k0 k1 k2 (optBreak_some k3) k4 optBreak_none k5 (breaks_cons k6 (breaks_cons k7 (breaks_cons k8 (breaks_cons k9 (breaks_cons k10 (breaks_cons k11 (breaks_cons k12 (breaks_cons k13 (breaks_cons k14 breaks_nil))))))))) (by simp)⟩

theorem r_170 : RuleOK ⟨N.«decorator», [T.«AT», T.«__ANON_2», T.«LPAR», T.«_CPP_COMMENT_NL», T.«_CPP_COMMENT_NL», T.«RPAR», T.«_CPP_COMMENT_NL», T.«_CPP_COMMENT_NL»], "decorator", false, [(1, false, 0)], 0⟩ := by
  refine ruleOK_node ?_
  intro cs w n l h hc hl
  obtain ⟨c0, cs, w0, w, rfl, rfl, h0, h⟩ := fitsW_cons.mp h
  obtain ⟨c1, cs, w1, w, rfl, rfl, h1, h⟩ := fitsW_cons.mp h
  obtain ⟨c2, cs, w2, w, rfl, rfl, h2, h⟩ := fitsW_cons.mp h
  obtain ⟨c3, cs, w3, w, rfl, rfl, h3, h⟩ := fitsW_cons.mp h
  obtain ⟨c4, cs, w4, w, rfl, rfl, h4, h⟩ := fitsW_cons.mp h
  obtain ⟨c5, cs, w5, w, rfl, rfl, h5, h⟩ := fitsW_cons.mp h
  obtain ⟨c6, cs, w6, w, rfl, rfl, h6, h⟩ := fitsW_cons.mp h
  obtain ⟨c7, rfl, h7⟩ := fitsW_one.mp h
  rename' w => w7
  obtain ⟨u0, rfl, rfl, k0⟩ := shw_AT h0
  obtain ⟨x1, u1, rfl, rfl, k1⟩ := shw___ANON_2 h1
  obtain ⟨u2, rfl, rfl, k2⟩ := shw_LPAR h2
  obtain ⟨u3, rfl, k3⟩ := shw__CPP_COMMENT_NL h3
  obtain ⟨u4, rfl, k4⟩ := shw__CPP_COMMENT_NL h4
  obtain ⟨u5, rfl, rfl, k5⟩ := shw_RPAR h5
  obtain ⟨u6, rfl, k6⟩ := shw__CPP_COMMENT_NL h6
  obtain ⟨u7, rfl, k7⟩ := shw__CPP_COMMENT_NL h7
  exact ⟨⟨x1, .none⟩, rfl, .noArg (w1 := [u3, u4]) (w2 := [u6, u7]) k0 k1 k2 (breaks_cons k3 (breaks_cons k4 breaks_nil)) (by simp) k5 (breaks_cons k6 (breaks_cons k7 breaks_nil)) (by simp)⟩

theorem r_174 : RuleOK ⟨N.«decorator», [T.«AT», T.«__ANON_2», T.«LPAR», T.«_CPP_COMMENT_NL», T.«_CPP_COMMENT_NL», T.«RPAR», T.«_CPP_COMMENT_NL», T.«_CPP_COMMENT_NL», T.«_CPP_COMMENT_NL», T.«_CPP_COMMENT_NL», T.«_CPP_COMMENT_NL», T.«_CPP_COMMENT_NL»], "decorator", false, [(1, false, 0)], 0⟩ := by
  refine ruleOK_node ?_
  intro cs w n l h hc hl
  obtain ⟨c0, cs, w0, w, rfl, rfl, h0, h⟩ := fitsW_cons.mp h
  obtain ⟨c1, cs, w1, w, rfl, rfl, h1, h⟩ := fitsW_cons.mp h
  obtain ⟨c2, cs, w2, w, rfl, rfl, h2, h⟩ := fitsW_cons.mp h
  obtain ⟨c3, cs, w3, w, rfl, rfl, h3, h⟩ := fitsW_cons.mp h
  obtain ⟨c4, cs, w4, w, rfl, rfl, h4, h⟩ := fitsW_cons.mp h
  obtain ⟨c5, cs, w5, w, rfl, rfl, h5, h⟩ := fitsW_cons.mp h
  obtain ⟨c6, cs, w6, w, rfl, rfl, h6, h⟩ := fitsW_cons.mp h
  obtain ⟨c7, cs, w7, w, rfl, rfl, h7, h⟩ := fitsW_cons.mp h
  obtain ⟨c8, cs, w8, w, rfl, rfl, h8, h⟩ := fitsW_cons.mp h
  obtain ⟨c9, cs, w9, w, rfl, rfl, h9, h⟩ := fitsW_cons.mp h
  obtain ⟨c10, cs, w10, w, rfl, rfl, h10, h⟩ := fitsW_cons.mp h
  obtain ⟨c11, rfl, h11⟩ := fitsW_one.mp h
  rename' w => w11
  obtain ⟨u0, rfl, rfl, k0⟩ := shw_AT h0
  obtain ⟨x1, u1, rfl, rfl, k1⟩ := shw___ANON_2 h1
  obtain ⟨u2, rfl, rfl, k2⟩ := shw_LPAR h2
  obtain ⟨u3, rfl, k3⟩ := shw__CPP_COMMENT_NL h3
  obtain ⟨u4, rfl, k4⟩ := shw__CPP_COMMENT_NL h4
  obtain ⟨u5, rfl, rfl, k5⟩ := shw_RPAR h5
  obtain ⟨u6, rfl, k6⟩ := shw__CPP_COMMENT_NL h6
  obtain ⟨u7, rfl, k7⟩ := shw__CPP_COMMENT_NL h7
  obtain ⟨u8, rfl, k8⟩ := shw__CPP_COMMENT_NL h8
  obtain ⟨u9, rfl, k9⟩ := shw__CPP_COMMENT_NL h9
  obtain ⟨u10, rfl, k10⟩ := shw__CPP_COMMENT_NL h10
  obtain ⟨u11, rfl, k11⟩ := shw__CPP_COMMENT_NL h11
  exact ⟨⟨x1, .none⟩, rfl, .noArg (w1 := [u3, u4]) (w2 := [u6, u7, u8, u9, u10, u11]) k0 k1 k2 (breaks_cons k3 (breaks_cons k4 breaks_nil)) (by simp) k5 (breaks_cons k6 (breaks_cons k7 (breaks_cons k8 (breaks_cons k9 (breaks_cons k10 (breaks_cons k11 breaks_nil)))))) (by simp)⟩

theorem r_178 : RuleOK ⟨N.«decorator», [T.«AT», T.«__ANON_2», T.«LPAR», T.«_CPP_COMMENT_NL», T.«_CPP_COMMENT_NL», T.«RPAR», T.«_CPP_COMMENT_NL», T.«_CPP_COMMENT_NL», T.«_CPP_COMMENT_NL», T.«_CPP_COMMENT_NL», T.«_CPP_COMMENT_NL», T.«_CPP_COMMENT_NL», T.«_CPP_COMMENT_NL», T.«_CPP_COMMENT_NL», T.«_CPP_COMMENT_NL», T.«_CPP_COMMENT_NL»], "decorator", false, [(1, false, 0)], 0⟩ := by
  refine ruleOK_node ?_
  intro cs w n l h hc hl
  obtain ⟨c0, cs, w0, w, rfl, rfl, h0, h⟩ := fitsW_cons.mp h
  obtain ⟨c1, cs, w1, w, rfl, rfl, h1, h⟩ := fitsW_cons.mp h
  obtain ⟨c2, cs, w2, w, rfl, rfl, h2, h⟩ := fitsW_cons.mp h
  obtain ⟨c3, cs, w3, w, rfl, rfl, h3, h⟩ := fitsW_cons.mp h
  obtain ⟨c4, cs, w4, w, rfl, rfl, h4, h⟩ := fitsW_cons.mp h
  obtain ⟨c5, cs, w5, w, rfl, rfl, h5, h⟩ := fitsW_cons.mp h
  obtain ⟨c6, cs, w6, w, rfl, rfl, h6, h⟩ := fitsW_cons.mp h
  obtain ⟨c7, cs, w7, w, rfl, rfl, h7, h⟩ := fitsW_cons.mp h
  obtain ⟨c8, cs, w8, w, rfl, rfl, h8, h⟩ := fitsW_cons.mp h
  obtain ⟨c9, cs, w9, w, rfl, rfl, h9, h⟩ := fitsW_cons.mp h
  obtain ⟨c10, cs, w10, w, rfl, rfl, h10, h⟩ := fitsW_cons.mp h
  obtain ⟨c11, cs, w11, w, rfl, rfl, h11, h⟩ := fitsW_cons.mp h
  obtain ⟨c12, cs, w12, w, rfl, rfl, h12, h⟩ := fitsW_cons.mp h
  obtain ⟨c13, cs, w13, w, rfl, rfl, h13, h⟩ := fitsW_cons.mp h
  obtain ⟨c14, cs, w14, w, rfl, rfl, h14, h⟩ := fitsW_cons.mp h
  obtain ⟨c15, rfl, h15⟩ := fitsW_one.mp h
  rename' w => w15
  obtain ⟨u0, rfl, rfl, k0⟩ := shw_AT h0
  obtain ⟨x1, u1, rfl, rfl, k1⟩ := shw___ANON_2 h1
  obtain ⟨u2, rfl, rfl, k2⟩ := shw_LPAR h2
  obtain ⟨u3, rfl, k3⟩ := shw__CPP_COMMENT_NL h3
  obtain ⟨u4, rfl, k4⟩ := shw__CPP_COMMENT_NL h4
  obtain ⟨u5, rfl, rfl, k5⟩ := shw_RPAR h5
  obtain ⟨u6, rfl, k6⟩ := shw__CPP_COMMENT_NL h6
  obtain ⟨u7, rfl, k7⟩ := shw__CPP_COMMENT_NL h7
  obtain ⟨u8, rfl, k8⟩ := shw__CPP_COMMENT_NL h8
  obtain ⟨u9, rfl, k9⟩ := shw__CPP_COMMENT_NL h9
  obtain ⟨u10, rfl, k10⟩ := shw__CPP_COMMENT_NL h10
  obtain ⟨u11, rfl, k11⟩ := shw__CPP_COMMENT_NL h11
  obtain ⟨u12, rfl, k12⟩ := shw__CPP_COMMENT_NL h12
  obtain ⟨u13, rfl, k13⟩ := shw__CPP_COMMENT_NL h13
  obtain ⟨u14, rfl, k14⟩ := shw__CPP_COMMENT_NL h14
  obtain ⟨u15, rfl, k15⟩ := shw__CPP_COMMENT_NL h15
  exact ⟨⟨x1, .none⟩, rfl, .noArg (w1 := [u3, u4]) (w2 := [u6, u7, u8, u9, u10, u11, u12, u13, u14, u15]) k0 k1 k2 (breaks_cons k3 (breaks_cons k4 breaks_nil)) (by simp) k5 (breaks_cons k6 (breaks_cons k7 (breaks_cons k8 (breaks_cons k9 (breaks_cons k10 (breaks_cons k11 (breaks_cons k12 (breaks_cons k13 (breaks_cons k14 (breaks_cons k15 breaks_nil)))))))))) (by simp)⟩

theorem r_182 : RuleOK ⟨N.«decorator», [T.«AT», T.«__ANON_2», T.«LPAR», T.«_CPP_COMMENT_NL», T.«RPAR», T.«_CPP_COMMENT_NL», T.«_CPP_COMMENT_NL», T.«_CPP_COMMENT_NL»], "decorator", false, [(1, false, 0)], 0⟩ := by
  refine ruleOK_node ?_
  intro cs w n l h hc hl
  obtain ⟨c0, cs, w0, w, rfl, rfl, h0, h⟩ := fitsW_cons.mp h
  obtain ⟨c1, cs, w1, w, rfl, rfl, h1, h⟩ := fitsW_cons.mp h
  obtain ⟨c2, cs, w2, w, rfl, rfl, h2, h⟩ := fitsW_cons.mp h
  obtain ⟨c3, cs, w3, w, rfl, rfl, h3, h⟩ := fitsW_cons.mp h
  obtain ⟨c4, cs, w4, w, rfl, rfl, h4, h⟩ := fitsW_cons.mp h
  obtain ⟨c5, cs, w5, w, rfl, rfl, h5, h⟩ := fitsW_cons.mp h
  obtain ⟨c6, cs, w6, w, rfl, rfl, h6, h⟩ := fitsW_cons.mp h
  obtain ⟨c7, rfl, h7⟩ := fitsW_one.mp h
  rename' w => w7
  obtain ⟨u0, rfl, rfl, k0⟩ := shw_AT h0
  obtain ⟨x1, u1, rfl, rfl, k1⟩ := shw___ANON_2 h1
  obtain ⟨u2, rfl, rfl, k2⟩ := shw_LPAR h2
  obtain ⟨u3, rfl, k3⟩ := shw__CPP_COMMENT_NL h3
  obtain ⟨u4, rfl, rfl, k4⟩ := shw_RPAR h4
  obtain ⟨u5, rfl, k5⟩ := shw__CPP_COMMENT_NL h5
  obtain ⟨u6, rfl, k6⟩ := shw__CPP_COMMENT_NL h6
  obtain ⟨u7, rfl, k7⟩ := shw__CPP_COMMENT_NL h7
  exact ⟨⟨x1, .none⟩, rfl, .noArg (w1 := [u3]) (w2 := [u5, u6, u7]) k0 k1 k2 (breaks_cons k3 breaks_nil) (by simp) k4 (breaks_cons k5 (breaks_cons k6 (breaks_cons k7 breaks_nil))) (by simp)⟩

theorem r_186 : RuleOK ⟨N.«decorator», [T.«AT», T.«__ANON_2», T.«LPAR», T.«_CPP_COMMENT_NL», T.«RPAR», T.«_CPP_COMMENT_NL», T.«_CPP_COMMENT_NL», T.«_CPP_COMMENT_NL», T.«_CPP_COMMENT_NL», T.«_CPP_COMMENT_NL», T.«_CPP_COMMENT_NL», T.«_CPP_COMMENT_NL»], "decorator", false, [(1, false, 0)], 0⟩ := by
  refine ruleOK_node ?_
  intro cs w n l h hc hl
  obtain ⟨c0, cs, w0, w, rfl, rfl, h0, h⟩ := fitsW_cons.mp h
  obtain ⟨c1, cs, w1, w, rfl, rfl, h1, h⟩ := fitsW_cons.mp h
  obtain ⟨c2, cs, w2, w, rfl, rfl, h2, h⟩ := fitsW_cons.mp h
  obtain ⟨c3, cs, w3, w, rfl, rfl, h3, h⟩ := fitsW_cons.mp h
  obtain ⟨c4, cs, w4, w, rfl, rfl, h4, h⟩ := fitsW_cons.mp h
  obtain ⟨c5, cs, w5, w, rfl, rfl, h5, h⟩ := fitsW_cons.mp h
  obtain ⟨c6, cs, w6, w, rfl, rfl, h6, h⟩ := fitsW_cons.mp h
  obtain ⟨c7, cs, w7, w, rfl, rfl, h7, h⟩ := fitsW_cons.mp h
  obtain ⟨c8, cs, w8, w, rfl, rfl, h8, h⟩ := fitsW_cons.mp h
  obtain ⟨c9, cs, w9, w, rfl, rfl, h9, h⟩ := fitsW_cons.mp h
  obtain ⟨c10, cs, w10, w, rfl, rfl, h10, h⟩ := fitsW_cons.mp h
  obtain ⟨c11, rfl, h11⟩ := fitsW_one.mp h
  rename' w => w11
  obtain ⟨u0, rfl, rfl, k0⟩ := shw_AT h0
  obtain ⟨x1, u1, rfl, rfl, k1⟩ := shw___ANON_2 h1
  obtain ⟨u2, rfl, rfl, k2⟩ := shw_LPAR h2
  obtain ⟨u3, rfl, k3⟩ := shw__CPP_COMMENT_NL h3
  obtain ⟨u4, rfl, rfl, k4⟩ := shw_RPAR h4
  obtain ⟨u5, rfl, k5⟩ := shw__CPP_COMMENT_NL h5
  obtain ⟨u6, rfl, k6⟩ := shw__CPP_COMMENT_NL h6
  obtain ⟨u7, rfl, k7⟩ := shw__CPP_COMMENT_NL h7
  obtain ⟨u8, rfl, k8⟩ := shw__CPP_COMMENT_NL h8
  obtain ⟨u9, rfl, k9⟩ := shw__CPP_COMMENT_NL h9
  obtain ⟨u10, rfl, k10⟩ := shw__CPP_COMMENT_NL h10
  obtain ⟨u11, rfl, k11⟩ := shw__CPP_COMMENT_NL h11
  exact ⟨⟨x1, .none⟩, rfl, .noArg (w1 := [u3]) (w2 := [u5, u6, u7, u8, u9, u10, u11]) k0 k1 k2 (breaks_cons k3 breaks_nil) (by simp) k4 (breaks_cons k5 (breaks_cons k6 (breaks_cons k7 (breaks_cons k8 (breaks_cons k9 (breaks_cons k10 (breaks_cons k11 breaks_nil))))))) (by simp)⟩

theorem r_190 : RuleOK ⟨N.«decorator», [T.«AT», T.«__ANON_2», T.«LPAR», N.«value_brackets», T.«_CPP_COMMENT_NL», T.«RPAR»], "decorator", false, [(1, false, 0), (3, false, 0)], 0⟩ := by
  refine ruleOK_node ?_
  intro cs w n l h hc hl
  obtain ⟨c0, cs, w0, w, rfl, rfl, h0, h⟩ := fitsW_cons.mp h
  obtain ⟨c1, cs, w1, w, rfl, rfl, h1, h⟩ := fitsW_cons.mp h
  obtain ⟨c2, cs, w2, w, rfl, rfl, h2, h⟩ := fitsW_cons.mp h
  obtain ⟨c3, cs, w3, w, rfl, rfl, h3, h⟩ := fitsW_cons.mp h
  obtain ⟨c4, cs, w4, w, rfl, rfl, h4, h⟩ := fitsW_cons.mp h
  obtain ⟨c5, rfl, h5⟩ := fitsW_one.mp h
  rename' w => w5
  obtain ⟨u0, rfl, rfl, k0⟩ := shw_AT h0
  obtain ⟨x1, u1, rfl, rfl, k1⟩ := shw___ANON_2 h1
  obtain ⟨u2, rfl, rfl, k2⟩ := shw_LPAR h2
  obtain ⟨x3, rfl, k3⟩ := h3
  obtain ⟨u4, rfl, k4⟩ := shw__CPP_COMMENT_NL h4
  obtain ⟨u5, rfl, rfl, k5⟩ := shw_RPAR h5
  exact ⟨⟨x1, some x3⟩, rfl, .arg (w1 := []) (w3 := [u4]) (w4 := []) k0 k1 k2 optBreak_none k3 (optBreak_some k4) k5 breaks_nil (by simp)⟩

theorem r_194 : RuleOK ⟨N.«decorator», [T.«AT», T.«__ANON_2», T.«LPAR», N.«value_brackets», T.«_CPP_COMMENT_NL», T.«RPAR», T.«_CPP_COMMENT_NL», T.«_CPP_COMMENT_NL», T.«_CPP_COMMENT_NL», T.«_CPP_COMMENT_NL»], "decorator", false, [(1, false, 0), (3, false, 0)], 0⟩ := by
  refine ruleOK_node ?_
  intro cs w n l h hc hl
  obtain ⟨c0, cs, w0, w, rfl, rfl, h0, h⟩ := fitsW_cons.mp h
  obtain ⟨c1, cs, w1, w, rfl, rfl, h1, h⟩ := fitsW_cons.mp h
  obtain ⟨c2, cs, w2, w, rfl, rfl, h2, h⟩ := fitsW_cons.mp h
  obtain ⟨c3, cs, w3, w, rfl, rfl, h3, h⟩ := fitsW_cons.mp h
  obtain ⟨c4, cs, w4, w, rfl, rfl, h4, h⟩ := fitsW_cons.mp h
  obtain ⟨c5, cs, w5, w, rfl, rfl, h5, h⟩ := fitsW_cons.mp h
  obtain ⟨c6, cs, w6, w, rfl, rfl, h6, h⟩ := fitsW_cons.mp h
  obtain ⟨c7, cs, w7, w, rfl, rfl, h7, h⟩ := fitsW_cons.mp h
  obtain ⟨c8, cs, w8, w, rfl, rfl, h8, h⟩ := fitsW_cons.mp h
  obtain ⟨c9, rfl, h9⟩ := fitsW_one.mp h
  rename' w => w9
  obtain ⟨u0, rfl, rfl, k0⟩ := shw_AT h0
  obtain ⟨x1, u1, rfl, rfl, k1⟩ := shw___ANON_2 h1
  obtain ⟨u2, rfl, rfl, k2⟩ := shw_LPAR h2
  obtain ⟨x3, rfl, k3⟩ := h3
  obtain ⟨u4, rfl, k4⟩ := shw__CPP_COMMENT_NL h4
  obtain ⟨u5, rfl, rfl, k5⟩ := shw_RPAR h5
  obtain ⟨u6, rfl, k6⟩ := shw__CPP_COMMENT_NL h6
  obtain ⟨u7, rfl, k7⟩ := shw__CPP_COMMENT_NL h7
  obtain ⟨u8, rfl, k8⟩ := shw__CPP_COMMENT_NL h8
  obtain ⟨u9, rfl, k9⟩ := shw__CPP_COMMENT_NL h9
  exact ⟨⟨x1, some x3⟩, rfl, .arg (w1 := []) (w3 := [u4]) (w4 := [u6, u7, u8, u9]) k0 k1 k2 optBreak_none k3 (optBreak_some k4) k5 (breaks_cons k6 (breaks_cons k7 (breaks_cons k8 (breaks_cons k9 breaks_nil)))) (by simp)⟩

theorem r_198 : RuleOK ⟨N.«decorator», [T.«AT», T.«__ANON_2», T.«LPAR», N.«value_brackets», T.«_CPP_COMMENT_NL», T.«RPAR», T.«_CPP_COMMENT_NL», T.«_CPP_COMMENT_NL», T.«_CPP_COMMENT_NL», T.«_CPP_COMMENT_NL», T.«_CPP_COMMENT_NL», T.«_CPP_COMMENT_NL», T.«_CPP_COMMENT_NL», T.«_CPP_COMMENT_NL»], "decorator", false, [(1, false, 0), (3, false, 0)], 0⟩ := by
  refine ruleOK_node ?_
  intro cs w n l h hc hl
  obtain ⟨c0, cs, w0, w, rfl, rfl, h0, h⟩ := fitsW_cons.mp h
  obtain ⟨c1, cs, w1, w, rfl, rfl, h1, h⟩ := fitsW_cons.mp h
  obtain ⟨c2, cs, w2, w, rfl, rfl, h2, h⟩ := fitsW_cons.mp h
  obtain ⟨c3, cs, w3, w, rfl, rfl, h3, h⟩ := fitsW_cons.mp h
  obtain ⟨c4, cs, w4, w, rfl, rfl, h4, h⟩ := fitsW_cons.mp h
  obtain ⟨c5, cs, w5, w, rfl, rfl, h5, h⟩ := fitsW_cons.mp h
  obtain ⟨c6, cs, w6, w, rfl, rfl, h6, h⟩ := fitsW_cons.mp h
  obtain ⟨c7, cs, w7, w, rfl, rfl, h7, h⟩ := fitsW_cons.mp h
  obtain ⟨c8, cs, w8, w, rfl, rfl, h8, h⟩ := fitsW_cons.mp h
  obtain ⟨c9, cs, w9, w, rfl, rfl, h9, h⟩ := fitsW_cons.mp h
  obtain ⟨c10, cs, w10, w, rfl, rfl, h10, h⟩ := fitsW_cons.mp h
  obtain ⟨c11, cs, w11, w, rfl, rfl, h11, h⟩ := fitsW_cons.mp h
  obtain ⟨c12, cs, w12, w, rfl, rfl, h12, h⟩ := fitsW_cons.mp h
  obtain ⟨c13, rfl, h13⟩ := fitsW_one.mp h
  rename' w => w13
  obtain ⟨u0, rfl, rfl, k0⟩ := shw_AT h0
  obtain ⟨x1, u1, rfl, rfl, k1⟩ := shw___ANON_2 h1
  obtain ⟨u2, rfl, rfl, k2⟩ := shw_LPAR h2
  obtain ⟨x3, rfl, k3⟩ := h3
  obtain ⟨u4, rfl, k4⟩ := shw__CPP_COMMENT_NL h4
  obtain ⟨u5, rfl, rfl, k5⟩ := shw_RPAR h5
  obtain ⟨u6, rfl, k6⟩ := shw__CPP_COMMENT_NL h6
  obtain ⟨u7, rfl, k7⟩ := shw__CPP_COMMENT_NL h7
  obtain ⟨u8, rfl, k8⟩ := shw__CPP_COMMENT_NL h8
  obtain ⟨u9, rfl, k9⟩ := shw__CPP_COMMENT_NL h9
  obtain ⟨u10, rfl, k10⟩ := shw__CPP_COMMENT_NL h10
  obtain ⟨u11, rfl, k11⟩ := shw__CPP_COMMENT_NL h11
  obtain ⟨u12, rfl, k12⟩ := shw__CPP_COMMENT_NL h12
  obtain ⟨u13, rfl, k13⟩ := shw__CPP_COMMENT_NL h13
  exact ⟨⟨x1, some x3⟩, rfl, .arg (w1 := []) (w3 := [u4]) (w4 := [u6, u7, u8, u9, u10, u11, u12, u13]) k0 k1 k2 optBreak_none k3 (optBreak_some k4) k5 (breaks_cons k6 (breaks_cons k7 (breaks_cons k8 (breaks_cons k9 (breaks_cons k10 (breaks_cons k11 (breaks_cons k12 (breaks_cons k13 breaks_nil)))))))) (by simp)⟩

theorem r_202 : RuleOK ⟨N.«decorator», [T.«AT», T.«__ANON_2», T.«LPAR», N.«value_brackets», T.«RPAR», T.«_CPP_COMMENT_NL»], "decorator", false, [(1, false, 0), (3, false, 0)], 0⟩ := by
  refine ruleOK_node ?_
  intro cs w n l h hc hl
  obtain ⟨c0, cs, w0, w, rfl, rfl, h0, h⟩ := fitsW_cons.mp h
  obtain ⟨c1, cs, w1, w, rfl, rfl, h1, h⟩ := fitsW_cons.mp h
  obtain ⟨c2, cs, w2, w, rfl, rfl, h2, h⟩ := fitsW_cons.mp h
  obtain ⟨c3, cs, w3, w, rfl, rfl, h3, h⟩ := fitsW_cons.mp h
  obtain ⟨c4, cs, w4, w, rfl, rfl, h4, h⟩ := fitsW_cons.mp h
  obtain ⟨c5, rfl, h5⟩ := fitsW_one.mp h
  rename' w => w5
  obtain ⟨u0, rfl, rfl, k0⟩ := shw_AT h0
  obtain ⟨x1, u1, rfl, rfl, k1⟩ := shw___ANON_2 h1
  obtain ⟨u2, rfl, rfl, k2⟩ := shw_LPAR h2
  obtain ⟨x3, rfl, k3⟩ := h3
  obtain ⟨u4, rfl, rfl, k4⟩ := shw_RPAR h4
  obtain ⟨u5, rfl, k5⟩ := shw__CPP_COMMENT_NL h5
  exact ⟨⟨x1, some x3⟩, rfl, .arg (w1 := []) (w3 := []) (w4 := [u5]) k0 k1 k2 optBreak_none k3 optBreak_none k4 (breaks_cons k5 breaks_nil) (by simp)⟩

theorem r_206 : RuleOK ⟨N.«decorator», [T.«AT», T.«__ANON_2», T.«LPAR», N.«value_brackets», T.«RPAR», T.«_CPP_COMMENT_NL», T.«_CPP_COMMENT_NL», T.«_CPP_COMMENT_NL», T.«_CPP_COMMENT_NL», T.«_CPP_COMMENT_NL»], "decorator", false, [(1, false, 0), (3, false, 0)], 0⟩ := by
  refine ruleOK_node ?_
  intro cs w n l h hc hl
  obtain ⟨c0, cs, w0, w, rfl, rfl, h0, h⟩ := fitsW_cons.mp h
  obtain ⟨c1, cs, w1, w, rfl, rfl, h1, h⟩ := fitsW_cons.mp h
  obtain ⟨c2, cs, w2, w, rfl, rfl, h2, h⟩ := fitsW_cons.mp h
  obtain ⟨c3, cs, w3, w, rfl, rfl, h3, h⟩ := fitsW_cons.mp h
  obtain ⟨c4, cs, w4, w, rfl, rfl, h4, h⟩ := fitsW_cons.mp h
  obtain ⟨c5, cs, w5, w, rfl, rfl, h5, h⟩ := fitsW_cons.mp h
  obtain ⟨c6, cs, w6, w, rfl, rfl, h6, h⟩ := fitsW_cons.mp h
  obtain ⟨c7, cs, w7, w, rfl, rfl, h7, h⟩ := fitsW_cons.mp h
  obtain ⟨c8, cs, w8, w, rfl, rfl, h8, h⟩ := fitsW_cons.mp h
  obtain ⟨c9, rfl, h9⟩ := fitsW_one.mp h
  rename' w => w9
  obtain ⟨u0, rfl, rfl, k0⟩ := shw_AT h0
  obtain ⟨x1, u1, rfl, rfl, k1⟩ := shw___ANON_2 h1
  obtain ⟨u2, rfl, rfl, k2⟩ := shw_LPAR h2
  obtain ⟨x3, rfl, k3⟩ := h3
  obtain ⟨u4, rfl, rfl, k4⟩ := shw_RPAR h4
  obtain ⟨u5, rfl, k5⟩ := shw__CPP_COMMENT_NL h5
  obtain ⟨u6, rfl, k6⟩ := shw__CPP_COMMENT_NL h6
  obtain ⟨u7, rfl, k7⟩ := shw__CPP_COMMENT_NL h7
  obtain ⟨u8, rfl, k8⟩ := shw__CPP_COMMENT_NL h8
  obtain ⟨u9, rfl, k9⟩ := shw__CPP_COMMENT_NL h9
  exact ⟨⟨x1, some x3⟩, rfl, .arg (w1 := []) (w3 := []) (w4 := [u5, u6, u7, u8, u9]) k0 k1 k2 optBreak_none k3 optBreak_none k4 (breaks_cons k5 (breaks_cons k6 (breaks_cons k7 (breaks_cons k8 (breaks_cons k9 breaks_nil))))) (by simp)⟩

theorem r_210 : RuleOK ⟨N.«decorator», [T.«AT», T.«__ANON_2», T.«LPAR», N.«value_brackets», T.«RPAR», T.«_CPP_COMMENT_NL», T.«_CPP_COMMENT_NL», T.«_CPP_COMMENT_NL», T.«_CPP_COMMENT_NL», T.«_CPP_COMMENT_NL», T.«_CPP_COMMENT_NL», T.«_CPP_COMMENT_NL», T.«_CPP_COMMENT_NL», T.«_CPP_COMMENT_NL»], "decorator", false, [(1, false, 0), (3, false, 0)], 0⟩ := by
  refine ruleOK_node ?_
  intro cs w n l h hc hl
  obtain ⟨c0, cs, w0, w, rfl, rfl, h0, h⟩ := fitsW_cons.mp h
  obtain ⟨c1, cs, w1, w, rfl, rfl, h1, h⟩ := fitsW_cons.mp h
  obtain ⟨c2, cs, w2, w, rfl, rfl, h2, h⟩ := fitsW_cons.mp h
  obtain ⟨c3, cs, w3, w, rfl, rfl, h3, h⟩ := fitsW_cons.mp h
  obtain ⟨c4, cs, w4, w, rfl, rfl, h4, h⟩ := fitsW_cons.mp h
  obtain ⟨c5, cs, w5, w, rfl, rfl, h5, h⟩ := fitsW_cons.mp h
  obtain ⟨c6, cs, w6, w, rfl, rfl, h6, h⟩ := fitsW_cons.mp h
  obtain ⟨c7, cs, w7, w, rfl, rfl, h7, h⟩ := fitsW_cons.mp h
  obtain ⟨c8, cs, w8, w, rfl, rfl, h8, h⟩ := fitsW_cons.mp h
  obtain ⟨c9, cs, w9, w, rfl, rfl, h9, h⟩ := fitsW_cons.mp h
  obtain ⟨c10, cs, w10, w, rfl, rfl, h10, h⟩ := fitsW_cons.mp h
  obtain ⟨c11, cs, w11, w, rfl, rfl, h11, h⟩ := fitsW_cons.mp h
  obtain ⟨c12, cs, w12, w, rfl, rfl, h12, h⟩ := fitsW_cons.mp h
  obtain ⟨c13, rfl, h13⟩ := fitsW_one.mp h
  rename' w => w13
  obtain ⟨u0, rfl, rfl, k0⟩ := shw_AT h0
  obtain ⟨x1, u1, rfl, rfl, k1⟩ := shw___ANON_2 h1
  obtain ⟨u2, rfl, rfl, k2⟩ := shw_LPAR h2
  obtain ⟨x3, rfl, k3⟩ := h3
  obtain ⟨u4, rfl, rfl, k4⟩ := shw_RPAR h4
  obtain ⟨u5, rfl, k5⟩ := shw__CPP_COMMENT_NL h5
  obtain ⟨u6, rfl, k6⟩ := shw__CPP_COMMENT_NL h6
  obtain ⟨u7, rfl, k7⟩ := shw__CPP_COMMENT_NL h7
  obtain ⟨u8, rfl, k8⟩ := shw__CPP_COMMENT_NL h8
  obtain ⟨u9, rfl, k9⟩ := shw__CPP_COMMENT_NL h9
  obtain ⟨u10, rfl, k10⟩ := shw__CPP_COMMENT_NL h10
  obtain ⟨u11, rfl, k11⟩ := shw__CPP_COMMENT_NL h11
  obtain ⟨u12, rfl, k12⟩ := shw__CPP_COMMENT_NL h12
  obtain ⟨u13, rfl, k13⟩ := shw__CPP_COMMENT_NL h13
  exact ⟨⟨x1, some x3⟩, rfl, .arg (w1 := []) (w3 := []) (w4 := [u5, u6, u7, u8, u9, u10, u11, u12, u13]) k0 k1 k2 optBreak_none k3 optBreak_none k4 (breaks_cons k5 (breaks_cons k6 (breaks_cons k7 (breaks_cons k8 (breaks_cons k9 (breaks_cons k10 (breaks_cons k11 (breaks_cons k12 (breaks_cons k13 breaks_nil))))))))) (by simp)⟩

theorem r_214 : RuleOK ⟨N.«decorator», [T.«AT», T.«__ANON_2», T.«LPAR», T.«RPAR», T.«_CPP_COMMENT_NL», T.«_CPP_COMMENT_NL»], "decorator", false, [(1, false, 0)], 0⟩ := by
  refine ruleOK_node ?_
  intro cs w n l h hc hl
  obtain ⟨c0, cs, w0, w, rfl, rfl, h0, h⟩ := fitsW_cons.mp h
  obtain ⟨c1, cs, w1, w, rfl, rfl, h1, h⟩ := fitsW_cons.mp h
  obtain ⟨c2, cs, w2, w, rfl, rfl, h2, h⟩ := fitsW_cons.mp h
  obtain ⟨c3, cs, w3, w, rfl, rfl, h3, h⟩ := fitsW_cons.mp h
  obtain ⟨c4, cs, w4, w, rfl, rfl, h4, h⟩ := fitsW_cons.mp h
  obtain ⟨c5, rfl, h5⟩ := fitsW_one.mp h
  rename' w => w5
  obtain ⟨u0, rfl, rfl, k0⟩ := shw_AT h0
  obtain ⟨x1, u1, rfl, rfl, k1⟩ := shw___ANON_2 h1
  obtain ⟨u2, rfl, rfl, k2⟩ := shw_LPAR h2
  obtain ⟨u3, rfl, rfl, k3⟩ := shw_RPAR h3
  obtain ⟨u4, rfl, k4⟩ := shw__CPP_COMMENT_NL h4
  obtain ⟨u5, rfl, k5⟩ := shw__CPP_COMMENT_NL h5
  exact ⟨⟨x1, .none⟩, rfl, .noArg (w1 := []) (w2 := [u4, u5]) k0 k1 k2 breaks_nil (by simp) k3 (breaks_cons k4 (breaks_cons k5 breaks_nil)) (by simp)⟩

theorem r_218 : RuleOK ⟨N.«decorator», [T.«AT», T.«__ANON_2», T.«LPAR», T.«RPAR», T.«_CPP_COMMENT_NL», T.«_CPP_COMMENT_NL», T.«_CPP_COMMENT_NL», T.«_CPP_COMMENT_NL», T.«_CPP_COMMENT_NL», T.«_CPP_COMMENT_NL»], "decorator", false, [(1, false, 0)], 0⟩ := by
  refine ruleOK_node ?_
  intro cs w n l h hc hl
  obtain ⟨c0, cs, w0, w, rfl, rfl, h0, h⟩ := fitsW_cons.mp h
  obtain ⟨c1, cs, w1, w, rfl, rfl, h1, h⟩ := fitsW_cons.mp h
  obtain ⟨c2, cs, w2, w, rfl, rfl, h2, h⟩ := fitsW_cons.mp h
  obtain ⟨c3, cs, w3, w, rfl, rfl, h3, h⟩ := fitsW_cons.mp h
  obtain ⟨c4, cs, w4, w, rfl, rfl, h4, h⟩ := fitsW_cons.mp h
  obtain ⟨c5, cs, w5, w, rfl, rfl, h5, h⟩ := fitsW_cons.mp h
  obtain ⟨c6, cs, w6, w, rfl, rfl, h6, h⟩ := fitsW_cons.mp h
  obtain ⟨c7, cs, w7, w, rfl, rfl, h7, h⟩ := fitsW_cons.mp h
  obtain ⟨c8, cs, w8, w, rfl, rfl, h8, h⟩ := fitsW_cons.mp h
  obtain ⟨c9, rfl, h9⟩ := fitsW_one.mp h
  rename' w => w9
  obtain ⟨u0, rfl, rfl, k0⟩ := shw_AT h0
  obtain ⟨x1, u1, rfl, rfl, k1⟩ := shw___ANON_2 h1
  obtain ⟨u2, rfl, rfl, k2⟩ := shw_LPAR h2
  obtain ⟨u3, rfl, rfl, k3⟩ := shw_RPAR h3
  obtain ⟨u4, rfl, k4⟩ := shw__CPP_COMMENT_NL h4
  obtain ⟨u5, rfl, k5⟩ := shw__CPP_COMMENT_NL h5
  obtain ⟨u6, rfl, k6⟩ := shw__CPP_COMMENT_NL h6
  obtain ⟨u7, rfl, k7⟩ := shw__CPP_COMMENT_NL h7
  obtain ⟨u8, rfl, k8⟩ := shw__CPP_COMMENT_NL h8
  obtain ⟨u9, rfl, k9⟩ := shw__CPP_COMMENT_NL h9
  exact ⟨⟨x1, .none⟩, rfl, .noArg (w1 := []) (w2 := [u4, u5, u6, u7, u8, u9]) k0 k1 k2 breaks_nil (by simp) k3 (breaks_cons k4 (breaks_cons k5 (breaks_cons k6 (breaks_cons k7 (breaks_cons k8 (breaks_cons k9 breaks_nil)))))) (by simp)⟩

theorem r_222 : RuleOK ⟨N.«decorator», [T.«AT», T.«__ANON_2», T.«LPAR», T.«RPAR», T.«_CPP_COMMENT_NL», T.«_CPP_COMMENT_NL», T.«_CPP_COMMENT_NL», T.«_CPP_COMMENT_NL», T.«_CPP_COMMENT_NL», T.«_CPP_COMMENT_NL», T.«_CPP_COMMENT_NL», T.«_CPP_COMMENT_NL», T.«_CPP_COMMENT_NL», T.«_CPP_COMMENT_NL»], "decorator", false, [(1, false, 0)], 0⟩ := by
  refine ruleOK_node ?_
  intro cs w n l h hc hl
  obtain ⟨c0, cs, w0, w, rfl, rfl, h0, h⟩ := fitsW_cons.mp h
  obtain ⟨c1, cs, w1, w, rfl, rfl, h1, h⟩ := fitsW_cons.mp h
  obtain ⟨c2, cs, w2, w, rfl, rfl, h2, h⟩ := fitsW_cons.mp h
  obtain ⟨c3, cs, w3, w, rfl, rfl, h3, h⟩ := fitsW_cons.mp h
  obtain ⟨c4, cs, w4, w, rfl, rfl, h4, h⟩ := fitsW_cons.mp h
  obtain ⟨c5, cs, w5, w, rfl, rfl, h5, h⟩ := fitsW_cons.mp h
  obtain ⟨c6, cs, w6, w, rfl, rfl, h6, h⟩ := fitsW_cons.mp h
  obtain ⟨c7, cs, w7, w, rfl, rfl, h7, h⟩ := fitsW_cons.mp h
  obtain ⟨c8, cs, w8, w, rfl, rfl, h8, h⟩ := fitsW_cons.mp h
  obtain ⟨c9, cs, w9, w, rfl, rfl, h9, h⟩ := fitsW_cons.mp h
  obtain ⟨c10, cs, w10, w, rfl, rfl, h10, h⟩ := fitsW_cons.mp h
  obtain ⟨c11, cs, w11, w, rfl, rfl, h11, h⟩ := fitsW_cons.mp h
  obtain ⟨c12, cs, w12, w, rfl, rfl, h12, h⟩ := fitsW_cons.mp h
  obtain ⟨c13, rfl, h13⟩ := fitsW_one.mp h
  rename' w => w13
  obtain ⟨u0, rfl, rfl, k0⟩ := shw_AT h0
  obtain ⟨x1, u1, rfl, rfl, k1⟩ := shw___ANON_2 h1
  obtain ⟨u2, rfl, rfl, k2⟩ := shw_LPAR h2
  obtain ⟨u3, rfl, rfl, k3⟩ := shw_RPAR h3
  obtain ⟨u4, rfl, k4⟩ := shw__CPP_COMMENT_NL h4
  obtain ⟨u5, rfl, k5⟩ := shw__CPP_COMMENT_NL h5
  obtain ⟨u6, rfl, k6⟩ := shw__CPP_COMMENT_NL h6
  obtain ⟨u7, rfl, k7⟩ := shw__CPP_COMMENT_NL h7
  obtain ⟨u8, rfl, k8⟩ := shw__CPP_COMMENT_NL h8
  obtain ⟨u9, rfl, k9⟩ := shw__CPP_COMMENT_NL h9
  obtain ⟨u10, rfl, k10⟩ := shw__CPP_COMMENT_NL h10
  obtain ⟨u11, rfl, k11⟩ := shw__CPP_COMMENT_NL h11
  obtain ⟨u12, rfl, k12⟩ := shw__CPP_COMMENT_NL h12
  obtain ⟨u13, rfl, k13⟩ := shw__CPP_COMMENT_NL h13
  exact ⟨⟨x1, .none⟩, rfl, .noArg (w1 := []) (w2 := [u4, u5, u6, u7, u8, u9, u10, u11, u12, u13]) k0 k1 k2 breaks_nil (by simp) k3 (breaks_cons k4 (breaks_cons k5 (breaks_cons k6 (breaks_cons k7 (breaks_cons k8 (breaks_cons k9 (breaks_cons k10 (breaks_cons k11 (breaks_cons k12 (breaks_cons k13 breaks_nil)))))))))) (by simp)⟩

theorem r_226 : RuleOK ⟨N.«function», [T.«FUNCTION», T.«_CPP_COMMENT_NL», N.«value_brackets», T.«_CPP_COMMENT_NL», T.«RPAR»], "function", false, [(0, false, 0), (2, false, 0)], 0⟩ := by
  refine ruleOK_node ?_
  intro cs w n l h hc hl
  obtain ⟨c0, cs, w0, w, rfl, rfl, h0, h⟩ := fitsW_cons.mp h
  obtain ⟨c1, cs, w1, w, rfl, rfl, h1, h⟩ := fitsW_cons.mp h
  obtain ⟨c2, cs, w2, w, rfl, rfl, h2, h⟩ := fitsW_cons.mp h
  obtain ⟨c3, cs, w3, w, rfl, rfl, h3, h⟩ := fitsW_cons.mp h
  obtain ⟨c4, rfl, h4⟩ := fitsW_one.mp h
  rename' w => w4
  obtain ⟨x0, u0, rfl, rfl, k0⟩ := shw_FUNCTION h0
  obtain ⟨u1, rfl, k1⟩ := shw__CPP_COMMENT_NL h1
  obtain ⟨x2, rfl, k2⟩ := h2
  obtain ⟨u3, rfl, k3⟩ := shw__CPP_COMMENT_NL h3
  obtain ⟨u4, rfl, rfl, k4⟩ := shw_RPAR h4
  exact ⟨x0, x2 :: [], rfl, .args (w1 := [u1]) (w2 := w2) (w3 := []) (w4 := [u3]) k0 (optBreak_some k1) (by have := k2; simpa only [List.append_assoc, List.nil_append, List.append_nil, List.cons_append, nextT_append, nextT_cons, nextT_nil] using this) .nil (optBreak_some k3) k4⟩

theorem r_230 : RuleOK ⟨N.«function», [T.«FUNCTION», T.«_CPP_COMMENT_NL», T.«_CPP_COMMENT_NL», T.«RPAR»], "function", false, [(0, false, 0)], 0⟩ := by
  refine ruleOK_node ?_
  intro cs w n l h hc hl
  obtain ⟨c0, cs, w0, w, rfl, rfl, h0, h⟩ := fitsW_cons.mp h
  obtain ⟨c1, cs, w1, w, rfl, rfl, h1, h⟩ := fitsW_cons.mp h
  obtain ⟨c2, cs, w2, w, rfl, rfl, h2, h⟩ := fitsW_cons.mp h
  obtain ⟨c3, rfl, h3⟩ := fitsW_one.mp h
  rename' w => w3
  obtain ⟨x0, u0, rfl, rfl, k0⟩ := shw_FUNCTION h0
  obtain ⟨u1, rfl, k1⟩ := shw__CPP_COMMENT_NL h1
  obtain ⟨u2, rfl, k2⟩ := shw__CPP_COMMENT_NL h2
  obtain ⟨u3, rfl, rfl, k3⟩ := shw_RPAR h3
  exact ⟨x0, [], rfl, .noArg (w1 := [u1]) (w3 := []) (w4 := [u2]) k0 (optBreak_some k1) .nil (optBreak_some k2) k3⟩

theorem r_234 : RuleOK ⟨N.«function», [T.«FUNCTION», N.«value_brackets», T.«_CPP_COMMENT_NL», T.«RPAR»], "function", false, [(0, false, 0), (1, false, 0)], 0⟩ := by
  refine ruleOK_node ?_
  intro cs w n l h hc hl
  obtain ⟨c0, cs, w0, w, rfl, rfl, h0, h⟩ := fitsW_cons.mp h
  obtain ⟨c1, cs, w1, w, rfl, rfl, h1, h⟩ := fitsW_cons.mp h
  obtain ⟨c2, cs, w2, w, rfl, rfl, h2, h⟩ := fitsW_cons.mp h
  obtain ⟨c3, rfl, h3⟩ := fitsW_one.mp h
  rename' w => w3
  obtain ⟨x0, u0, rfl, rfl, k0⟩ := shw_FUNCTION h0
  obtain ⟨x1, rfl, k1⟩ := h1
  obtain ⟨u2, rfl, k2⟩ := shw__CPP_COMMENT_NL h2
  obtain ⟨u3, rfl, rfl, k3⟩ := shw_RPAR h3
  exact ⟨x0, x1 :: [], rfl, .args (w1 := []) (w2 := w1) (w3 := []) (w4 := [u2]) k0 optBreak_none (by have := k1; simpa only [List.append_assoc, List.nil_append, List.append_nil, List.cons_append, nextT_append, nextT_cons, nextT_nil] using this) .nil (optBreak_some k2) k3⟩

theorem r_238 : RuleOK ⟨N.«function», [T.«FUNCTION», T.«RPAR»], "function", false, [(0, false, 0)], 0⟩ := by
  refine ruleOK_node ?_
  intro cs w n l h hc hl
  obtain ⟨c0, cs, w0, w, rfl, rfl, h0, h⟩ := fitsW_cons.mp h
  obtain ⟨c1, rfl, h1⟩ := fitsW_one.mp h
  rename' w => w1
  obtain ⟨x0, u0, rfl, rfl, k0⟩ := shw_FUNCTION h0
  obtain ⟨u1, rfl, rfl, k1⟩ := shw_RPAR h1
  exact ⟨x0, [], rfl, .noArg (w1 := []) (w3 := []) (w4 := []) k0 optBreak_none .nil optBreak_none k1⟩

theorem r_242 : RuleOK ⟨N.«operator», [N.«operator_accessor»], "operator", false, [(0, false, 0)], 0⟩ := by
  refine ruleOK_node ?_
  intro cs w n l h hc hl
  obtain ⟨c0, rfl, h0⟩ := fitsW_one.mp h
  rename' w => w0
  obtain ⟨x0, q0, k0⟩ := h0
  exact ⟨x0, q0, k0⟩

theorem r_246 : RuleOK ⟨N.«operator_comparison», [N.«less_than»], "operator_comparison", true, [(0, false, 0)], 0⟩ := by
  refine ruleOK_ex ?_
  intro cs w n h hc
  obtain ⟨c0, rfl, h0⟩ := fitsW_one.mp h
  rename' w => w0
  obtain ⟨x0, q0, k0⟩ := h0
  exact ⟨_, rfl, w_op_nometa q0, x0, q0, k0⟩

theorem r_250 : RuleOK ⟨N.«operator_comparison», [N.«not_equals_case_insens»], "operator_comparison", true, [(0, false, 0)], 0⟩ := by
  refine ruleOK_ex ?_
  intro cs w n h hc
  obtain ⟨c0, rfl, h0⟩ := fitsW_one.mp h
  rename' w => w0
  obtain ⟨x0, q0, k0⟩ := h0
  exact ⟨_, rfl, w_op_nometa q0, x0, q0, k0⟩

theorem r_254 : RuleOK ⟨N.«less_than», [N.«value_brackets», T.«LESSTHAN», N.«value_brackets»], "less_than", false, [(0, false, 0), (2, false, 0)], 0⟩ := by
  refine ruleOK_node ?_
  intro cs w n l h hc hl
  obtain ⟨c0, cs, w0, w, rfl, rfl, h0, h⟩ := fitsW_cons.mp h
  obtain ⟨c1, cs, w1, w, rfl, rfl, h1, h⟩ := fitsW_cons.mp h
  obtain ⟨c2, rfl, h2⟩ := fitsW_one.mp h
  rename' w => w2
  obtain ⟨x0, rfl, k0⟩ := h0
  obtain ⟨u1, rfl, rfl, k1⟩ := shw_LESSTHAN h1
  obtain ⟨x2, rfl, k2⟩ := h2
  exact ⟨.bin .lt x0 x2, rfl, .bin rfl k0 k1 k2 (hc.noInfix rfl)⟩

theorem r_258 : RuleOK ⟨N.«not_equals_case_insens», [N.«value_brackets», T.«__ANON_8», N.«value_brackets»], "not_equals_case_insens", false, [(0, false, 0), (2, false, 0)], 0⟩ := by
  refine ruleOK_node ?_
  intro cs w n l h hc hl
  obtain ⟨c0, cs, w0, w, rfl, rfl, h0, h⟩ := fitsW_cons.mp h
  obtain ⟨c1, cs, w1, w, rfl, rfl, h1, h⟩ := fitsW_cons.mp h
  obtain ⟨c2, rfl, h2⟩ := fitsW_one.mp h
  rename' w => w2
  obtain ⟨x0, rfl, k0⟩ := h0
  obtain ⟨u1, rfl, rfl, k1⟩ := shw___ANON_8 h1
  obtain ⟨x2, rfl, k2⟩ := h2
  exact ⟨.bin .nei x0 x2, rfl, .bin rfl k0 k1 k2 (hc.noInfix rfl)⟩

theorem r_262 : RuleOK ⟨N.«operator_logical», [N.«coalesce»], "operator_logical", true, [(0, false, 0)], 0⟩ := by
  refine ruleOK_ex ?_
  intro cs w n h hc
  obtain ⟨c0, rfl, h0⟩ := fitsW_one.mp h
  rename' w => w0
  obtain ⟨x0, q0, k0⟩ := h0
  exact ⟨_, rfl, w_op_nometa q0, x0, q0, k0⟩

theorem r_266 : RuleOK ⟨N.«not_op», [T.«BANG», N.«value_brackets»], "not_op", false, [(1, false, 0)], 0⟩ := by
  refine ruleOK_node ?_
  intro cs w n l h hc hl
  obtain ⟨c0, cs, w0, w, rfl, rfl, h0, h⟩ := fitsW_cons.mp h
  obtain ⟨c1, rfl, h1⟩ := fitsW_one.mp h
  rename' w => w1
  obtain ⟨u0, rfl, rfl, k0⟩ := shw_BANG h0
  obtain ⟨x1, rfl, k1⟩ := h1
  exact ⟨.not x1, rfl, .not k0 k1 (hc.noInfix rfl)⟩

theorem r_270 : RuleOK ⟨N.«operator_numeric», [N.«divide»], "operator_numeric", true, [(0, false, 0)], 0⟩ := by
  refine ruleOK_ex ?_
  intro cs w n h hc
  obtain ⟨c0, rfl, h0⟩ := fitsW_one.mp h
  rename' w => w0
  obtain ⟨x0, q0, k0⟩ := h0
  exact ⟨_, rfl, w_op_nometa q0, x0, q0, k0⟩

theorem r_274 : RuleOK ⟨N.«operator_numeric», [N.«substract»], "operator_numeric", true, [(0, false, 0)], 0⟩ := by
  refine ruleOK_ex ?_
  intro cs w n h hc
  obtain ⟨c0, rfl, h0⟩ := fitsW_one.mp h
  rename' w => w0
  obtain ⟨x0, q0, k0⟩ := h0
  exact ⟨_, rfl, w_op_nometa q0, x0, q0, k0⟩

theorem r_278 : RuleOK ⟨N.«modulo», [N.«value_brackets», T.«PERCENT», N.«value_brackets»], "modulo", false, [(0, false, 0), (2, false, 0)], 0⟩ := by
  refine ruleOK_node ?_
  intro cs w n l h hc hl
  obtain ⟨c0, cs, w0, w, rfl, rfl, h0, h⟩ := fitsW_cons.mp h
  obtain ⟨c1, cs, w1, w, rfl, rfl, h1, h⟩ := fitsW_cons.mp h
  obtain ⟨c2, rfl, h2⟩ := fitsW_one.mp h
  rename' w => w2
  obtain ⟨x0, rfl, k0⟩ := h0
  obtain ⟨u1, rfl, rfl, k1⟩ := shw_PERCENT h1
  obtain ⟨x2, rfl, k2⟩ := h2
  exact ⟨.bin .mod x0 x2, rfl, .bin rfl k0 k1 k2 (hc.noInfix rfl)⟩

theorem r_282 : RuleOK ⟨N.«operator_accessor», [N.«function_accessor»], "operator_accessor", true, [(0, false, 0)], 0⟩ := by
  refine ruleOK_ex ?_
  intro cs w n h hc
  obtain ⟨c0, rfl, h0⟩ := fitsW_one.mp h
  rename' w => w0
  obtain ⟨x0, q0, k0⟩ := h0
  exact ⟨_, rfl, w_op_nometa q0, x0, q0, k0⟩

theorem r_286 : RuleOK ⟨N.«index_accessor», [N.«value_brackets», T.«LSQB», N.«value_brackets», T.«RSQB»], "index_accessor", false, [(0, false, 0), (2, false, 0)], 0⟩ := by
  refine ruleOK_node ?_
  intro cs w n l h hc hl
  obtain ⟨c0, cs, w0, w, rfl, rfl, h0, h⟩ := fitsW_cons.mp h
  obtain ⟨c1, cs, w1, w, rfl, rfl, h1, h⟩ := fitsW_cons.mp h
  obtain ⟨c2, cs, w2, w, rfl, rfl, h2, h⟩ := fitsW_cons.mp h
  obtain ⟨c3, rfl, h3⟩ := fitsW_one.mp h
  rename' w => w3
  obtain ⟨x0, rfl, k0⟩ := h0
  obtain ⟨u1, rfl, rfl, k1⟩ := shw_LSQB h1
  obtain ⟨x2, rfl, k2⟩ := h2
  obtain ⟨u3, rfl, rfl, k3⟩ := shw_RSQB h3
  exact ⟨.bin .index x0 x2, rfl, .index k0 k1 k2 k3⟩

theorem r_290 : RuleOK ⟨N.«property_accessor», [N.«value_brackets», T.«DOT», T.«QMARK», N.«value_brackets»], "property_accessor", false, [(0, false, 0), (3, false, 0)], 0⟩ := by
  refine ruleOK_node ?_
  intro cs w n l h hc hl
  obtain ⟨c0, cs, w0, w, rfl, rfl, h0, h⟩ := fitsW_cons.mp h
  obtain ⟨c1, cs, w1, w, rfl, rfl, h1, h⟩ := fitsW_cons.mp h
  obtain ⟨c2, cs, w2, w, rfl, rfl, h2, h⟩ := fitsW_cons.mp h
  obtain ⟨c3, rfl, h3⟩ := fitsW_one.mp h
  rename' w => w3
  obtain ⟨x0, rfl, k0⟩ := h0
  obtain ⟨u1, rfl, rfl, k1⟩ := shw_DOT h1
  obtain ⟨u2, rfl, rfl, k2⟩ := shw_QMARK h2
  obtain ⟨x3, rfl, k3⟩ := h3
  exact ⟨.bin .prop x0 x3, rfl, .safe k0 k1 k2 k3 (hc.noInfix rfl)⟩

theorem r_294 : RuleOK ⟨N.«__start_star_0», [T.«_CPP_COMMENT_NL»], "__start_star_0", false, [], 0⟩ := by
  refine ruleOK_node ?_
  intro cs w n l h hc hl
  obtain ⟨c0, rfl, h0⟩ := fitsW_one.mp h
  rename' w => w0
  obtain ⟨u0, rfl, k0⟩ := shw__CPP_COMMENT_NL h0
  exact ⟨[], (by simp only [keepKids', List.flatMap_cons, List.flatMap_nil, List.replicate_zero, List.replicate_succ, List.getElem?_cons_zero, List.getElem?_cons_succ, Bool.false_eq_true, if_true, if_false, List.append_nil, List.nil_append, List.cons_append, List.append_assoc, w_kids_mkCore, List.map_append] <;> rfl), ProgSyn.nl (p := []) (w := []) .nil k0⟩

theorem r_298 : RuleOK ⟨N.«___import_statement_star_1», [T.«COMMA», N.«import_alias»], "___import_statement_star_1", false, [(1, false, 0)], 0⟩ := by
  refine ruleOK_node ?_
  intro cs w n l h hc hl
  obtain ⟨c0, cs, w0, w, rfl, rfl, h0, h⟩ := fitsW_cons.mp h
  obtain ⟨c1, rfl, h1⟩ := fitsW_one.mp h
  rename' w => w1
  obtain ⟨u0, rfl, rfl, k0⟩ := shw_COMMA h0
  obtain ⟨x1, rfl, k1⟩ := h1
  exact ⟨[x1], rfl, .snoc (is := []) (w1 := []) .nil k0 k1⟩

theorem r_302 : RuleOK ⟨N.«__child_resource_plus_3», [T.«_CPP_COMMENT_NL»], "__child_resource_plus_3", false, [], 0⟩ := by
  refine ruleOK_node ?_
  intro cs w n l h hc hl
  obtain ⟨c0, rfl, h0⟩ := fitsW_one.mp h
  rename' w => w0
  obtain ⟨u0, rfl, k0⟩ := shw__CPP_COMMENT_NL h0
  exact ⟨rfl, breaks_cons k0 breaks_nil, by simp⟩

theorem r_306 : RuleOK ⟨N.«__data_type_star_5», [N.«array_suffix»], "__data_type_star_5", false, [(0, false, 0)], 0⟩ := by
  refine ruleOK_node ?_
  intro cs w n l h hc hl
  obtain ⟨c0, rfl, h0⟩ := fitsW_one.mp h
  rename' w => w0
  obtain ⟨rfl, u0, v0, rfl, k0, m0⟩ := h0
  exact ⟨1, rfl, .succ (w := []) .zero k0 m0⟩

theorem r_310 : RuleOK ⟨N.«__array_star_7», [T.«COMMA», N.«value_brackets»], "__array_star_7", false, [(1, false, 0)], 0⟩ := by
  refine ruleOK_node ?_
  intro cs w n l h hc hl
  obtain ⟨c0, cs, w0, w, rfl, rfl, h0, h⟩ := fitsW_cons.mp h
  obtain ⟨c1, rfl, h1⟩ := fitsW_one.mp h
  rename' w => w1
  obtain ⟨u0, rfl, rfl, k0⟩ := shw_COMMA h0
  obtain ⟨x1, rfl, k1⟩ := h1
  exact ⟨x1, [], rfl, .snoc (es := []) (w1 := []) .nil k0 k1 (hc.noInfix rfl), (hc.noInfix rfl)⟩

theorem r_314 : RuleOK ⟨N.«__array_star_8», [N.«value_brackets», N.«__child_resource_plus_3»], "__array_star_8", false, [(0, false, 0), (1, true, 0)], 0⟩ := by
  refine ruleOK_node ?_
  intro cs w n l h hc hl
  obtain ⟨c0, cs, w0, w, rfl, rfl, h0, h⟩ := fitsW_cons.mp h
  obtain ⟨c1, rfl, h1⟩ := fitsW_one.mp h
  rename' w => w1
  obtain ⟨x0, rfl, k0⟩ := h0
  obtain ⟨q1, k1, m1⟩ := h1
  exact ⟨[] ++ x0 :: [], (by simp only [keepKids', List.flatMap_cons, List.flatMap_nil, List.replicate_zero, List.replicate_succ, List.getElem?_cons_zero, List.getElem?_cons_succ, Bool.false_eq_true, if_true, if_false, List.append_nil, List.nil_append, List.cons_append, List.append_assoc, w_kids_mkCore, q1, w_exprs_append, Expr.trees] <;> rfl), (by have := Elems.snoc (es := []) (w1 := []) (w2 := w0) (w3 := []) (w4 := w1) (es' := []) (n := n) .nil (by have := k0; simpa only [List.append_assoc, List.nil_append, List.append_nil, List.cons_append, nextT_append, nextT_cons, nextT_nil] using this) .nil k1 (noInfix_breaks k1 m1); simpa only [List.append_assoc, List.nil_append, List.append_nil, List.cons_append, nextT_append, nextT_cons, nextT_nil] using this)⟩

theorem r_318 : RuleOK ⟨N.«__array_star_8», [N.«__array_star_8», N.«value_brackets», N.«__child_resource_plus_3»], "__array_star_8", false, [(0, true, 0), (1, false, 0), (2, true, 0)], 0⟩ := by
  refine ruleOK_node ?_
  intro cs w n l h hc hl
  obtain ⟨c0, cs, w0, w, rfl, rfl, h0, h⟩ := fitsW_cons.mp h
  obtain ⟨c1, cs, w1, w, rfl, rfl, h1, h⟩ := fitsW_cons.mp h
  obtain ⟨c2, rfl, h2⟩ := fitsW_one.mp h
  rename' w => w2
  obtain ⟨x0, q0, k0⟩ := h0
  obtain ⟨x1, rfl, k1⟩ := h1
  obtain ⟨q2, k2, m2⟩ := h2
  exact ⟨x0 ++ x1 :: [], (by simp only [keepKids', List.flatMap_cons, List.flatMap_nil, List.replicate_zero, List.replicate_succ, List.getElem?_cons_zero, List.getElem?_cons_succ, Bool.false_eq_true, if_true, if_false, List.append_nil, List.nil_append, List.cons_append, List.append_assoc, w_kids_mkCore, q0, q2, w_exprs_append, Expr.trees] <;> rfl), (by have := Elems.snoc (es := x0) (w1 := w0) (w2 := w1) (w3 := []) (w4 := w2) (es' := []) (n := n) (by have := k0; simpa only [List.append_assoc, List.nil_append, List.append_nil, List.cons_append, nextT_append, nextT_cons, nextT_nil] using this) (by have := k1; simpa only [List.append_assoc, List.nil_append, List.append_nil, List.cons_append, nextT_append, nextT_cons, nextT_nil] using this) .nil k2 (noInfix_breaks k2 m2); simpa only [List.append_assoc, List.nil_append, List.append_nil, List.cons_append, nextT_append, nextT_cons, nextT_nil] using this)⟩

theorem r_322 : RuleOK ⟨N.«__object_star_10», [N.«pair», N.«__object_star_9», N.«__child_resource_plus_3»], "__object_star_10", false, [(0, false, 0), (1, true, 0), (2, true, 0)], 0⟩ := by
  refine ruleOK_node ?_
  intro cs w n l h hc hl
  obtain ⟨c0, cs, w0, w, rfl, rfl, h0, h⟩ := fitsW_cons.mp h
  obtain ⟨c1, cs, w1, w, rfl, rfl, h1, h⟩ := fitsW_cons.mp h
  obtain ⟨c2, rfl, h2⟩ := fitsW_one.mp h
  rename' w => w2
  obtain ⟨x0, rfl, k0⟩ := h0
  obtain ⟨x1, q1, k1⟩ := h1
  obtain ⟨q2, k2, m2⟩ := h2
  exact ⟨[] ++ x0 :: x1, (by simp only [keepKids', List.flatMap_cons, List.flatMap_nil, List.replicate_zero, List.replicate_succ, List.getElem?_cons_zero, List.getElem?_cons_succ, Bool.false_eq_true, if_true, if_false, List.append_nil, List.nil_append, List.cons_append, List.append_assoc, w_kids_mkCore, q1, q2, w_items_append, Item.trees] <;> rfl), (by have := Items.pairs (is := []) (w1 := []) (w2 := w0) (w3 := w1) (w4 := w2) (is' := x1) (n := n) .nil (by have := k0; simpa only [List.append_assoc, List.nil_append, List.append_nil, List.cons_append, nextT_append, nextT_cons, nextT_nil] using this) k1 k2; simpa only [List.append_assoc, List.nil_append, List.append_nil, List.cons_append, nextT_append, nextT_cons, nextT_nil] using this)⟩

theorem r_326 : RuleOK ⟨N.«__object_star_10», [N.«child_resource», N.«__child_resource_plus_3»], "__object_star_10", false, [(0, false, 0), (1, true, 0)], 0⟩ := by
  refine ruleOK_node ?_
  intro cs w n l h hc hl
  obtain ⟨c0, cs, w0, w, rfl, rfl, h0, h⟩ := fitsW_cons.mp h
  obtain ⟨c1, rfl, h1⟩ := fitsW_one.mp h
  rename' w => w1
  obtain ⟨x0, rfl, k0⟩ := h0
  obtain ⟨q1, k1, m1⟩ := h1
  exact ⟨[] ++ [x0], (by simp only [keepKids', List.flatMap_cons, List.flatMap_nil, List.replicate_zero, List.replicate_succ, List.getElem?_cons_zero, List.getElem?_cons_succ, Bool.false_eq_true, if_true, if_false, List.append_nil, List.nil_append, List.cons_append, List.append_assoc, w_kids_mkCore, q1, w_items_append, Item.trees] <;> rfl), (by have := Items.child (is := []) (w1 := []) (w2 := w0) (w3 := w1) (n := n) .nil (by have := k0; simpa only [List.append_assoc, List.nil_append, List.append_nil, List.cons_append, nextT_append, nextT_cons, nextT_nil] using this) k1; simpa only [List.append_assoc, List.nil_append, List.append_nil, List.cons_append, nextT_append, nextT_cons, nextT_nil] using this)⟩

theorem r_330 : RuleOK ⟨N.«__object_star_10», [N.«__object_star_10», N.«pair», N.«__child_resource_plus_3»], "__object_star_10", false, [(0, true, 0), (1, false, 0), (2, true, 0)], 0⟩ := by
  refine ruleOK_node ?_
  intro cs w n l h hc hl
  obtain ⟨c0, cs, w0, w, rfl, rfl, h0, h⟩ := fitsW_cons.mp h
  obtain ⟨c1, cs, w1, w, rfl, rfl, h1, h⟩ := fitsW_cons.mp h
  obtain ⟨c2, rfl, h2⟩ := fitsW_one.mp h
  rename' w => w2
  obtain ⟨x0, q0, k0⟩ := h0
  obtain ⟨x1, rfl, k1⟩ := h1
  obtain ⟨q2, k2, m2⟩ := h2
  exact ⟨x0 ++ x1 :: [], (by simp only [keepKids', List.flatMap_cons, List.flatMap_nil, List.replicate_zero, List.replicate_succ, List.getElem?_cons_zero, List.getElem?_cons_succ, Bool.false_eq_true, if_true, if_false, List.append_nil, List.nil_append, List.cons_append, List.append_assoc, w_kids_mkCore, q0, q2, w_items_append, Item.trees] <;> rfl), (by have := Items.pairs (is := x0) (w1 := w0) (w2 := w1) (w3 := []) (w4 := w2) (is' := []) (n := n) (by have := k0; simpa only [List.append_assoc, List.nil_append, List.append_nil, List.cons_append, nextT_append, nextT_cons, nextT_nil] using this) (by have := k1; simpa only [List.append_assoc, List.nil_append, List.append_nil, List.cons_append, nextT_append, nextT_cons, nextT_nil] using this) .nil k2; simpa only [List.append_assoc, List.nil_append, List.append_nil, List.cons_append, nextT_append, nextT_cons, nextT_nil] using this)⟩

theorem r_334 : RuleOK ⟨N.«__decorators_plus_11», [N.«decorator»], "__decorators_plus_11", false, [(0, false, 0)], 0⟩ := by
  refine ruleOK_node ?_
  intro cs w n l h hc hl
  obtain ⟨c0, rfl, h0⟩ := fitsW_one.mp h
  rename' w => w0
  obtain ⟨x0, rfl, k0⟩ := h0
  exact ⟨x0, [], rfl, .snoc (ds := []) (w1 := []) .nil k0⟩

theorem r_338 : RuleOK ⟨N.«__function_star_12», [N.«__function_star_12», T.«COMMA», T.«_CPP_COMMENT_NL», N.«value_brackets»], "__function_star_12", false, [(0, true, 0), (3, false, 0)], 0⟩ := by
  refine ruleOK_node ?_
  intro cs w n l h hc hl
  obtain ⟨c0, cs, w0, w, rfl, rfl, h0, h⟩ := fitsW_cons.mp h
  obtain ⟨c1, cs, w1, w, rfl, rfl, h1, h⟩ := fitsW_cons.mp h
  obtain ⟨c2, cs, w2, w, rfl, rfl, h2, h⟩ := fitsW_cons.mp h
  obtain ⟨c3, rfl, h3⟩ := fitsW_one.mp h
  rename' w => w3
  obtain ⟨x0, q0, k0⟩ := h0
  obtain ⟨u1, rfl, rfl, k1⟩ := shw_COMMA h1
  obtain ⟨u2, rfl, k2⟩ := shw__CPP_COMMENT_NL h2
  obtain ⟨x3, rfl, k3⟩ := h3
  exact ⟨x0 ++ [x3], (by simp only [keepKids', List.flatMap_cons, List.flatMap_nil, List.replicate_zero, List.replicate_succ, List.getElem?_cons_zero, List.getElem?_cons_succ, Bool.false_eq_true, if_true, if_false, List.append_nil, List.nil_append, List.cons_append, List.append_assoc, w_kids_mkCore, q0, w_exprs_append] <;> rfl), .snoc (es := x0) (w1 := w0) (w2 := [u2]) k0 k1 (optBreak_some k2) k3 (hc.noInfix rfl)⟩

theorem r_342 : RuleOK ⟨N.«__function_accessor_plus_13», [N.«__function_accessor_plus_13», T.«COMMA», N.«value_brackets»], "__function_accessor_plus_13", false, [(0, true, 0), (2, false, 0)], 0⟩ := by
  refine ruleOK_node ?_
  intro cs w n l h hc hl
  obtain ⟨c0, cs, w0, w, rfl, rfl, h0, h⟩ := fitsW_cons.mp h
  obtain ⟨c1, cs, w1, w, rfl, rfl, h1, h⟩ := fitsW_cons.mp h
  obtain ⟨c2, rfl, h2⟩ := fitsW_one.mp h
  rename' w => w2
  obtain ⟨u1, rfl, rfl, k1⟩ := shw_COMMA h1
  obtain ⟨x2, rfl, k2⟩ := h2
  · rcases h0 with ⟨q, rfl, hne⟩ | ⟨es, e, q, k⟩
    · refine (hne ?_).elim
      have : ∀ t < 128, fixedText t = some "," → t = T.COMMA := by decide
      exact kw_type k1 "," T.COMMA rfl (by decide)
    · exact .inr ⟨es ++ [e], x2, (by simp only [keepKids', List.flatMap_cons, List.flatMap_nil, List.replicate_zero, List.replicate_succ, List.getElem?_cons_zero, List.getElem?_cons_succ, Bool.false_eq_true, if_true, if_false, List.append_nil, List.nil_append, List.cons_append, List.append_assoc, w_kids_mkCore, q, List.map_append, w_opts_append] <;> rfl), .snoc k k1 k2 (hc.noInfix rfl)⟩

/-- the rules of this file -/
def list2 : List Rule := [
  ⟨N.«element», [T.«TARGETSCOPE», T.«EQUAL», T.«QUOTED_INTERPOLATION»], "scope", false, [(2, false, 0)], 0⟩,
  ⟨N.«element», [T.«EXTENSION», T.«STRING», T.«AS», T.«STRING»], "extension", false, [(1, false, 0), (3, false, 1)], 0⟩,
  ⟨N.«element», [N.«decorators», T.«PARAM», T.«STRING», N.«data_type», T.«QMARK»], "param", false, [(0, false, 0), (2, false, 0), (3, false, 0)], 1⟩,
  ⟨N.«element», [T.«PARAM», T.«STRING», N.«data_type», T.«QMARK»], "param", false, [(1, false, 1), (2, false, 0)], 1⟩,
  ⟨N.«element», [N.«decorators», T.«VAR», T.«STRING», N.«data_type», T.«EQUAL», N.«var_value»], "var", false, [(0, false, 0), (2, false, 0), (3, false, 0), (5, false, 0)], 0⟩,
  ⟨N.«element», [T.«VAR», T.«STRING», T.«EQUAL», N.«var_value»], "var", false, [(1, false, 1), (3, false, 1)], 0⟩,
  ⟨N.«element», [T.«OUTPUT», T.«STRING», N.«data_type», T.«EQUAL», N.«output_value»], "output", false, [(1, false, 1), (2, false, 0), (4, false, 0)], 0⟩,
  ⟨N.«element», [T.«RESOURCE», T.«STRING», N.«type_api_pair», T.«EQUAL», N.«resource_value»], "resource", false, [(1, false, 1), (2, false, 0), (4, false, 1)], 0⟩,
  ⟨N.«element», [T.«TYPE», T.«STRING», T.«EQUAL», N.«type_value»], "custom_type", false, [(1, false, 1), (3, false, 0)], 0⟩,
  ⟨N.«value», [T.«NULL»], "null", false, [], 0⟩,
  ⟨N.«value», [T.«FALSE»], "false", false, [], 0⟩,
  ⟨N.«value», [T.«STRING»], "string", false, [(0, false, 0)], 0⟩,
  ⟨N.«value», [N.«array»], "value", true, [(0, false, 0)], 0⟩,
  ⟨N.«value», [N.«operator»], "value", true, [(0, false, 0)], 0⟩,
  ⟨N.«value_brackets», [T.«LPAR», N.«value», T.«RPAR», T.«BANG»], "value_brackets", true, [(1, false, 0)], 0⟩,
  ⟨N.«_import_statement», [N.«import_alias», T.«FROM», T.«QUOTED_INTERPOLATION»], "_import_statement", false, [(0, false, 0), (2, false, 0)], 0⟩,
  ⟨N.«_func_statement», [T.«STRING», T.«LPAR», T.«RPAR», N.«data_type», T.«__ANON_0», N.«value_brackets»], "_func_statement", false, [(0, false, 0), (3, false, 0), (5, false, 0)], 0⟩,
  ⟨N.«output_value», [N.«value_brackets»], "output_value", true, [(0, false, 0)], 0⟩,
  ⟨N.«resource_value», [N.«deploy_condition»], "resource_value", true, [(0, false, 0)], 0⟩,
  ⟨N.«child_resource», [T.«RESOURCE», T.«STRING», T.«QUOTED_INTERPOLATION», T.«EXISTING», T.«EQUAL», N.«object», N.«__child_resource_plus_3»], "child_resource", false, [(1, false, 0), (2, false, 0), (3, false, 0), (5, false, 0), (6, true, 0)], 0⟩,
  ⟨N.«child_resource», [T.«RESOURCE», T.«STRING», T.«QUOTED_INTERPOLATION», T.«EQUAL», N.«loop», N.«__child_resource_plus_3»], "child_resource", false, [(1, false, 0), (2, false, 0), (4, false, 1), (5, true, 0)], 0⟩,
  ⟨N.«data_type», [N.«base_type», N.«__data_type_star_5»], "data_type", false, [(0, false, 0), (1, true, 0)], 0⟩,
  ⟨N.«union_type», [T.«LPAR», N.«data_type», N.«__union_type_plus_6», T.«RPAR»], "union_type", false, [(1, false, 0), (2, true, 0)], 0⟩,
  ⟨N.«import_alias», [T.«STRING», T.«AS», T.«STRING»], "import_alias", false, [(0, false, 0), (2, false, 0)], 0⟩,
  ⟨N.«loop», [T.«LSQB», T.«_CPP_COMMENT_NL», T.«FOR», N.«loop_array», T.«COLON», N.«value_brackets», N.«value_brackets», T.«_CPP_COMMENT_NL», T.«RSQB»], "loop", false, [(3, false, 0), (5, false, 0), (6, false, 0)], 0⟩,
  ⟨N.«loop», [T.«LSQB», T.«_CPP_COMMENT_NL», T.«FOR», N.«loop_array_index», T.«COLON», N.«value_brackets», N.«value_brackets», T.«_CPP_COMMENT_NL», T.«RSQB»], "loop", false, [(3, false, 0), (5, false, 0), (6, false, 0)], 0⟩,
  ⟨N.«loop», [T.«LSQB», T.«_CPP_COMMENT_NL», T.«FOR», N.«loop_object», T.«COLON», N.«value_brackets», N.«value_brackets», T.«_CPP_COMMENT_NL», T.«RSQB»], "loop", false, [(3, false, 0), (5, false, 0), (6, false, 0)], 0⟩,
  ⟨N.«loop», [T.«LSQB», T.«FOR», N.«loop_array», T.«COLON», N.«value_brackets», N.«value_brackets», T.«_CPP_COMMENT_NL», T.«RSQB»], "loop", false, [(2, false, 0), (4, false, 0), (5, false, 0)], 0⟩,
  ⟨N.«loop», [T.«LSQB», T.«FOR», N.«loop_array_index», T.«COLON», N.«value_brackets», N.«value_brackets», T.«_CPP_COMMENT_NL», T.«RSQB»], "loop", false, [(2, false, 0), (4, false, 0), (5, false, 0)], 0⟩,
  ⟨N.«loop», [T.«LSQB», T.«FOR», N.«loop_object», T.«COLON», N.«value_brackets», N.«value_brackets», T.«_CPP_COMMENT_NL», T.«RSQB»], "loop", false, [(2, false, 0), (4, false, 0), (5, false, 0)], 0⟩,
  ⟨N.«loop_array», [T.«STRING», T.«IN», N.«value_brackets»], "loop_array", false, [(0, false, 0), (2, false, 0)], 0⟩,
  ⟨N.«deploy_condition», [T.«IF», T.«LPAR», N.«value_brackets», T.«RPAR», N.«value_brackets»], "deploy_condition", false, [(2, false, 0), (4, false, 0)], 0⟩,
  ⟨N.«array», [T.«LSQB», N.«__child_resource_plus_3», N.«__array_star_8», T.«RSQB»], "array", false, [(1, true, 0), (2, true, 0)], 0⟩,
  ⟨N.«object», [T.«LBRACE», N.«__child_resource_plus_3», N.«__object_star_10», T.«RBRACE»], "object", false, [(1, true, 0), (2, true, 0)], 0⟩,
  ⟨N.«pair», [N.«key», T.«COLON», N.«value_brackets», T.«QMARK»], "pair", false, [(0, false, 0), (2, false, 0)], 0⟩,
  ⟨N.«key», [T.«RESOURCE»], "key", false, [(0, false, 0)], 0⟩,
  ⟨N.«decorator», [T.«AT», T.«__ANON_2», T.«LPAR», T.«_CPP_COMMENT_NL», N.«value_brackets», T.«_CPP_COMMENT_NL», T.«RPAR»], "decorator", false, [(1, false, 0), (4, false, 0)], 0⟩,
  ⟨N.«decorator», [T.«AT», T.«__ANON_2», T.«LPAR», T.«_CPP_COMMENT_NL», N.«value_brackets», T.«_CPP_COMMENT_NL», T.«RPAR», T.«_CPP_COMMENT_NL», T.«_CPP_COMMENT_NL», T.«_CPP_COMMENT_NL», T.«_CPP_COMMENT_NL»], "decorator", false, [(1, false, 0), (4, false, 0)], 0⟩,
  ⟨N.«decorator», [T.«AT», T.«__ANON_2», T.«LPAR», T.«_CPP_COMMENT_NL», N.«value_brackets», T.«_CPP_COMMENT_NL», T.«RPAR», T.«_CPP_COMMENT_NL», T.«_CPP_COMMENT_NL», T.«_CPP_COMMENT_NL», T.«_CPP_COMMENT_NL», T.«_CPP_COMMENT_NL», T.«_CPP_COMMENT_NL», T.«_CPP_COMMENT_NL», T.«_CPP_COMMENT_NL»], "decorator", false, [(1, false, 0), (4, false, 0)], 0⟩,
  ⟨N.«decorator», [T.«AT», T.«__ANON_2», T.«LPAR», T.«_CPP_COMMENT_NL», N.«value_brackets», T.«RPAR», T.«_CPP_COMMENT_NL»], "decorator", false, [(1, false, 0), (4, false, 0)], 0⟩,
  ⟨N.«decorator», [T.«AT», T.«__ANON_2», T.«LPAR», T.«_CPP_COMMENT_NL», N.«value_brackets», T.«RPAR», T.«_CPP_COMMENT_NL», T.«_CPP_COMMENT_NL», T.«_CPP_COMMENT_NL», T.«_CPP_COMMENT_NL», T.«_CPP_COMMENT_NL»], "decorator", false, [(1, false, 0), (4, false, 0)], 0⟩,
  ⟨N.«decorator», [T.«AT», T.«__ANON_2», T.«LPAR», T.«_CPP_COMMENT_NL», N.«value_brackets», T.«RPAR», T.«_CPP_COMMENT_NL», T.«_CPP_COMMENT_NL», T.«_CPP_COMMENT_NL», T.«_CPP_COMMENT_NL», T.«_CPP_COMMENT_NL», T.«_CPP_COMMENT_NL», T.«_CPP_COMMENT_NL», T.«_CPP_COMMENT_NL», T.«_CPP_COMMENT_NL»], "decorator", false, [(1, false, 0), (4, false, 0)], 0⟩,
  ⟨N.«decorator», [T.«AT», T.«__ANON_2», T.«LPAR», T.«_CPP_COMMENT_NL», T.«_CPP_COMMENT_NL», T.«RPAR», T.«_CPP_COMMENT_NL», T.«_CPP_COMMENT_NL»], "decorator", false, [(1, false, 0)], 0⟩,
  ⟨N.«decorator», [T.«AT», T.«__ANON_2», T.«LPAR», T.«_CPP_COMMENT_NL», T.«_CPP_COMMENT_NL», T.«RPAR», T.«_CPP_COMMENT_NL», T.«_CPP_COMMENT_NL», T.«_CPP_COMMENT_NL», T.«_CPP_COMMENT_NL», T.«_CPP_COMMENT_NL», T.«_CPP_COMMENT_NL»], "decorator", false, [(1, false, 0)], 0⟩,
  ⟨N.«decorator», [T.«AT», T.«__ANON_2», T.«LPAR», T.«_CPP_COMMENT_NL», T.«_CPP_COMMENT_NL», T.«RPAR», T.«_CPP_COMMENT_NL», T.«_CPP_COMMENT_NL», T.«_CPP_COMMENT_NL», T.«_CPP_COMMENT_NL», T.«_CPP_COMMENT_NL», T.«_CPP_COMMENT_NL», T.«_CPP_COMMENT_NL», T.«_CPP_COMMENT_NL», T.«_CPP_COMMENT_NL», T.«_CPP_COMMENT_NL»], "decorator", false, [(1, false, 0)], 0⟩,
  ⟨N.«decorator», [T.«AT», T.«__ANON_2», T.«LPAR», T.«_CPP_COMMENT_NL», T.«RPAR», T.«_CPP_COMMENT_NL», T.«_CPP_COMMENT_NL», T.«_CPP_COMMENT_NL»], "decorator", false, [(1, false, 0)], 0⟩,
  ⟨N.«decorator», [T.«AT», T.«__ANON_2», T.«LPAR», T.«_CPP_COMMENT_NL», T.«RPAR», T.«_CPP_COMMENT_NL», T.«_CPP_COMMENT_NL», T.«_CPP_COMMENT_NL», T.«_CPP_COMMENT_NL», T.«_CPP_COMMENT_NL», T.«_CPP_COMMENT_NL», T.«_CPP_COMMENT_NL»], "decorator", false, [(1, false, 0)], 0⟩,
  ⟨N.«decorator», [T.«AT», T.«__ANON_2», T.«LPAR», N.«value_brackets», T.«_CPP_COMMENT_NL», T.«RPAR»], "decorator", false, [(1, false, 0), (3, false, 0)], 0⟩,
  ⟨N.«decorator», [T.«AT», T.«__ANON_2», T.«LPAR», N.«value_brackets», T.«_CPP_COMMENT_NL», T.«RPAR», T.«_CPP_COMMENT_NL», T.«_CPP_COMMENT_NL», T.«_CPP_COMMENT_NL», T.«_CPP_COMMENT_NL»], "decorator", false, [(1, false, 0), (3, false, 0)], 0⟩,
  ⟨N.«decorator», [T.«AT», T.«__ANON_2», T.«LPAR», N.«value_brackets», T.«_CPP_COMMENT_NL», T.«RPAR», T.«_CPP_COMMENT_NL», T.«_CPP_COMMENT_NL», T.«_CPP_COMMENT_NL», T.«_CPP_COMMENT_NL», T.«_CPP_COMMENT_NL», T.«_CPP_COMMENT_NL», T.«_CPP_COMMENT_NL», T.«_CPP_COMMENT_NL»], "decorator", false, [(1, false, 0), (3, false, 0)], 0⟩,
  ⟨N.«decorator», [T.«AT», T.«__ANON_2», T.«LPAR», N.«value_brackets», T.«RPAR», T.«_CPP_COMMENT_NL»], "decorator", false, [(1, false, 0), (3, false, 0)], 0⟩,
  ⟨N.«decorator», [T.«AT», T.«__ANON_2», T.«LPAR», N.«value_brackets», T.«RPAR», T.«_CPP_COMMENT_NL», T.«_CPP_COMMENT_NL», T.«_CPP_COMMENT_NL», T.«_CPP_COMMENT_NL», T.«_CPP_COMMENT_NL»], "decorator", false, [(1, false, 0), (3, false, 0)], 0⟩,
  ⟨N.«decorator», [T.«AT», T.«__ANON_2», T.«LPAR», N.«value_brackets», T.«RPAR», T.«_CPP_COMMENT_NL», T.«_CPP_COMMENT_NL», T.«_CPP_COMMENT_NL», T.«_CPP_COMMENT_NL», T.«_CPP_COMMENT_NL», T.«_CPP_COMMENT_NL», T.«_CPP_COMMENT_NL», T.«_CPP_COMMENT_NL», T.«_CPP_COMMENT_NL»], "decorator", false, [(1, false, 0), (3, false, 0)], 0⟩,
  ⟨N.«decorator», [T.«AT», T.«__ANON_2», T.«LPAR», T.«RPAR», T.«_CPP_COMMENT_NL», T.«_CPP_COMMENT_NL»], "decorator", false, [(1, false, 0)], 0⟩,
  ⟨N.«decorator», [T.«AT», T.«__ANON_2», T.«LPAR», T.«RPAR», T.«_CPP_COMMENT_NL», T.«_CPP_COMMENT_NL», T.«_CPP_COMMENT_NL», T.«_CPP_COMMENT_NL», T.«_CPP_COMMENT_NL», T.«_CPP_COMMENT_NL»], "decorator", false, [(1, false, 0)], 0⟩,
  ⟨N.«decorator», [T.«AT», T.«__ANON_2», T.«LPAR», T.«RPAR», T.«_CPP_COMMENT_NL», T.«_CPP_COMMENT_NL», T.«_CPP_COMMENT_NL», T.«_CPP_COMMENT_NL», T.«_CPP_COMMENT_NL», T.«_CPP_COMMENT_NL», T.«_CPP_COMMENT_NL», T.«_CPP_COMMENT_NL», T.«_CPP_COMMENT_NL», T.«_CPP_COMMENT_NL»], "decorator", false, [(1, false, 0)], 0⟩,
  ⟨N.«function», [T.«FUNCTION», T.«_CPP_COMMENT_NL», N.«value_brackets», T.«_CPP_COMMENT_NL», T.«RPAR»], "function", false, [(0, false, 0), (2, false, 0)], 0⟩,
  ⟨N.«function», [T.«FUNCTION», T.«_CPP_COMMENT_NL», T.«_CPP_COMMENT_NL», T.«RPAR»], "function", false, [(0, false, 0)], 0⟩,
  ⟨N.«function», [T.«FUNCTION», N.«value_brackets», T.«_CPP_COMMENT_NL», T.«RPAR»], "function", false, [(0, false, 0), (1, false, 0)], 0⟩,
  ⟨N.«function», [T.«FUNCTION», T.«RPAR»], "function", false, [(0, false, 0)], 0⟩,
  ⟨N.«operator», [N.«operator_accessor»], "operator", false, [(0, false, 0)], 0⟩,
  ⟨N.«operator_comparison», [N.«less_than»], "operator_comparison", true, [(0, false, 0)], 0⟩,
  ⟨N.«operator_comparison», [N.«not_equals_case_insens»], "operator_comparison", true, [(0, false, 0)], 0⟩,
  ⟨N.«less_than», [N.«value_brackets», T.«LESSTHAN», N.«value_brackets»], "less_than", false, [(0, false, 0), (2, false, 0)], 0⟩,
  ⟨N.«not_equals_case_insens», [N.«value_brackets», T.«__ANON_8», N.«value_brackets»], "not_equals_case_insens", false, [(0, false, 0), (2, false, 0)], 0⟩,
  ⟨N.«operator_logical», [N.«coalesce»], "operator_logical", true, [(0, false, 0)], 0⟩,
  ⟨N.«not_op», [T.«BANG», N.«value_brackets»], "not_op", false, [(1, false, 0)], 0⟩,
  ⟨N.«operator_numeric», [N.«divide»], "operator_numeric", true, [(0, false, 0)], 0⟩,
  ⟨N.«operator_numeric», [N.«substract»], "operator_numeric", true, [(0, false, 0)], 0⟩,
  ⟨N.«modulo», [N.«value_brackets», T.«PERCENT», N.«value_brackets»], "modulo", false, [(0, false, 0), (2, false, 0)], 0⟩,
  ⟨N.«operator_accessor», [N.«function_accessor»], "operator_accessor", true, [(0, false, 0)], 0⟩,
  ⟨N.«index_accessor», [N.«value_brackets», T.«LSQB», N.«value_brackets», T.«RSQB»], "index_accessor", false, [(0, false, 0), (2, false, 0)], 0⟩,
  ⟨N.«property_accessor», [N.«value_brackets», T.«DOT», T.«QMARK», N.«value_brackets»], "property_accessor", false, [(0, false, 0), (3, false, 0)], 0⟩,
  ⟨N.«__start_star_0», [T.«_CPP_COMMENT_NL»], "__start_star_0", false, [], 0⟩,
  ⟨N.«___import_statement_star_1», [T.«COMMA», N.«import_alias»], "___import_statement_star_1", false, [(1, false, 0)], 0⟩,
  ⟨N.«__child_resource_plus_3», [T.«_CPP_COMMENT_NL»], "__child_resource_plus_3", false, [], 0⟩,
  ⟨N.«__data_type_star_5», [N.«array_suffix»], "__data_type_star_5", false, [(0, false, 0)], 0⟩,
  ⟨N.«__array_star_7», [T.«COMMA», N.«value_brackets»], "__array_star_7", false, [(1, false, 0)], 0⟩,
  ⟨N.«__array_star_8», [N.«value_brackets», N.«__child_resource_plus_3»], "__array_star_8", false, [(0, false, 0), (1, true, 0)], 0⟩,
  ⟨N.«__array_star_8», [N.«__array_star_8», N.«value_brackets», N.«__child_resource_plus_3»], "__array_star_8", false, [(0, true, 0), (1, false, 0), (2, true, 0)], 0⟩,
  ⟨N.«__object_star_10», [N.«pair», N.«__object_star_9», N.«__child_resource_plus_3»], "__object_star_10", false, [(0, false, 0), (1, true, 0), (2, true, 0)], 0⟩,
  ⟨N.«__object_star_10», [N.«child_resource», N.«__child_resource_plus_3»], "__object_star_10", false, [(0, false, 0), (1, true, 0)], 0⟩,
  ⟨N.«__object_star_10», [N.«__object_star_10», N.«pair», N.«__child_resource_plus_3»], "__object_star_10", false, [(0, true, 0), (1, false, 0), (2, true, 0)], 0⟩,
  ⟨N.«__decorators_plus_11», [N.«decorator»], "__decorators_plus_11", false, [(0, false, 0)], 0⟩,
  ⟨N.«__function_star_12», [N.«__function_star_12», T.«COMMA», T.«_CPP_COMMENT_NL», N.«value_brackets»], "__function_star_12", false, [(0, true, 0), (3, false, 0)], 0⟩,
  ⟨N.«__function_accessor_plus_13», [N.«__function_accessor_plus_13», T.«COMMA», N.«value_brackets»], "__function_accessor_plus_13", false, [(0, true, 0), (2, false, 0)], 0⟩]

theorem ok2 : ∀ r ∈ list2, RuleOK r := by
  simp only [list2, List.forall_mem_cons]
  exact ⟨r_2, r_6, r_10, r_14, r_18, r_22, r_26, r_30, r_34, r_38, r_42, r_46, r_50, r_54, r_58, r_62, r_66, r_70, r_74, r_78, r_82, r_86, r_90, r_94, r_98, r_102, r_106, r_110, r_114, r_118, r_122, r_126, r_130, r_134, r_138, r_142, r_146, r_150, r_154, r_158, r_162, r_166, r_170, r_174, r_178, r_182, r_186, r_190, r_194, r_198, r_202, r_206, r_210, r_214, r_218, r_222, r_226, r_230, r_234, r_238, r_242, r_246, r_250, r_254, r_258, r_262, r_266, r_270, r_274, r_278, r_282, r_286, r_290, r_294, r_298, r_302, r_306, r_310, r_314, r_318, r_322, r_326, r_330, r_334, r_338, r_342, fun _ h => nomatch h⟩

end Pycep.SynRules
