import Verif.Proofs.SynBase
/-
GENERATED by tools/gen_syntax_proofs.py.
The trees and tokens of derivations are those of syntax: one case per grammar rule.
-/
set_option linter.all false
namespace Pycep.SynRules
theorem r_3 : RuleOK ⟨N.«element», [T.«IMPORT», N.«_import_statement»], "custom_import", false, [(1, true, 0)], 0⟩ := by
  refine ruleOK_node ?_
  intro cs w n l h hc hl
  obtain ⟨c0, cs, w0, w, rfl, rfl, h0, h⟩ := fitsW_cons.mp h
  obtain ⟨c1, rfl, h1⟩ := fitsW_one.mp h
  rename' w => w1
  obtain ⟨u0, rfl, rfl, k0⟩ := shw_IMPORT h0
  · rcases h1 with ⟨b, q, e, rfl, k1⟩ | ⟨i, b, w1, f, q, e, rfl, k1, k2, k3⟩ |
      ⟨i, is, b, o, w1, w2, c', f, q, e, rfl, k1, k2, k3, k4, k5, k6⟩
    · exact ⟨l, .importNs b, (by simp only [keepKids', List.flatMap_cons, List.flatMap_nil, List.replicate_zero, List.replicate_succ, List.getElem?_cons_zero, List.getElem?_cons_succ, Bool.false_eq_true, if_true, if_false, List.append_nil, List.nil_append, List.cons_append, List.append_assoc, w_kids_mkCore, e] <;> rfl), .importNs k0 k1, hl rfl⟩
    · exact ⟨l, .importFrom i [] b, (by simp only [keepKids', List.flatMap_cons, List.flatMap_nil, List.replicate_zero, List.replicate_succ, List.getElem?_cons_zero, List.getElem?_cons_succ, Bool.false_eq_true, if_true, if_false, List.append_nil, List.nil_append, List.cons_append, List.append_assoc, w_kids_mkCore, e] <;> rfl), .importOne k0 k1 k2 k3, hl rfl⟩
    · exact ⟨l, .importFrom i is b, (by simp only [keepKids', List.flatMap_cons, List.flatMap_nil, List.replicate_zero, List.replicate_succ, List.getElem?_cons_zero, List.getElem?_cons_succ, Bool.false_eq_true, if_true, if_false, List.append_nil, List.nil_append, List.cons_append, List.append_assoc, w_kids_mkCore, e] <;> rfl), .importList k0 k1 k2 k3 k4 k5 k6, hl rfl⟩

theorem r_7 : RuleOK ⟨N.«element», [T.«EXTENSION», T.«STRING»], "extension", false, [(1, false, 0)], 2⟩ := by
  refine ruleOK_node ?_
  intro cs w n l h hc hl
  obtain ⟨c0, cs, w0, w, rfl, rfl, h0, h⟩ := fitsW_cons.mp h
  obtain ⟨c1, rfl, h1⟩ := fitsW_one.mp h
  rename' w => w1
  obtain ⟨u0, rfl, rfl, k0⟩ := shw_EXTENSION h0
  obtain ⟨x1, u1, rfl, rfl, k1⟩ := shw_STRING h1
  exact ⟨l, .extension x1 .none .none, rfl, (by have := DeclSyn.extension (w1 := []) (w2 := []) (n := n) k0 k1 .no .no; simpa only [List.append_assoc, List.nil_append, List.append_nil, List.cons_append, nextT_append, nextT_cons, nextT_nil] using this), hl rfl⟩

theorem r_11 : RuleOK ⟨N.«element», [N.«decorators», T.«PARAM», T.«STRING», N.«data_type», T.«EQUAL», N.«value_brackets»], "param", false, [(0, false, 0), (2, false, 0), (3, false, 0), (5, false, 0)], 0⟩ := by
  refine ruleOK_node ?_
  intro cs w n l h hc hl
  obtain ⟨c0, cs, w0, w, rfl, rfl, h0, h⟩ := fitsW_cons.mp h
  obtain ⟨c1, cs, w1, w, rfl, rfl, h1, h⟩ := fitsW_cons.mp h
  obtain ⟨c2, cs, w2, w, rfl, rfl, h2, h⟩ := fitsW_cons.mp h
  obtain ⟨c3, cs, w3, w, rfl, rfl, h3, h⟩ := fitsW_cons.mp h
  obtain ⟨c4, cs, w4, w, rfl, rfl, h4, h⟩ := fitsW_cons.mp h
  obtain ⟨c5, rfl, h5⟩ := fitsW_one.mp h
  rename' w => w5
  obtain ⟨x0, y0, rfl, k0⟩ := h0
  obtain ⟨u1, rfl, rfl, k1⟩ := shw_PARAM h1
  obtain ⟨x2, u2, rfl, rfl, k2⟩ := shw_STRING h2
  obtain ⟨x3, rfl, k3⟩ := h3
  obtain ⟨u4, rfl, rfl, k4⟩ := shw_EQUAL h4
  obtain ⟨x5, rfl, k5⟩ := h5
  exact ⟨l, .param (x0 :: y0) x2 x3 (some x5), rfl, (by have := DeclSyn.param (ds := (x0 :: y0)) (w0 := w0) (w2 := []) (w3 := (u4 :: w5)) (n := n) k0 k1 k2 k3 optMark_none (.yes k4 k5 (hc.noInfix rfl)); simpa only [List.append_assoc, List.nil_append, List.append_nil, List.cons_append, nextT_append, nextT_cons, nextT_nil] using this), hl rfl⟩

theorem r_15 : RuleOK ⟨N.«element», [T.«PARAM», T.«STRING», N.«data_type», T.«EQUAL», N.«value_brackets»], "param", false, [(1, false, 1), (2, false, 0), (4, false, 0)], 0⟩ := by
  refine ruleOK_node ?_
  intro cs w n l h hc hl
  obtain ⟨c0, cs, w0, w, rfl, rfl, h0, h⟩ := fitsW_cons.mp h
  obtain ⟨c1, cs, w1, w, rfl, rfl, h1, h⟩ := fitsW_cons.mp h
  obtain ⟨c2, cs, w2, w, rfl, rfl, h2, h⟩ := fitsW_cons.mp h
  obtain ⟨c3, cs, w3, w, rfl, rfl, h3, h⟩ := fitsW_cons.mp h
  obtain ⟨c4, rfl, h4⟩ := fitsW_one.mp h
  rename' w => w4
  obtain ⟨u0, rfl, rfl, k0⟩ := shw_PARAM h0
  obtain ⟨x1, u1, rfl, rfl, k1⟩ := shw_STRING h1
  obtain ⟨x2, rfl, k2⟩ := h2
  obtain ⟨u3, rfl, rfl, k3⟩ := shw_EQUAL h3
  obtain ⟨x4, rfl, k4⟩ := h4
  exact ⟨l, .param [] x1 x2 (some x4), rfl, (by have := DeclSyn.param (ds := []) (w0 := []) (w2 := []) (w3 := (u3 :: w4)) (n := n) .nil k0 k1 k2 optMark_none (.yes k3 k4 (hc.noInfix rfl)); simpa only [List.append_assoc, List.nil_append, List.append_nil, List.cons_append, nextT_append, nextT_cons, nextT_nil] using this), hl rfl⟩

theorem r_19 : RuleOK ⟨N.«element», [N.«decorators», T.«VAR», T.«STRING», T.«EQUAL», N.«var_value»], "var", false, [(0, false, 0), (2, false, 0), (4, false, 1)], 0⟩ := by
  refine ruleOK_node ?_
  intro cs w n l h hc hl
  obtain ⟨c0, cs, w0, w, rfl, rfl, h0, h⟩ := fitsW_cons.mp h
  obtain ⟨c1, cs, w1, w, rfl, rfl, h1, h⟩ := fitsW_cons.mp h
  obtain ⟨c2, cs, w2, w, rfl, rfl, h2, h⟩ := fitsW_cons.mp h
  obtain ⟨c3, cs, w3, w, rfl, rfl, h3, h⟩ := fitsW_cons.mp h
  obtain ⟨c4, rfl, h4⟩ := fitsW_one.mp h
  rename' w => w4
  obtain ⟨x0, y0, rfl, k0⟩ := h0
  obtain ⟨u1, rfl, rfl, k1⟩ := shw_VAR h1
  obtain ⟨x2, u2, rfl, rfl, k2⟩ := shw_STRING h2
  obtain ⟨u3, rfl, rfl, k3⟩ := shw_EQUAL h3
  obtain ⟨x4, rfl, k4⟩ := h4
  exact ⟨l, .var (x0 :: y0) x2 .none x4, rfl, .var (w0 := w0) (w1 := []) k0 k1 k2 .no k3 k4, hl rfl⟩

theorem r_23 : RuleOK ⟨N.«element», [N.«decorators», T.«OUTPUT», T.«STRING», N.«data_type», T.«QMARK», T.«EQUAL», N.«output_value»], "output", false, [(0, false, 0), (2, false, 0), (3, false, 0), (6, false, 0)], 0⟩ := by
  refine ruleOK_node ?_
  intro cs w n l h hc hl
  obtain ⟨c0, cs, w0, w, rfl, rfl, h0, h⟩ := fitsW_cons.mp h
  obtain ⟨c1, cs, w1, w, rfl, rfl, h1, h⟩ := fitsW_cons.mp h
  obtain ⟨c2, cs, w2, w, rfl, rfl, h2, h⟩ := fitsW_cons.mp h
  obtain ⟨c3, cs, w3, w, rfl, rfl, h3, h⟩ := fitsW_cons.mp h
  obtain ⟨c4, cs, w4, w, rfl, rfl, h4, h⟩ := fitsW_cons.mp h
  obtain ⟨c5, cs, w5, w, rfl, rfl, h5, h⟩ := fitsW_cons.mp h
  obtain ⟨c6, rfl, h6⟩ := fitsW_one.mp h
  rename' w => w6
  obtain ⟨x0, y0, rfl, k0⟩ := h0
  obtain ⟨u1, rfl, rfl, k1⟩ := shw_OUTPUT h1
  obtain ⟨x2, u2, rfl, rfl, k2⟩ := shw_STRING h2
  obtain ⟨x3, rfl, k3⟩ := h3
  obtain ⟨u4, rfl, rfl, k4⟩ := shw_QMARK h4
  obtain ⟨u5, rfl, rfl, k5⟩ := shw_EQUAL h5
  obtain ⟨x6, rfl, k6⟩ := h6
  exact ⟨l, .output (x0 :: y0) x2 x3 x6, rfl, .output (w0 := w0) (w2 := [u4]) k0 k1 k2 k3 (optMark_some k4) k5 k6, hl rfl⟩

theorem r_27 : RuleOK ⟨N.«element», [N.«decorators», T.«RESOURCE», T.«STRING», N.«type_api_pair», T.«EXISTING», T.«EQUAL», N.«resource_value»], "resource", false, [(0, false, 0), (2, false, 0), (3, false, 0), (4, false, 0), (6, false, 0)], 0⟩ := by
  refine ruleOK_node ?_
  intro cs w n l h hc hl
  obtain ⟨c0, cs, w0, w, rfl, rfl, h0, h⟩ := fitsW_cons.mp h
  obtain ⟨c1, cs, w1, w, rfl, rfl, h1, h⟩ := fitsW_cons.mp h
  obtain ⟨c2, cs, w2, w, rfl, rfl, h2, h⟩ := fitsW_cons.mp h
  obtain ⟨c3, cs, w3, w, rfl, rfl, h3, h⟩ := fitsW_cons.mp h
  obtain ⟨c4, cs, w4, w, rfl, rfl, h4, h⟩ := fitsW_cons.mp h
  obtain ⟨c5, cs, w5, w, rfl, rfl, h5, h⟩ := fitsW_cons.mp h
  obtain ⟨c6, rfl, h6⟩ := fitsW_one.mp h
  rename' w => w6
  obtain ⟨x0, y0, rfl, k0⟩ := h0
  obtain ⟨u1, rfl, rfl, k1⟩ := shw_RESOURCE h1
  obtain ⟨x2, u2, rfl, rfl, k2⟩ := shw_STRING h2
  obtain ⟨x3, u3, rfl, rfl, k3⟩ := h3
  obtain ⟨u4, rfl, rfl, k4⟩ := shw_EXISTING h4
  obtain ⟨u5, rfl, rfl, k5⟩ := shw_EQUAL h5
  obtain ⟨x6, rfl, k6⟩ := h6
  exact ⟨l, .resource (x0 :: y0) x2 x3 true x6, rfl, .resource (w0 := w0) (w1 := [u4]) k0 k1 k2 k3 (.yes k4) k5 k6, hl rfl⟩

theorem r_31 : RuleOK ⟨N.«element», [N.«decorators», T.«MODULE», T.«STRING», N.«module_path», T.«EQUAL», N.«module_value»], "module", false, [(0, false, 0), (2, false, 0), (3, false, 0), (5, false, 0)], 0⟩ := by
  refine ruleOK_node ?_
  intro cs w n l h hc hl
  obtain ⟨c0, cs, w0, w, rfl, rfl, h0, h⟩ := fitsW_cons.mp h
  obtain ⟨c1, cs, w1, w, rfl, rfl, h1, h⟩ := fitsW_cons.mp h
  obtain ⟨c2, cs, w2, w, rfl, rfl, h2, h⟩ := fitsW_cons.mp h
  obtain ⟨c3, cs, w3, w, rfl, rfl, h3, h⟩ := fitsW_cons.mp h
  obtain ⟨c4, cs, w4, w, rfl, rfl, h4, h⟩ := fitsW_cons.mp h
  obtain ⟨c5, rfl, h5⟩ := fitsW_one.mp h
  rename' w => w5
  obtain ⟨x0, y0, rfl, k0⟩ := h0
  obtain ⟨u1, rfl, rfl, k1⟩ := shw_MODULE h1
  obtain ⟨x2, u2, rfl, rfl, k2⟩ := shw_STRING h2
  obtain ⟨x3, u3, rfl, rfl, k3⟩ := h3
  obtain ⟨u4, rfl, rfl, k4⟩ := shw_EQUAL h4
  obtain ⟨x5, rfl, k5⟩ := h5
  exact ⟨l, .module (x0 :: y0) x2 x3 x5, rfl, .module (w0 := w0) k0 k1 k2 k3 k4 k5, hl rfl⟩

theorem r_35 : RuleOK ⟨N.«element», [N.«decorators», T.«FUNC», N.«_func_statement»], "custom_func", false, [(0, false, 0), (2, true, 0)], 0⟩ := by
  refine ruleOK_node ?_
  intro cs w n l h hc hl
  obtain ⟨c0, cs, w0, w, rfl, rfl, h0, h⟩ := fitsW_cons.mp h
  obtain ⟨c1, cs, w1, w, rfl, rfl, h1, h⟩ := fitsW_cons.mp h
  obtain ⟨c2, rfl, h2⟩ := fitsW_one.mp h
  rename' w => w2
  obtain ⟨x0, y0, rfl, k0⟩ := h0
  obtain ⟨u1, rfl, rfl, k1⟩ := shw_FUNC h1
  obtain ⟨x2, ps2, t2, e2, v2, p2, a2, o2, b2, r2, c2', q2, rfl, j1, j2, j3, j4, j5, j6, j7, j8⟩ := h2
  exact ⟨l, .func (x0 :: y0) x2 ps2 t2 e2, (by simp only [keepKids', List.flatMap_cons, List.flatMap_nil, List.replicate_zero, List.replicate_succ, List.getElem?_cons_zero, List.getElem?_cons_succ, Bool.false_eq_true, if_true, if_false, List.append_nil, List.nil_append, List.cons_append, List.append_assoc, w_kids_mkCore, q2] <;> rfl), .func (w0 := w0) k0 k1 j1 j2 j3 j4 j5 j6 j7 j8, hl rfl⟩

theorem r_39 : RuleOK ⟨N.«value», [T.«_NEWLINE», T.«TRUE»], "true", false, [], 0⟩ := by
  refine ruleOK_node ?_
  intro cs w n l h hc hl
  obtain ⟨c0, cs, w0, w, rfl, rfl, h0, h⟩ := fitsW_cons.mp h
  obtain ⟨c1, rfl, h1⟩ := fitsW_one.mp h
  rename' w => w1
  obtain ⟨u0, rfl, k0⟩ := shw__NEWLINE h0
  obtain ⟨u1, rfl, rfl, k1⟩ := shw_TRUE h1
  exact ⟨.tru, rfl, .tru (w := [u0]) (optNewline_some k0) k1⟩

theorem r_43 : RuleOK ⟨N.«value», [T.«_NEWLINE», T.«INT»], "int_type", false, [(1, false, 0)], 0⟩ := by
  refine ruleOK_node ?_
  intro cs w n l h hc hl
  obtain ⟨c0, cs, w0, w, rfl, rfl, h0, h⟩ := fitsW_cons.mp h
  obtain ⟨c1, rfl, h1⟩ := fitsW_one.mp h
  rename' w => w1
  obtain ⟨u0, rfl, k0⟩ := shw__NEWLINE h0
  obtain ⟨x1, u1, rfl, rfl, k1⟩ := shw_INT h1
  exact ⟨.int x1, rfl, .int (w := [u0]) (optNewline_some k0) k1⟩

theorem r_47 : RuleOK ⟨N.«value», [T.«_NEWLINE», T.«QUOTED_INTERPOLATION»], "string", false, [(1, false, 0)], 0⟩ := by
  refine ruleOK_node ?_
  intro cs w n l h hc hl
  obtain ⟨c0, cs, w0, w, rfl, rfl, h0, h⟩ := fitsW_cons.mp h
  obtain ⟨c1, rfl, h1⟩ := fitsW_one.mp h
  rename' w => w1
  obtain ⟨u0, rfl, k0⟩ := shw__NEWLINE h0
  obtain ⟨x1, u1, rfl, rfl, k1⟩ := shw_QUOTED_INTERPOLATION h1
  exact ⟨.str x1, rfl, .str (w := [u0]) (optNewline_some k0) k1⟩

theorem r_51 : RuleOK ⟨N.«value», [N.«object»], "value", true, [(0, false, 0)], 0⟩ := by
  refine ruleOK_ex ?_
  intro cs w n h hc
  obtain ⟨c0, rfl, h0⟩ := fitsW_one.mp h
  rename' w => w0
  obtain ⟨x0, rfl, k0⟩ := h0
  exact ⟨_, rfl, w_expr_nometa (.object x0), .object x0, rfl, .object k0⟩

theorem r_55 : RuleOK ⟨N.«value», [N.«lambda_expression»], "value", true, [(0, false, 0)], 0⟩ := by
  refine ruleOK_ex ?_
  intro cs w n h hc
  obtain ⟨c0, rfl, h0⟩ := fitsW_one.mp h
  rename' w => w0
  obtain ⟨x0, rfl, k0⟩ := h0
  exact ⟨_, rfl, w_expr_nometa x0, x0, rfl, k0⟩

theorem r_59 : RuleOK ⟨N.«value_brackets», [T.«LPAR», N.«value», T.«RPAR»], "value_brackets", true, [(1, false, 0)], 0⟩ := by
  refine ruleOK_ex ?_
  intro cs w n h hc
  obtain ⟨c0, cs, w0, w, rfl, rfl, h0, h⟩ := fitsW_cons.mp h
  obtain ⟨c1, cs, w1, w, rfl, rfl, h1, h⟩ := fitsW_cons.mp h
  obtain ⟨c2, rfl, h2⟩ := fitsW_one.mp h
  rename' w => w2
  obtain ⟨u0, rfl, rfl, k0⟩ := shw_LPAR h0
  obtain ⟨x1, rfl, k1⟩ := h1
  obtain ⟨u2, rfl, rfl, k2⟩ := shw_RPAR h2
  exact ⟨_, rfl, w_expr_nometa x1, x1, rfl, .paren k0 k1 k2 (hc.noBang rfl (by decide))⟩

theorem r_63 : RuleOK ⟨N.«_import_statement», [T.«QUOTED_INTERPOLATION»], "_import_statement", false, [(0, false, 0)], 0⟩ := by
  refine ruleOK_node ?_
  intro cs w n l h hc hl
  obtain ⟨c0, rfl, h0⟩ := fitsW_one.mp h
  rename' w => w0
  obtain ⟨x0, u0, rfl, rfl, k0⟩ := shw_QUOTED_INTERPOLATION h0
  exact .inl ⟨x0, u0, rfl, rfl, k0⟩

theorem r_67 : RuleOK ⟨N.«var_value», [N.«value_brackets»], "var_value", true, [(0, false, 0)], 0⟩ := by
  refine ruleOK_ex ?_
  intro cs w n h hc
  obtain ⟨c0, rfl, h0⟩ := fitsW_one.mp h
  rename' w => w0
  obtain ⟨x0, rfl, k0⟩ := h0
  exact ⟨_, rfl, w_expr_nometa x0, .expr x0, rfl, .expr k0 (hc.noInfix rfl)⟩

theorem r_71 : RuleOK ⟨N.«output_value», [N.«loop»], "output_value", true, [(0, false, 0)], 0⟩ := by
  refine ruleOK_ex ?_
  intro cs w n h hc
  obtain ⟨c0, rfl, h0⟩ := fitsW_one.mp h
  rename' w => w0
  obtain ⟨x0, rfl, k0⟩ := h0
  exact ⟨_, rfl, w_loop_nometa x0, .loop x0, rfl, .loop k0⟩

theorem r_75 : RuleOK ⟨N.«module_value», [N.«object»], "module_value", true, [(0, false, 0)], 0⟩ := by
  refine ruleOK_ex ?_
  intro cs w n h hc
  obtain ⟨c0, rfl, h0⟩ := fitsW_one.mp h
  rename' w => w0
  obtain ⟨x0, rfl, k0⟩ := h0
  exact ⟨_, rfl, w_expr_nometa (.object x0), .obj x0, rfl, .obj k0⟩

theorem r_79 : RuleOK ⟨N.«child_resource», [T.«RESOURCE», T.«STRING», T.«QUOTED_INTERPOLATION», T.«EXISTING», T.«EQUAL», N.«loop», N.«__child_resource_plus_3»], "child_resource", false, [(1, false, 0), (2, false, 0), (3, false, 0), (5, false, 0), (6, true, 0)], 0⟩ := by
  refine ruleOK_node ?_
  intro cs w n l h hc hl
  obtain ⟨c0, cs, w0, w, rfl, rfl, h0, h⟩ := fitsW_cons.mp h
  obtain ⟨c1, cs, w1, w, rfl, rfl, h1, h⟩ := fitsW_cons.mp h
  obtain ⟨c2, cs, w2, w, rfl, rfl, h2, h⟩ := fitsW_cons.mp h
  obtain ⟨c3, cs, w3, w, rfl, rfl, h3, h⟩ := fitsW_cons.mp h
  obtain ⟨c4, cs, w4, w, rfl, rfl, h4, h⟩ := fitsW_cons.mp h
  obtain ⟨c5, cs, w5, w, rfl, rfl, h5, h⟩ := fitsW_cons.mp h
  obtain ⟨c6, rfl, h6⟩ := fitsW_one.mp h
  rename' w => w6
  obtain ⟨u0, rfl, rfl, k0⟩ := shw_RESOURCE h0
  obtain ⟨x1, u1, rfl, rfl, k1⟩ := shw_STRING h1
  obtain ⟨x2, u2, rfl, rfl, k2⟩ := shw_QUOTED_INTERPOLATION h2
  obtain ⟨u3, rfl, rfl, k3⟩ := shw_EXISTING h3
  obtain ⟨u4, rfl, rfl, k4⟩ := shw_EQUAL h4
  obtain ⟨x5, rfl, k5⟩ := h5
  obtain ⟨q6, k6, m6⟩ := h6
  exact ⟨.child l x1 x2 true (.loop x5), (by simp only [keepKids', List.flatMap_cons, List.flatMap_nil, List.replicate_zero, List.replicate_succ, List.getElem?_cons_zero, List.getElem?_cons_succ, Bool.false_eq_true, if_true, if_false, List.append_nil, List.nil_append, List.cons_append, List.append_assoc, w_kids_mkCore, q6] <;> rfl), .mk (w1 := [u3]) (w2 := w5) (w3 := w6) k0 k1 k2 (.yes k3) k4 (.loop k5) k6 m6 (hc.childNL rfl) (hl rfl)⟩

theorem r_83 : RuleOK ⟨N.«child_resource», [T.«RESOURCE», T.«STRING», T.«QUOTED_INTERPOLATION», T.«EQUAL», N.«deploy_condition», N.«__child_resource_plus_3»], "child_resource", false, [(1, false, 0), (2, false, 0), (4, false, 1), (5, true, 0)], 0⟩ := by
  refine ruleOK_node ?_
  intro cs w n l h hc hl
  obtain ⟨c0, cs, w0, w, rfl, rfl, h0, h⟩ := fitsW_cons.mp h
  obtain ⟨c1, cs, w1, w, rfl, rfl, h1, h⟩ := fitsW_cons.mp h
  obtain ⟨c2, cs, w2, w, rfl, rfl, h2, h⟩ := fitsW_cons.mp h
  obtain ⟨c3, cs, w3, w, rfl, rfl, h3, h⟩ := fitsW_cons.mp h
  obtain ⟨c4, cs, w4, w, rfl, rfl, h4, h⟩ := fitsW_cons.mp h
  obtain ⟨c5, rfl, h5⟩ := fitsW_one.mp h
  rename' w => w5
  obtain ⟨u0, rfl, rfl, k0⟩ := shw_RESOURCE h0
  obtain ⟨x1, u1, rfl, rfl, k1⟩ := shw_STRING h1
  obtain ⟨x2, u2, rfl, rfl, k2⟩ := shw_QUOTED_INTERPOLATION h2
  obtain ⟨u3, rfl, rfl, k3⟩ := shw_EQUAL h3
  obtain ⟨x4, y4, rfl, k4⟩ := h4
  obtain ⟨q5, k5, m5⟩ := h5
  exact ⟨.child l x1 x2 false (.cond x4 y4), (by simp only [keepKids', List.flatMap_cons, List.flatMap_nil, List.replicate_zero, List.replicate_succ, List.getElem?_cons_zero, List.getElem?_cons_succ, Bool.false_eq_true, if_true, if_false, List.append_nil, List.nil_append, List.cons_append, List.append_assoc, w_kids_mkCore, q5] <;> rfl), .mk (w1 := []) (w2 := w4) (w3 := w5) k0 k1 k2 .no k3 k4 k5 m5 (hc.childNL rfl) (hl rfl)⟩

theorem r_87 : RuleOK ⟨N.«data_type», [N.«base_type»], "data_type", false, [(0, false, 0)], 0⟩ := by
  refine ruleOK_node ?_
  intro cs w n l h hc hl
  obtain ⟨c0, rfl, h0⟩ := fitsW_one.mp h
  rename' w => w0
  obtain ⟨x0, rfl, k0⟩ := h0
  exact ⟨.mk x0 0, rfl, by simpa using TypeSyn.mk k0 .zero⟩

theorem r_91 : RuleOK ⟨N.«array_suffix», [T.«LSQB», T.«RSQB»], "array_suffix", false, [], 0⟩ := by
  refine ruleOK_node ?_
  intro cs w n l h hc hl
  obtain ⟨c0, cs, w0, w, rfl, rfl, h0, h⟩ := fitsW_cons.mp h
  obtain ⟨c1, rfl, h1⟩ := fitsW_one.mp h
  rename' w => w1
  obtain ⟨u0, rfl, rfl, k0⟩ := shw_LSQB h0
  obtain ⟨u1, rfl, rfl, k1⟩ := shw_RSQB h1
  exact ⟨rfl, u0, u1, rfl, k0, k1⟩

theorem r_95 : RuleOK ⟨N.«import_alias», [T.«STRING»], "import_alias", false, [(0, false, 0)], 1⟩ := by
  refine ruleOK_node ?_
  intro cs w n l h hc hl
  obtain ⟨c0, rfl, h0⟩ := fitsW_one.mp h
  rename' w => w0
  obtain ⟨x0, u0, rfl, rfl, k0⟩ := shw_STRING h0
  exact ⟨⟨.name x0, .none⟩, rfl, .name k0⟩

theorem r_99 : RuleOK ⟨N.«loop», [T.«LSQB», T.«_CPP_COMMENT_NL», T.«FOR», N.«loop_array», T.«COLON», N.«value_brackets», N.«value_brackets», T.«RSQB»], "loop", false, [(3, false, 0), (5, false, 0), (6, false, 0)], 0⟩ := by
  refine ruleOK_node ?_
  intro cs w n l h hc hl
  obtain ⟨c0, cs, w0, w, rfl, rfl, h0, h⟩ := fitsW_cons.mp h
  obtain ⟨c1, cs, w1, w, rfl, rfl, h1, h⟩ := fitsW_cons.mp h
  obtain ⟨c2, cs, w2, w, rfl, rfl, h2, h⟩ := fitsW_cons.mp h
  obtain ⟨c3, cs, w3, w, rfl, rfl, h3, h⟩ := fitsW_cons.mp h
  obtain ⟨c4, cs, w4, w, rfl, rfl, h4, h⟩ := fitsW_cons.mp h
  obtain ⟨c5, cs, w5, w, rfl, rfl, h5, h⟩ := fitsW_cons.mp h
  obtain ⟨c6, cs, w6, w, rfl, rfl, h6, h⟩ := fitsW_cons.mp h
  obtain ⟨c7, rfl, h7⟩ := fitsW_one.mp h
  rename' w => w7
  obtain ⟨u0, rfl, rfl, k0⟩ := shw_LSQB h0
  obtain ⟨u1, rfl, k1⟩ := shw__CPP_COMMENT_NL h1
  obtain ⟨u2, rfl, rfl, k2⟩ := shw_FOR h2
  obtain ⟨x3, rfl, k3⟩ := h3
  obtain ⟨u4, rfl, rfl, k4⟩ := shw_COLON h4
  obtain ⟨x5, rfl, k5⟩ := h5
  obtain ⟨x6, rfl, k6⟩ := h6
  obtain ⟨u7, rfl, rfl, k7⟩ := shw_RSQB h7
  exact ⟨.mk x3 (some x5) x6, rfl, .filter (w1 := [u1]) (w4 := []) k0 (optBreak_some k1) k2 k3 k4 (by have := k5; simpa only [List.append_assoc, List.nil_append, List.append_nil, List.cons_append, nextT_append, nextT_cons, nextT_nil] using this) k6 optBreak_none k7⟩

theorem r_103 : RuleOK ⟨N.«loop», [T.«LSQB», T.«_CPP_COMMENT_NL», T.«FOR», N.«loop_array_index», T.«COLON», N.«value_brackets», N.«value_brackets», T.«RSQB»], "loop", false, [(3, false, 0), (5, false, 0), (6, false, 0)], 0⟩ := by
  refine ruleOK_node ?_
  intro cs w n l h hc hl
  obtain ⟨c0, cs, w0, w, rfl, rfl, h0, h⟩ := fitsW_cons.mp h
  obtain ⟨c1, cs, w1, w, rfl, rfl, h1, h⟩ := fitsW_cons.mp h
  obtain ⟨c2, cs, w2, w, rfl, rfl, h2, h⟩ := fitsW_cons.mp h
  obtain ⟨c3, cs, w3, w, rfl, rfl, h3, h⟩ := fitsW_cons.mp h
  obtain ⟨c4, cs, w4, w, rfl, rfl, h4, h⟩ := fitsW_cons.mp h
  obtain ⟨c5, cs, w5, w, rfl, rfl, h5, h⟩ := fitsW_cons.mp h
  obtain ⟨c6, cs, w6, w, rfl, rfl, h6, h⟩ := fitsW_cons.mp h
  obtain ⟨c7, rfl, h7⟩ := fitsW_one.mp h
  rename' w => w7
  obtain ⟨u0, rfl, rfl, k0⟩ := shw_LSQB h0
  obtain ⟨u1, rfl, k1⟩ := shw__CPP_COMMENT_NL h1
  obtain ⟨u2, rfl, rfl, k2⟩ := shw_FOR h2
  obtain ⟨x3, rfl, k3⟩ := h3
  obtain ⟨u4, rfl, rfl, k4⟩ := shw_COLON h4
  obtain ⟨x5, rfl, k5⟩ := h5
  obtain ⟨x6, rfl, k6⟩ := h6
  obtain ⟨u7, rfl, rfl, k7⟩ := shw_RSQB h7
  exact ⟨.mk x3 (some x5) x6, rfl, .filter (w1 := [u1]) (w4 := []) k0 (optBreak_some k1) k2 k3 k4 (by have := k5; simpa only [List.append_assoc, List.nil_append, List.append_nil, List.cons_append, nextT_append, nextT_cons, nextT_nil] using this) k6 optBreak_none k7⟩

theorem r_107 : RuleOK ⟨N.«loop», [T.«LSQB», T.«_CPP_COMMENT_NL», T.«FOR», N.«loop_object», T.«COLON», N.«value_brackets», N.«value_brackets», T.«RSQB»], "loop", false, [(3, false, 0), (5, false, 0), (6, false, 0)], 0⟩ := by
  refine ruleOK_node ?_
  intro cs w n l h hc hl
  obtain ⟨c0, cs, w0, w, rfl, rfl, h0, h⟩ := fitsW_cons.mp h
  obtain ⟨c1, cs, w1, w, rfl, rfl, h1, h⟩ := fitsW_cons.mp h
  obtain ⟨c2, cs, w2, w, rfl, rfl, h2, h⟩ := fitsW_cons.mp h
  obtain ⟨c3, cs, w3, w, rfl, rfl, h3, h⟩ := fitsW_cons.mp h
  obtain ⟨c4, cs, w4, w, rfl, rfl, h4, h⟩ := fitsW_cons.mp h
  obtain ⟨c5, cs, w5, w, rfl, rfl, h5, h⟩ := fitsW_cons.mp h
  obtain ⟨c6, cs, w6, w, rfl, rfl, h6, h⟩ := fitsW_cons.mp h
  obtain ⟨c7, rfl, h7⟩ := fitsW_one.mp h
  rename' w => w7
  obtain ⟨u0, rfl, rfl, k0⟩ := shw_LSQB h0
  obtain ⟨u1, rfl, k1⟩ := shw__CPP_COMMENT_NL h1
  obtain ⟨u2, rfl, rfl, k2⟩ := shw_FOR h2
  obtain ⟨x3, rfl, k3⟩ := h3
  obtain ⟨u4, rfl, rfl, k4⟩ := shw_COLON h4
  obtain ⟨x5, rfl, k5⟩ := h5
  obtain ⟨x6, rfl, k6⟩ := h6
  obtain ⟨u7, rfl, rfl, k7⟩ := shw_RSQB h7
  exact ⟨.mk x3 (some x5) x6, rfl, .filter (w1 := [u1]) (w4 := []) k0 (optBreak_some k1) k2 k3 k4 (by have := k5; simpa only [List.append_assoc, List.nil_append, List.append_nil, List.cons_append, nextT_append, nextT_cons, nextT_nil] using this) k6 optBreak_none k7⟩

theorem r_111 : RuleOK ⟨N.«loop», [T.«LSQB», T.«FOR», N.«loop_array», T.«COLON», N.«value_brackets», N.«value_brackets», T.«RSQB»], "loop", false, [(2, false, 0), (4, false, 0), (5, false, 0)], 0⟩ := by
  refine ruleOK_node ?_
  intro cs w n l h hc hl
  obtain ⟨c0, cs, w0, w, rfl, rfl, h0, h⟩ := fitsW_cons.mp h
  obtain ⟨c1, cs, w1, w, rfl, rfl, h1, h⟩ := fitsW_cons.mp h
  obtain ⟨c2, cs, w2, w, rfl, rfl, h2, h⟩ := fitsW_cons.mp h
  obtain ⟨c3, cs, w3, w, rfl, rfl, h3, h⟩ := fitsW_cons.mp h
  obtain ⟨c4, cs, w4, w, rfl, rfl, h4, h⟩ := fitsW_cons.mp h
  obtain ⟨c5, cs, w5, w, rfl, rfl, h5, h⟩ := fitsW_cons.mp h
  obtain ⟨c6, rfl, h6⟩ := fitsW_one.mp h
  rename' w => w6
  obtain ⟨u0, rfl, rfl, k0⟩ := shw_LSQB h0
  obtain ⟨u1, rfl, rfl, k1⟩ := shw_FOR h1
  obtain ⟨x2, rfl, k2⟩ := h2
  obtain ⟨u3, rfl, rfl, k3⟩ := shw_COLON h3
  obtain ⟨x4, rfl, k4⟩ := h4
  obtain ⟨x5, rfl, k5⟩ := h5
  obtain ⟨u6, rfl, rfl, k6⟩ := shw_RSQB h6
  exact ⟨.mk x2 (some x4) x5, rfl, .filter (w1 := []) (w4 := []) k0 optBreak_none k1 k2 k3 (by have := k4; simpa only [List.append_assoc, List.nil_append, List.append_nil, List.cons_append, nextT_append, nextT_cons, nextT_nil] using this) k5 optBreak_none k6⟩

theorem r_115 : RuleOK ⟨N.«loop», [T.«LSQB», T.«FOR», N.«loop_array_index», T.«COLON», N.«value_brackets», N.«value_brackets», T.«RSQB»], "loop", false, [(2, false, 0), (4, false, 0), (5, false, 0)], 0⟩ := by
  refine ruleOK_node ?_
  intro cs w n l h hc hl
  obtain ⟨c0, cs, w0, w, rfl, rfl, h0, h⟩ := fitsW_cons.mp h
  obtain ⟨c1, cs, w1, w, rfl, rfl, h1, h⟩ := fitsW_cons.mp h
  obtain ⟨c2, cs, w2, w, rfl, rfl, h2, h⟩ := fitsW_cons.mp h
  obtain ⟨c3, cs, w3, w, rfl, rfl, h3, h⟩ := fitsW_cons.mp h
  obtain ⟨c4, cs, w4, w, rfl, rfl, h4, h⟩ := fitsW_cons.mp h
  obtain ⟨c5, cs, w5, w, rfl, rfl, h5, h⟩ := fitsW_cons.mp h
  obtain ⟨c6, rfl, h6⟩ := fitsW_one.mp h
  rename' w => w6
  obtain ⟨u0, rfl, rfl, k0⟩ := shw_LSQB h0
  obtain ⟨u1, rfl, rfl, k1⟩ := shw_FOR h1
  obtain ⟨x2, rfl, k2⟩ := h2
  obtain ⟨u3, rfl, rfl, k3⟩ := shw_COLON h3
  obtain ⟨x4, rfl, k4⟩ := h4
  obtain ⟨x5, rfl, k5⟩ := h5
  obtain ⟨u6, rfl, rfl, k6⟩ := shw_RSQB h6
  exact ⟨.mk x2 (some x4) x5, rfl, .filter (w1 := []) (w4 := []) k0 optBreak_none k1 k2 k3 (by have := k4; simpa only [List.append_assoc, List.nil_append, List.append_nil, List.cons_append, nextT_append, nextT_cons, nextT_nil] using this) k5 optBreak_none k6⟩

theorem r_119 : RuleOK ⟨N.«loop», [T.«LSQB», T.«FOR», N.«loop_object», T.«COLON», N.«value_brackets», N.«value_brackets», T.«RSQB»], "loop", false, [(2, false, 0), (4, false, 0), (5, false, 0)], 0⟩ := by
  refine ruleOK_node ?_
  intro cs w n l h hc hl
  obtain ⟨c0, cs, w0, w, rfl, rfl, h0, h⟩ := fitsW_cons.mp h
  obtain ⟨c1, cs, w1, w, rfl, rfl, h1, h⟩ := fitsW_cons.mp h
  obtain ⟨c2, cs, w2, w, rfl, rfl, h2, h⟩ := fitsW_cons.mp h
  obtain ⟨c3, cs, w3, w, rfl, rfl, h3, h⟩ := fitsW_cons.mp h
  obtain ⟨c4, cs, w4, w, rfl, rfl, h4, h⟩ := fitsW_cons.mp h
  obtain ⟨c5, cs, w5, w, rfl, rfl, h5, h⟩ := fitsW_cons.mp h
  obtain ⟨c6, rfl, h6⟩ := fitsW_one.mp h
  rename' w => w6
  obtain ⟨u0, rfl, rfl, k0⟩ := shw_LSQB h0
  obtain ⟨u1, rfl, rfl, k1⟩ := shw_FOR h1
  obtain ⟨x2, rfl, k2⟩ := h2
  obtain ⟨u3, rfl, rfl, k3⟩ := shw_COLON h3
  obtain ⟨x4, rfl, k4⟩ := h4
  obtain ⟨x5, rfl, k5⟩ := h5
  obtain ⟨u6, rfl, rfl, k6⟩ := shw_RSQB h6
  exact ⟨.mk x2 (some x4) x5, rfl, .filter (w1 := []) (w4 := []) k0 optBreak_none k1 k2 k3 (by have := k4; simpa only [List.append_assoc, List.nil_append, List.append_nil, List.cons_append, nextT_append, nextT_cons, nextT_nil] using this) k5 optBreak_none k6⟩

theorem r_123 : RuleOK ⟨N.«loop_array_index», [T.«LPAR», T.«STRING», T.«COMMA», T.«STRING», T.«RPAR», T.«IN», N.«value_brackets»], "loop_array_index", false, [(1, false, 0), (3, false, 0), (6, false, 0)], 0⟩ := by
  refine ruleOK_node ?_
  intro cs w n l h hc hl
  obtain ⟨c0, cs, w0, w, rfl, rfl, h0, h⟩ := fitsW_cons.mp h
  obtain ⟨c1, cs, w1, w, rfl, rfl, h1, h⟩ := fitsW_cons.mp h
  obtain ⟨c2, cs, w2, w, rfl, rfl, h2, h⟩ := fitsW_cons.mp h
  obtain ⟨c3, cs, w3, w, rfl, rfl, h3, h⟩ := fitsW_cons.mp h
  obtain ⟨c4, cs, w4, w, rfl, rfl, h4, h⟩ := fitsW_cons.mp h
  obtain ⟨c5, cs, w5, w, rfl, rfl, h5, h⟩ := fitsW_cons.mp h
  obtain ⟨c6, rfl, h6⟩ := fitsW_one.mp h
  rename' w => w6
  obtain ⟨u0, rfl, rfl, k0⟩ := shw_LPAR h0
  obtain ⟨x1, u1, rfl, rfl, k1⟩ := shw_STRING h1
  obtain ⟨u2, rfl, rfl, k2⟩ := shw_COMMA h2
  obtain ⟨x3, u3, rfl, rfl, k3⟩ := shw_STRING h3
  obtain ⟨u4, rfl, rfl, k4⟩ := shw_RPAR h4
  obtain ⟨u5, rfl, rfl, k5⟩ := shw_IN h5
  obtain ⟨x6, rfl, k6⟩ := h6
  exact ⟨.arrIdx x1 x3 x6, rfl, .arrIdx k0 k1 k2 k3 k4 k5 k6 (hc.noInfix rfl)⟩

theorem r_127 : RuleOK ⟨N.«quoted_string», [T.«STRING»], "quoted_string", true, [(0, false, 0)], 0⟩ := by
  refine ruleOK_ex ?_
  intro cs w n h hc
  obtain ⟨c0, rfl, h0⟩ := fitsW_one.mp h
  rename' w => w0
  obtain ⟨x0, u0, rfl, rfl, k0⟩ := shw_STRING h0
  exact ⟨_, rfl, rfl, rfl, .ident x0, u0, rfl, rfl, .ident k0⟩

theorem r_131 : RuleOK ⟨N.«array», [T.«LSQB», N.«__child_resource_plus_3», T.«RSQB»], "array", false, [(1, true, 0)], 0⟩ := by
  refine ruleOK_node ?_
  intro cs w n l h hc hl
  obtain ⟨c0, cs, w0, w, rfl, rfl, h0, h⟩ := fitsW_cons.mp h
  obtain ⟨c1, cs, w1, w, rfl, rfl, h1, h⟩ := fitsW_cons.mp h
  obtain ⟨c2, rfl, h2⟩ := fitsW_one.mp h
  rename' w => w2
  obtain ⟨u0, rfl, rfl, k0⟩ := shw_LSQB h0
  obtain ⟨q1, k1, m1⟩ := h1
  obtain ⟨u2, rfl, rfl, k2⟩ := shw_RSQB h2
  exact ⟨[], (by simp only [keepKids', List.flatMap_cons, List.flatMap_nil, List.replicate_zero, List.replicate_succ, List.getElem?_cons_zero, List.getElem?_cons_succ, Bool.false_eq_true, if_true, if_false, List.append_nil, List.nil_append, List.cons_append, List.append_assoc, w_kids_mkCore, q1] <;> rfl), .array (w1 := w1) (w2 := []) k0 k1 .nil k2⟩

theorem r_135 : RuleOK ⟨N.«object», [T.«LBRACE», N.«__child_resource_plus_3», T.«RBRACE»], "object", false, [(1, true, 0)], 0⟩ := by
  refine ruleOK_node ?_
  intro cs w n l h hc hl
  obtain ⟨c0, cs, w0, w, rfl, rfl, h0, h⟩ := fitsW_cons.mp h
  obtain ⟨c1, cs, w1, w, rfl, rfl, h1, h⟩ := fitsW_cons.mp h
  obtain ⟨c2, rfl, h2⟩ := fitsW_one.mp h
  rename' w => w2
  obtain ⟨u0, rfl, rfl, k0⟩ := shw_LBRACE h0
  obtain ⟨q1, k1, m1⟩ := h1
  obtain ⟨u2, rfl, rfl, k2⟩ := shw_RBRACE h2
  exact ⟨[], (by simp only [keepKids', List.flatMap_cons, List.flatMap_nil, List.replicate_zero, List.replicate_succ, List.getElem?_cons_zero, List.getElem?_cons_succ, Bool.false_eq_true, if_true, if_false, List.append_nil, List.nil_append, List.cons_append, List.append_assoc, w_kids_mkCore, q1] <;> rfl), .mk (w1 := w1) (w2 := []) k0 k1 .nil k2⟩

theorem r_139 : RuleOK ⟨N.«pair», [N.«key», T.«COLON», N.«value_brackets»], "pair", false, [(0, false, 0), (2, false, 0)], 0⟩ := by
  refine ruleOK_node ?_
  intro cs w n l h hc hl
  obtain ⟨c0, cs, w0, w, rfl, rfl, h0, h⟩ := fitsW_cons.mp h
  obtain ⟨c1, cs, w1, w, rfl, rfl, h1, h⟩ := fitsW_cons.mp h
  obtain ⟨c2, rfl, h2⟩ := fitsW_one.mp h
  rename' w => w2
  obtain ⟨x0, u0, rfl, rfl, k0⟩ := h0
  obtain ⟨u1, rfl, rfl, k1⟩ := shw_COLON h1
  obtain ⟨x2, rfl, k2⟩ := h2
  exact ⟨.pair x0 x2, rfl, .expr k0 k1 k2 (hc.noInfix rfl)⟩

theorem r_143 : RuleOK ⟨N.«key», [N.«quoted_string»], "key", false, [(0, false, 0)], 0⟩ := by
  refine ruleOK_node ?_
  intro cs w n l h hc hl
  obtain ⟨c0, rfl, h0⟩ := fitsW_one.mp h
  rename' w => w0
  obtain ⟨m0, x0, u0, q0, rfl, k0⟩ := h0
  exact ⟨x0, u0, q0, rfl, k0⟩

theorem r_147 : RuleOK ⟨N.«decorator», [T.«AT», T.«__ANON_2», T.«LPAR», T.«_CPP_COMMENT_NL», N.«value_brackets», T.«_CPP_COMMENT_NL», T.«RPAR», T.«_CPP_COMMENT_NL»], "decorator", false, [(1, false, 0), (4, false, 0)], 0⟩ := by
  refine ruleOK_node ?_
  intro cs w n l h hc hl
  obtain ⟨c0, cs, w0, w, rfl, rfl, h0, h⟩ := fitsW_cons.mp h
  obtain ⟨c1, cs, w1, w, rfl, rfl, h1, h⟩ := fitsW_cons.mp h
  obtain ⟨c2, cs, w2, w, rfl, rfl, h2, h⟩ := fitsW_cons.mp h
  obtain ⟨c3, cs, w3, w, rfl, rfl, h3, h⟩ := fitsW_cons.mp h
  obtain ⟨c4, cs, w4, w, rfl, rfl, h4, h⟩ := fitsW_cons.mp h
  obtain ⟨c5, cs, w5, w, rfl, rfl, h5, h⟩ := fitsW_cons.mp h
  obtain ⟨c6, cs, w6, w, rfl, rfl, h6, h⟩ := fitsW_cons.mp h
  obtain ⟨c7, rfl, h7⟩ := fitsW_one.mp h
  rename' w => w7
  obtain ⟨u0, rfl, rfl, k0⟩ := shw_AT h0
  obtain ⟨x1, u1, rfl, rfl, k1⟩ := shw___ANON_2 h1
  obtain ⟨u2, rfl, rfl, k2⟩ := shw_LPAR h2
  obtain ⟨u3, rfl, k3⟩ := shw__CPP_COMMENT_NL h3
  obtain ⟨x4, rfl, k4⟩ := h4
  obtain ⟨u5, rfl, k5⟩ := shw__CPP_COMMENT_NL h5
  obtain ⟨u6, rfl, rfl, k6⟩ := shw_RPAR h6
  obtain ⟨u7, rfl, k7⟩ := shw__CPP_COMMENT_NL h7
  exact ⟨⟨x1, some x4⟩, rfl, .arg (w1 := [u3]) (w3 := [u5]) (w4 := [u7]) k0 k1 k2 (optBreak_some k3) k4 (optBreak_some k5) k6 (breaks_cons k7 breaks_nil) (by simp)⟩

theorem r_151 : RuleOK ⟨N.«decorator», [T.«AT», T.«__ANON_2», T.«LPAR», T.«_CPP_COMMENT_NL», N.«value_brackets», T.«_CPP_COMMENT_NL», T.«RPAR», T.«_CPP_COMMENT_NL», T.«_CPP_COMMENT_NL», T.«_CPP_COMMENT_NL», T.«_CPP_COMMENT_NL», T.«_CPP_COMMENT_NL»], "decorator", false, [(1, false, 0), (4, false, 0)], 0⟩ := by
  refine ruleOK_node ?_
  intro cs w n l h hc hl
  obtain ⟨c0, cs, w0, w, rfl, rfl, h0, h⟩ := fitsW_cons.mp h
  obtain ⟨c1, cs, w1, w, rfl, rfl, h1, h⟩ := fitsW_cons.mp h
  obtain ⟨c2, cs, w2, w, rfl, rfl, h2, h⟩ := fitsW_cons.mp h
  obtain ⟨c3, cs, w3, w, rfl, rfl, h3, h⟩ := fitsW_cons.mp h
  obtain ⟨c4, cs, w4, w, rfl, rfl, h4, h⟩ := fitsW_cons.mp h
  obtain ⟨c5, cs, w5, w, rfl, rfl, h5, h⟩ := fitsW_cons.mp h
  obtain ⟨c6, cs, w6, w, rfl, rfl, h6, h⟩ := fitsW_cons.mp h
  obtain ⟨c7, cs, w7, w, rfl, rfl, h7, h⟩ := fitsW_cons.mp h
  obtain ⟨c8, cs, w8, w, rfl, rfl, h8, h⟩ := fitsW_cons.mp h
  obtain ⟨c9, cs, w9, w, rfl, rfl, h9, h⟩ := fitsW_cons.mp h
  obtain ⟨c10, cs, w10, w, rfl, rfl, h10, h⟩ := fitsW_cons.mp h
  obtain ⟨c11, rfl, h11⟩ := fitsW_one.mp h
  rename' w => w11
  obtain ⟨u0, rfl, rfl, k0⟩ := shw_AT h0
  obtain ⟨x1, u1, rfl, rfl, k1⟩ := shw___ANON_2 h1
  obtain ⟨u2, rfl, rfl, k2⟩ := shw_LPAR h2
  obtain ⟨u3, rfl, k3⟩ := shw__CPP_COMMENT_NL h3
  obtain ⟨x4, rfl, k4⟩ := h4
  obtain ⟨u5, rfl, k5⟩ := shw__CPP_COMMENT_NL h5
  obtain ⟨u6, rfl, rfl, k6⟩ := shw_RPAR h6
  obtain ⟨u7, rfl, k7⟩ := shw__CPP_COMMENT_NL h7
  obtain ⟨u8, rfl, k8⟩ := shw__CPP_COMMENT_NL h8
  obtain ⟨u9, rfl, k9⟩ := shw__CPP_COMMENT_NL h9
  obtain ⟨u10, rfl, k10⟩ := shw__CPP_COMMENT_NL h10
  obtain ⟨u11, rfl, k11⟩ := shw__CPP_COMMENT_NL h11
  exact ⟨⟨x1, some x4⟩, rfl, .arg (w1 := [u3]) (w3 := [u5]) (w4 := [u7, u8, u9, u10, u11]) k0 k1 k2 (optBreak_some k3) k4 (optBreak_some k5) k6 (breaks_cons k7 (breaks_cons k8 (breaks_cons k9 (breaks_cons k10 (breaks_cons k11 breaks_nil))))) (by simp)⟩

theorem r_155 : RuleOK ⟨N.«decorator», [T.«AT», T.«__ANON_2», T.«LPAR», T.«_CPP_COMMENT_NL», N.«value_brackets», T.«_CPP_COMMENT_NL», T.«RPAR», T.«_CPP_COMMENT_NL», T.«_CPP_COMMENT_NL», T.«_CPP_COMMENT_NL», T.«_CPP_COMMENT_NL», T.«_CPP_COMMENT_NL», T.«_CPP_COMMENT_NL», T.«_CPP_COMMENT_NL», T.«_CPP_COMMENT_NL», T.«_CPP_COMMENT_NL»], "decorator", false, [(1, false, 0), (4, false, 0)], 0⟩ := by
  refine ruleOK_node ?_
  intro cs w n l h hc hl
  obtain ⟨c0, cs, w0, w, rfl, rfl, h0, h⟩ := fitsW_cons.mp h
  obtain ⟨c1, cs, w1, w, rfl, rfl, h1, h⟩ := fitsW_cons.mp h
  obtain ⟨c2, cs, w2, w, rfl, rfl, h2, h⟩ := fitsW_cons.mp h
  obtain ⟨c3, cs, w3, w, rfl, rfl, h3, h⟩ := fitsW_cons.mp h
  obtain ⟨c4, cs, w4, w, rfl, rfl, h4, h⟩ := fitsW_cons.mp h
  obtain ⟨c5, cs, w5, w, rfl, rfl, h5, h⟩ := fitsW_cons.mp h
  obtain ⟨c6, cs, w6, w, rfl, rfl, h6, h⟩ := fitsW_cons.mp h
  obtain ⟨c7, cs, w7, w, rfl, rfl, h7, h⟩ := fitsW_cons.mp h
  obtain ⟨c8, cs, w8, w, rfl, rfl, h8, h⟩ := fitsW_cons.mp h
  obtain ⟨c9, cs, w9, w, rfl, rfl, h9, h⟩ := fitsW_cons.mp h
  obtain ⟨c10, cs, w10, w, rfl, rfl, h10, h⟩ := fitsW_cons.mp h
  obtain ⟨c11, cs, w11, w, rfl, rfl, h11, h⟩ := fitsW_cons.mp h
  obtain ⟨c12, cs, w12, w, rfl, rfl, h12, h⟩ := fitsW_cons.mp h
  obtain ⟨c13, cs, w13, w, rfl, rfl, h13, h⟩ := fitsW_cons.mp h
  obtain ⟨c14, cs, w14, w, rfl, rfl, h14, h⟩ := fitsW_cons.mp h
  obtain ⟨c15, rfl, h15⟩ := fitsW_one.mp h
  rename' w => w15
  obtain ⟨u0, rfl, rfl, k0⟩ := shw_AT h0
  obtain ⟨x1, u1, rfl, rfl, k1⟩ := shw___ANON_2 h1
  obtain ⟨u2, rfl, rfl, k2⟩ := shw_LPAR h2
  obtain ⟨u3, rfl, k3⟩ := shw__CPP_COMMENT_NL h3
  obtain ⟨x4, rfl, k4⟩ := h4
  obtain ⟨u5, rfl, k5⟩ := shw__CPP_COMMENT_NL h5
  obtain ⟨u6, rfl, rfl, k6⟩ := shw_RPAR h6
  obtain ⟨u7, rfl, k7⟩ := shw__CPP_COMMENT_NL h7
  obtain ⟨u8, rfl, k8⟩ := shw__CPP_COMMENT_NL h8
  obtain ⟨u9, rfl, k9⟩ := shw__CPP_COMMENT_NL h9
  obtain ⟨u10, rfl, k10⟩ := shw__CPP_COMMENT_NL h10
  obtain ⟨u11, rfl, k11⟩ := shw__CPP_COMMENT_NL h11
  obtain ⟨u12, rfl, k12⟩ := shw__CPP_COMMENT_NL h12
  obtain ⟨u13, rfl, k13⟩ := shw__CPP_COMMENT_NL h13
  obtain ⟨u14, rfl, k14⟩ := shw__CPP_COMMENT_NL h14
  obtain ⟨u15, rfl, k15⟩ := shw__CPP_COMMENT_NL h15
  exact ⟨⟨x1, some x4⟩, rfl, .arg (w1 := [u3]) (w3 := [u5]) (w4 := [u7, u8, u9, u10, u11, u12, u13, u14, u15]) k0 k1 k2 (optBreak_some k3) k4 (optBreak_some k5) k6 (breaks_cons k7 (breaks_cons k8 (breaks_cons k9 (breaks_cons k10 (breaks_cons k11 (breaks_cons k12 (breaks_cons k13 (breaks_cons k14 (breaks_cons k15 breaks_nil))))))))) (by simp)⟩

theorem r_159 : RuleOK ⟨N.«decorator», [T.«AT», T.«__ANON_2», T.«LPAR», T.«_CPP_COMMENT_NL», N.«value_brackets», T.«RPAR», T.«_CPP_COMMENT_NL», T.«_CPP_COMMENT_NL»], "decorator", false, [(1, false, 0), (4, false, 0)], 0⟩ := by
  refine ruleOK_node ?_
  intro cs w n l h hc hl
  obtain ⟨c0, cs, w0, w, rfl, rfl, h0, h⟩ := fitsW_cons.mp h
  obtain ⟨c1, cs, w1, w, rfl, rfl, h1, h⟩ := fitsW_cons.mp h
  obtain ⟨c2, cs, w2, w, rfl, rfl, h2, h⟩ := fitsW_cons.mp h
  obtain ⟨c3, cs, w3, w, rfl, rfl, h3, h⟩ := fitsW_cons.mp h
  obtain ⟨c4, cs, w4, w, rfl, rfl, h4, h⟩ := fitsW_cons.mp h
  obtain ⟨c5, cs, w5, w, rfl, rfl, h5, h⟩ := fitsW_cons.mp h
  obtain ⟨c6, cs, w6, w, rfl, rfl, h6, h⟩ := fitsW_cons.mp h
  obtain ⟨c7, rfl, h7⟩ := fitsW_one.mp h
  rename' w => w7
  obtain ⟨u0, rfl, rfl, k0⟩ := shw_AT h0
  obtain ⟨x1, u1, rfl, rfl, k1⟩ := shw___ANON_2 h1
  obtain ⟨u2, rfl, rfl, k2⟩ := shw_LPAR h2
  obtain ⟨u3, rfl, k3⟩ := shw__CPP_COMMENT_NL h3
  obtain ⟨x4, rfl, k4⟩ := h4
  obtain ⟨u5, rfl, rfl, k5⟩ := shw_RPAR h5
  obtain ⟨u6, rfl, k6⟩ := shw__CPP_COMMENT_NL h6
  obtain ⟨u7, rfl, k7⟩ := shw__CPP_COMMENT_NL h7
  exact ⟨⟨x1, some x4⟩, rfl, .arg (w1 := [u3]) (w3 := []) (w4 := [u6, u7]) k0 k1 k2 (optBreak_some k3) k4 optBreak_none k5 (breaks_cons k6 (breaks_cons k7 breaks_nil)) (by simp)⟩

theorem r_163 : RuleOK ⟨N.«decorator», [T.«AT», T.«__ANON_2», T.«LPAR», T.«_CPP_COMMENT_NL», N.«value_brackets», T.«RPAR», T.«_CPP_COMMENT_NL», T.«_CPP_COMMENT_NL», T.«_CPP_COMMENT_NL», T.«_CPP_COMMENT_NL», T.«_CPP_COMMENT_NL», T.«_CPP_COMMENT_NL»], "decorator", false, [(1, false, 0), (4, false, 0)], 0⟩ := by
  refine ruleOK_node ?_
  intro cs w n l h hc hl
  obtain ⟨c0, cs, w0, w, rfl, rfl, h0, h⟩ := fitsW_cons.mp h
  obtain ⟨c1, cs, w1, w, rfl, rfl, h1, h⟩ := fitsW_cons.mp h
  obtain ⟨c2, cs, w2, w, rfl, rfl, h2, h⟩ := fitsW_cons.mp h
  obtain ⟨c3, cs, w3, w, rfl, rfl, h3, h⟩ := fitsW_cons.mp h
  obtain ⟨c4, cs, w4, w, rfl, rfl, h4, h⟩ := fitsW_cons.mp h
  obtain ⟨c5, cs, w5, w, rfl, rfl, h5, h⟩ := fitsW_cons.mp h
  obtain ⟨c6, cs, w6, w, rfl, rfl, h6, h⟩ := fitsW_cons.mp h
  obtain ⟨c7, cs, w7, w, rfl, rfl, h7, h⟩ := fitsW_cons.mp h
  obtain ⟨c8, cs, w8, w, rfl, rfl, h8, h⟩ := fitsW_cons.mp h
  obtain ⟨c9, cs, w9, w, rfl, rfl, h9, h⟩ := fitsW_cons.mp h
  obtain ⟨c10, cs, w10, w, rfl, rfl, h10, h⟩ := fitsW_cons.mp h
  obtain ⟨c11, rfl, h11⟩ := fitsW_one.mp h
  rename' w => w11
  obtain ⟨u0, rfl, rfl, k0⟩ := shw_AT h0
  obtain ⟨x1, u1, rfl, rfl, k1⟩ := shw___ANON_2 h1
  obtain ⟨u2, rfl, rfl, k2⟩ := shw_LPAR h2
  obtain ⟨u3, rfl, k3⟩ := shw__CPP_COMMENT_NL h3
  obtain ⟨x4, rfl, k4⟩ := h4
  obtain ⟨u5, rfl, rfl, k5⟩ := shw_RPAR h5
  obtain ⟨u6, rfl, k6⟩ := shw__CPP_COMMENT_NL h6
  obtain ⟨u7, rfl, k7⟩ := shw__CPP_COMMENT_NL h7
  obtain ⟨u8, rfl, k8⟩ := shw__CPP_COMMENT_NL h8
  obtain ⟨u9, rfl, k9⟩ := shw__CPP_COMMENT_NL h9
  obtain ⟨u10, rfl, k10⟩ := shw__CPP_COMMENT_NL h10
  obtain ⟨u11, rfl, k11⟩ := shw__CPP_COMMENT_NL h11
  exact ⟨⟨x1, some x4⟩, rfl, .arg (w1 := [u3]) (w3 := []) (w4 := [u6, u7, u8, u9, u10, u11]) k0 k1 k2 (optBreak_some k3) k4 optBreak_none k5 (breaks_cons k6 (breaks_cons k7 (breaks_cons k8 (breaks_cons k9 (breaks_cons k10 (breaks_cons k11 breaks_nil)))))) (by simp)⟩

theorem r_167 : RuleOK ⟨N.«decorator», [T.«AT», T.«__ANON_2», T.«LPAR», T.«_CPP_COMMENT_NL», N.«value_brackets», T.«RPAR», T.«_CPP_COMMENT_NL», T.«_CPP_COMMENT_NL», T.«_CPP_COMMENT_NL», T.«_CPP_COMMENT_NL», T.«_CPP_COMMENT_NL», T.«_CPP_COMMENT_NL», T.«_CPP_COMMENT_NL», T.«_CPP_COMMENT_NL», T.«_CPP_COMMENT_NL», T.«_CPP_COMMENT_NL»], "decorator", false, [(1, false, 0), (4, false, 0)], 0⟩ := by
  refine ruleOK_node ?_
  intro cs w n l h hc hl
  obtain ⟨c0, cs, w0, w, rfl, rfl, h0, h⟩ := fitsW_cons.mp h
  obtain ⟨c1, cs, w1, w, rfl, rfl, h1, h⟩ := fitsW_cons.mp h
  obtain ⟨c2, cs, w2, w, rfl, rfl, h2, h⟩ := fitsW_cons.mp h
  obtain ⟨c3, cs, w3, w, rfl, rfl, h3, h⟩ := fitsW_cons.mp h
  obtain ⟨c4, cs, w4, w, rfl, rfl, h4, h⟩ := fitsW_cons.mp h
  obtain ⟨c5, cs, w5, w, rfl, rfl, h5, h⟩ := fitsW_cons.mp h
  obtain ⟨c6, cs, w6, w, rfl, rfl, h6, h⟩ := fitsW_cons.mp h
  obtain ⟨c7, cs, w7, w, rfl, rfl, h7, h⟩ := fitsW_cons.mp h
  obtain ⟨c8, cs, w8, w, rfl, rfl, h8, h⟩ := fitsW_cons.mp h
  obtain ⟨c9, cs, w9, w, rfl, rfl, h9, h⟩ := fitsW_cons.mp h
  obtain ⟨c10, cs, w10, w, rfl, rfl, h10, h⟩ := fitsW_cons.mp h
  obtain ⟨c11, cs, w11, w, rfl, rfl, h11, h⟩ := fitsW_cons.mp h
  obtain ⟨c12, cs, w12, w, rfl, rfl, h12, h⟩ := fitsW_cons.mp h
  obtain ⟨c13, cs, w13, w, rfl, rfl, h13, h⟩ := fitsW_cons.mp h
  obtain ⟨c14, cs, w14, w, rfl, rfl, h14, h⟩ := fitsW_cons.mp h
  obtain ⟨c15, rfl, h15⟩ := fitsW_one.mp h
  rename' w => w15
  obtain ⟨u0, rfl, rfl, k0⟩ := shw_AT h0
  obtain ⟨x1, u1, rfl, rfl, k1⟩ := shw___ANON_2 h1
  obtain ⟨u2, rfl, rfl, k2⟩ := shw_LPAR h2
  obtain ⟨u3, rfl, k3⟩ := shw__CPP_COMMENT_NL h3
  obtain ⟨x4, rfl, k4⟩ := h4
  obtain ⟨u5, rfl, rfl, k5⟩ := shw_RPAR h5
  obtain ⟨u6, rfl, k6⟩ := shw__CPP_COMMENT_NL h6
  obtain ⟨u7, rfl, k7⟩ := shw__CPP_COMMENT_NL h7
  obtain ⟨u8, rfl, k8⟩ := shw__CPP_COMMENT_NL h8
  obtain ⟨u9, rfl, k9⟩ := shw__CPP_COMMENT_NL h9
  obtain ⟨u10, rfl, k10⟩ := shw__CPP_COMMENT_NL h10
  obtain ⟨u11, rfl, k11⟩ := shw__CPP_COMMENT_NL h11
  obtain ⟨u12, rfl, k12⟩ := shw__CPP_COMMENT_NL h12
  obtain ⟨u13, rfl, k13⟩ := shw__CPP_COMMENT_NL h13
  obtain ⟨u14, rfl, k14⟩ := shw__CPP_COMMENT_NL h14
  obtain ⟨u15, rfl, k15⟩ := shw__CPP_COMMENT_NL h15
  exact ⟨⟨x1, some x4⟩, rfl, .arg (w1 := [u3]) (w3 := []) (w4 := [u6, u7, u8, u9, u10, u11, u12, u13, u14, u15]) k0 k1 k2 (optBreak_some k3) k4 optBreak_none k5 (breaks_cons k6 (breaks_cons k7 (breaks_cons k8 (breaks_cons k9 (breaks_cons k10 (breaks_cons k11 (breaks_cons k12 (breaks_cons k13 (breaks_cons k14 (breaks_cons k15 breaks_nil)))))))))) (by simp)⟩

theorem r_171 : RuleOK ⟨N.«decorator», [T.«AT», T.«__ANON_2», T.«LPAR», T.«_CPP_COMMENT_NL», T.«_CPP_COMMENT_NL», T.«RPAR», T.«_CPP_COMMENT_NL», T.«_CPP_COMMENT_NL», T.«_CPP_COMMENT_NL»], "decorator", false, [(1, false, 0)], 0⟩ := by
  refine ruleOK_node ?_
  intro cs w n l h hc hl
  obtain ⟨c0, cs, w0, w, rfl, rfl, h0, h⟩ := fitsW_cons.mp h
  obtain ⟨c1, cs, w1, w, rfl, rfl, h1, h⟩ := fitsW_cons.mp h
  obtain ⟨c2, cs, w2, w, rfl, rfl, h2, h⟩ := fitsW_cons.mp h
  obtain ⟨c3, cs, w3, w, rfl, rfl, h3, h⟩ := fitsW_cons.mp h
  obtain ⟨c4, cs, w4, w, rfl, rfl, h4, h⟩ := fitsW_cons.mp h
  obtain ⟨c5, cs, w5, w, rfl, rfl, h5, h⟩ := fitsW_cons.mp h
  obtain ⟨c6, cs, w6, w, rfl, rfl, h6, h⟩ := fitsW_cons.mp h
  obtain ⟨c7, cs, w7, w, rfl, rfl, h7, h⟩ := fitsW_cons.mp h
  obtain ⟨c8, rfl, h8⟩ := fitsW_one.mp h
  rename' w => w8
  obtain ⟨u0, rfl, rfl, k0⟩ := shw_AT h0
  obtain ⟨x1, u1, rfl, rfl, k1⟩ := shw___ANON_2 h1
  obtain ⟨u2, rfl, rfl, k2⟩ := shw_LPAR h2
  obtain ⟨u3, rfl, k3⟩ := shw__CPP_COMMENT_NL h3
  obtain ⟨u4, rfl, k4⟩ := shw__CPP_COMMENT_NL h4
  obtain ⟨u5, rfl, rfl, k5⟩ := shw_RPAR h5
  obtain ⟨u6, rfl, k6⟩ := shw__CPP_COMMENT_NL h6
  obtain ⟨u7, rfl, k7⟩ := shw__CPP_COMMENT_NL h7
  obtain ⟨u8, rfl, k8⟩ := shw__CPP_COMMENT_NL h8
  exact ⟨⟨x1, .none⟩, rfl, .noArg (w1 := [u3, u4]) (w2 := [u6, u7, u8]) k0 k1 k2 (breaks_cons k3 (breaks_cons k4 breaks_nil)) (by simp) k5 (breaks_cons k6 (breaks_cons k7 (breaks_cons k8 breaks_nil))) (by simp)⟩

theorem r_175 : RuleOK ⟨N.«decorator», [T.«AT», T.«__ANON_2», T.«LPAR», T.«_CPP_COMMENT_NL», T.«_CPP_COMMENT_NL», T.«RPAR», T.«_CPP_COMMENT_NL», T.«_CPP_COMMENT_NL», T.«_CPP_COMMENT_NL», T.«_CPP_COMMENT_NL», T.«_CPP_COMMENT_NL», T.«_CPP_COMMENT_NL», T.«_CPP_COMMENT_NL»], "decorator", false, [(1, false, 0)], 0⟩ := by
  refine ruleOK_node ?_
  intro cs w n l h hc hl
  obtain ⟨c0, cs, w0, w, rfl, rfl, h0, h⟩ := fitsW_cons.mp h
  obtain ⟨c1, cs, w1, w, rfl, rfl, h1, h⟩ := fitsW_cons.mp h
  obtain ⟨c2, cs, w2, w, rfl, rfl, h2, h⟩ := fitsW_cons.mp h
  obtain ⟨c3, cs, w3, w, rfl, rfl, h3, h⟩ := fitsW_cons.mp h
  obtain ⟨c4, cs, w4, w, rfl, rfl, h4, h⟩ := fitsW_cons.mp h
  obtain ⟨c5, cs, w5, w, rfl, rfl, h5, h⟩ := fitsW_cons.mp h
  obtain ⟨c6, cs, w6, w, rfl, rfl, h6, h⟩ := fitsW_cons.mp h
  obtain ⟨c7, cs, w7, w, rfl, rfl, h7, h⟩ := fitsW_cons.mp h
  obtain ⟨c8, cs, w8, w, rfl, rfl, h8, h⟩ := fitsW_cons.mp h
  obtain ⟨c9, cs, w9, w, rfl, rfl, h9, h⟩ := fitsW_cons.mp h
  obtain ⟨c10, cs, w10, w, rfl, rfl, h10, h⟩ := fitsW_cons.mp h
  obtain ⟨c11, cs, w11, w, rfl, rfl, h11, h⟩ := fitsW_cons.mp h
  obtain ⟨c12, rfl, h12⟩ := fitsW_one.mp h
  rename' w => w12
  obtain ⟨u0, rfl, rfl, k0⟩ := shw_AT h0
  obtain ⟨x1, u1, rfl, rfl, k1⟩ := shw___ANON_2 h1
  obtain ⟨u2, rfl, rfl, k2⟩ := shw_LPAR h2
  obtain ⟨u3, rfl, k3⟩ := shw__CPP_COMMENT_NL h3
  obtain ⟨u4, rfl, k4⟩ := shw__CPP_COMMENT_NL h4
  obtain ⟨u5, rfl, rfl, k5⟩ := shw_RPAR h5
  obtain ⟨u6, rfl, k6⟩ := shw__CPP_COMMENT_NL h6
  obtain ⟨u7, rfl, k7⟩ := shw__CPP_COMMENT_NL h7
  obtain ⟨u8, rfl, k8⟩ := shw__CPP_COMMENT_NL h8
  obtain ⟨u9, rfl, k9⟩ := shw__CPP_COMMENT_NL h9
  obtain ⟨u10, rfl, k10⟩ := shw__CPP_COMMENT_NL h10
  obtain ⟨u11, rfl, k11⟩ := shw__CPP_COMMENT_NL h11
  obtain ⟨u12, rfl, k12⟩ := shw__CPP_COMMENT_NL h12
  exact ⟨⟨x1, .none⟩, rfl, .noArg (w1 := [u3, u4]) (w2 := [u6, u7, u8, u9, u10, u11, u12]) k0 k1 k2 (breaks_cons k3 (breaks_cons k4 breaks_nil)) (by simp) k5 (breaks_cons k6 (breaks_cons k7 (breaks_cons k8 (breaks_cons k9 (breaks_cons k10 (breaks_cons k11 (breaks_cons k12 breaks_nil))))))) (by simp)⟩

theorem r_179 : RuleOK ⟨N.«decorator», [T.«AT», T.«__ANON_2», T.«LPAR», T.«_CPP_COMMENT_NL», T.«RPAR»], "decorator", false, [(1, false, 0)], 0⟩ := by
  refine ruleOK_node ?_
  intro cs w n l h hc hl
  obtain ⟨c0, cs, w0, w, rfl, rfl, h0, h⟩ := fitsW_cons.mp h
  obtain ⟨c1, cs, w1, w, rfl, rfl, h1, h⟩ := fitsW_cons.mp h
  obtain ⟨c2, cs, w2, w, rfl, rfl, h2, h⟩ := fitsW_cons.mp h
  obtain ⟨c3, cs, w3, w, rfl, rfl, h3, h⟩ := fitsW_cons.mp h
  obtain ⟨c4, rfl, h4⟩ := fitsW_one.mp h
  rename' w => w4
  obtain ⟨u0, rfl, rfl, k0⟩ := shw_AT h0
  obtain ⟨x1, u1, rfl, rfl, k1⟩ := shw___ANON_2 h1
  obtain ⟨u2, rfl, rfl, k2⟩ := shw_LPAR h2
  obtain ⟨u3, rfl, k3⟩ := shw__CPP_COMMENT_NL h3
  obtain ⟨u4, rfl, rfl, k4⟩ := shw_RPAR h4
  exact ⟨⟨x1, .none⟩, rfl, .noArg (w1 := [u3]) (w2 := []) k0 k1 k2 (breaks_cons k3 breaks_nil) (by simp) k4 breaks_nil (by simp)⟩

theorem r_183 : RuleOK ⟨N.«decorator», [T.«AT», T.«__ANON_2», T.«LPAR», T.«_CPP_COMMENT_NL», T.«RPAR», T.«_CPP_COMMENT_NL», T.«_CPP_COMMENT_NL», T.«_CPP_COMMENT_NL», T.«_CPP_COMMENT_NL»], "decorator", false, [(1, false, 0)], 0⟩ := by
  refine ruleOK_node ?_
  intro cs w n l h hc hl
  obtain ⟨c0, cs, w0, w, rfl, rfl, h0, h⟩ := fitsW_cons.mp h
  obtain ⟨c1, cs, w1, w, rfl, rfl, h1, h⟩ := fitsW_cons.mp h
  obtain ⟨c2, cs, w2, w, rfl, rfl, h2, h⟩ := fitsW_cons.mp h
  obtain ⟨c3, cs, w3, w, rfl, rfl, h3, h⟩ := fitsW_cons.mp h
  obtain ⟨c4, cs, w4, w, rfl, rfl, h4, h⟩ := fitsW_cons.mp h
  obtain ⟨c5, cs, w5, w, rfl, rfl, h5, h⟩ := fitsW_cons.mp h
  obtain ⟨c6, cs, w6, w, rfl, rfl, h6, h⟩ := fitsW_cons.mp h
  obtain ⟨c7, cs, w7, w, rfl, rfl, h7, h⟩ := fitsW_cons.mp h
  obtain ⟨c8, rfl, h8⟩ := fitsW_one.mp h
  rename' w => w8
  obtain ⟨u0, rfl, rfl, k0⟩ := shw_AT h0
  obtain ⟨x1, u1, rfl, rfl, k1⟩ := shw___ANON_2 h1
  obtain ⟨u2, rfl, rfl, k2⟩ := shw_LPAR h2
  obtain ⟨u3, rfl, k3⟩ := shw__CPP_COMMENT_NL h3
  obtain ⟨u4, rfl, rfl, k4⟩ := shw_RPAR h4
  obtain ⟨u5, rfl, k5⟩ := shw__CPP_COMMENT_NL h5
  obtain ⟨u6, rfl, k6⟩ := shw__CPP_COMMENT_NL h6
  obtain ⟨u7, rfl, k7⟩ := shw__CPP_COMMENT_NL h7
  obtain ⟨u8, rfl, k8⟩ := shw__CPP_COMMENT_NL h8
  exact ⟨⟨x1, .none⟩, rfl, .noArg (w1 := [u3]) (w2 := [u5, u6, u7, u8]) k0 k1 k2 (breaks_cons k3 breaks_nil) (by simp) k4 (breaks_cons k5 (breaks_cons k6 (breaks_cons k7 (breaks_cons k8 breaks_nil)))) (by simp)⟩

theorem r_187 : RuleOK ⟨N.«decorator», [T.«AT», T.«__ANON_2», T.«LPAR», T.«_CPP_COMMENT_NL», T.«RPAR», T.«_CPP_COMMENT_NL», T.«_CPP_COMMENT_NL», T.«_CPP_COMMENT_NL», T.«_CPP_COMMENT_NL», T.«_CPP_COMMENT_NL», T.«_CPP_COMMENT_NL», T.«_CPP_COMMENT_NL», T.«_CPP_COMMENT_NL»], "decorator", false, [(1, false, 0)], 0⟩ := by
  refine ruleOK_node ?_
  intro cs w n l h hc hl
  obtain ⟨c0, cs, w0, w, rfl, rfl, h0, h⟩ := fitsW_cons.mp h
  obtain ⟨c1, cs, w1, w, rfl, rfl, h1, h⟩ := fitsW_cons.mp h
  obtain ⟨c2, cs, w2, w, rfl, rfl, h2, h⟩ := fitsW_cons.mp h
  obtain ⟨c3, cs, w3, w, rfl, rfl, h3, h⟩ := fitsW_cons.mp h
  obtain ⟨c4, cs, w4, w, rfl, rfl, h4, h⟩ := fitsW_cons.mp h
  obtain ⟨c5, cs, w5, w, rfl, rfl, h5, h⟩ := fitsW_cons.mp h
  obtain ⟨c6, cs, w6, w, rfl, rfl, h6, h⟩ := fitsW_cons.mp h
  obtain ⟨c7, cs, w7, w, rfl, rfl, h7, h⟩ := fitsW_cons.mp h
  obtain ⟨c8, cs, w8, w, rfl, rfl, h8, h⟩ := fitsW_cons.mp h
  obtain ⟨c9, cs, w9, w, rfl, rfl, h9, h⟩ := fitsW_cons.mp h
  obtain ⟨c10, cs, w10, w, rfl, rfl, h10, h⟩ := fitsW_cons.mp h
  obtain ⟨c11, cs, w11, w, rfl, rfl, h11, h⟩ := fitsW_cons.mp h
  obtain ⟨c12, rfl, h12⟩ := fitsW_one.mp h
  rename' w => w12
  obtain ⟨u0, rfl, rfl, k0⟩ := shw_AT h0
  obtain ⟨x1, u1, rfl, rfl, k1⟩ := shw___ANON_2 h1
  obtain ⟨u2, rfl, rfl, k2⟩ := shw_LPAR h2
  obtain ⟨u3, rfl, k3⟩ := shw__CPP_COMMENT_NL h3
  obtain ⟨u4, rfl, rfl, k4⟩ := shw_RPAR h4
  obtain ⟨u5, rfl, k5⟩ := shw__CPP_COMMENT_NL h5
  obtain ⟨u6, rfl, k6⟩ := shw__CPP_COMMENT_NL h6
  obtain ⟨u7, rfl, k7⟩ := shw__CPP_COMMENT_NL h7
  obtain ⟨u8, rfl, k8⟩ := shw__CPP_COMMENT_NL h8
  obtain ⟨u9, rfl, k9⟩ := shw__CPP_COMMENT_NL h9
  obtain ⟨u10, rfl, k10⟩ := shw__CPP_COMMENT_NL h10
  obtain ⟨u11, rfl, k11⟩ := shw__CPP_COMMENT_NL h11
  obtain ⟨u12, rfl, k12⟩ := shw__CPP_COMMENT_NL h12
  exact ⟨⟨x1, .none⟩, rfl, .noArg (w1 := [u3]) (w2 := [u5, u6, u7, u8, u9, u10, u11, u12]) k0 k1 k2 (breaks_cons k3 breaks_nil) (by simp) k4 (breaks_cons k5 (breaks_cons k6 (breaks_cons k7 (breaks_cons k8 (breaks_cons k9 (breaks_cons k10 (breaks_cons k11 (breaks_cons k12 breaks_nil)))))))) (by simp)⟩

theorem r_191 : RuleOK ⟨N.«decorator», [T.«AT», T.«__ANON_2», T.«LPAR», N.«value_brackets», T.«_CPP_COMMENT_NL», T.«RPAR», T.«_CPP_COMMENT_NL»], "decorator", false, [(1, false, 0), (3, false, 0)], 0⟩ := by
  refine ruleOK_node ?_
  intro cs w n l h hc hl
  obtain ⟨c0, cs, w0, w, rfl, rfl, h0, h⟩ := fitsW_cons.mp h
  obtain ⟨c1, cs, w1, w, rfl, rfl, h1, h⟩ := fitsW_cons.mp h
  obtain ⟨c2, cs, w2, w, rfl, rfl, h2, h⟩ := fitsW_cons.mp h
  obtain ⟨c3, cs, w3, w, rfl, rfl, h3, h⟩ := fitsW_cons.mp h
  obtain ⟨c4, cs, w4, w, rfl, rfl, h4, h⟩ := fitsW_cons.mp h
  obtain ⟨c5, cs, w5, w, rfl, rfl, h5, h⟩ := fitsW_cons.mp h
  obtain ⟨c6, rfl, h6⟩ := fitsW_one.mp h
  rename' w => w6
  obtain ⟨u0, rfl, rfl, k0⟩ := shw_AT h0
  obtain ⟨x1, u1, rfl, rfl, k1⟩ := shw___ANON_2 h1
  obtain ⟨u2, rfl, rfl, k2⟩ := shw_LPAR h2
  obtain ⟨x3, rfl, k3⟩ := h3
  obtain ⟨u4, rfl, k4⟩ := shw__CPP_COMMENT_NL h4
  obtain ⟨u5, rfl, rfl, k5⟩ := shw_RPAR h5
  obtain ⟨u6, rfl, k6⟩ := shw__CPP_COMMENT_NL h6
  exact ⟨⟨x1, some x3⟩, rfl, .arg (w1 := []) (w3 := [u4]) (w4 := [u6]) k0 k1 k2 optBreak_none k3 (optBreak_some k4) k5 (breaks_cons k6 breaks_nil) (by simp)⟩

theorem r_195 : RuleOK ⟨N.«decorator», [T.«AT», T.«__ANON_2», T.«LPAR», N.«value_brackets», T.«_CPP_COMMENT_NL», T.«RPAR», T.«_CPP_COMMENT_NL», T.«_CPP_COMMENT_NL», T.«_CPP_COMMENT_NL», T.«_CPP_COMMENT_NL», T.«_CPP_COMMENT_NL»], "decorator", false, [(1, false, 0), (3, false, 0)], 0⟩ := by
  refine ruleOK_node ?_
  intro cs w n l h hc hl
  obtain ⟨c0, cs, w0, w, rfl, rfl, h0, h⟩ := fitsW_cons.mp h
  obtain ⟨c1, cs, w1, w, rfl, rfl, h1, h⟩ := fitsW_cons.mp h
  obtain ⟨c2, cs, w2, w, rfl, rfl, h2, h⟩ := fitsW_cons.mp h
  obtain ⟨c3, cs, w3, w, rfl, rfl, h3, h⟩ := fitsW_cons.mp h
  obtain ⟨c4, cs, w4, w, rfl, rfl, h4, h⟩ := fitsW_cons.mp h
  obtain ⟨c5, cs, w5, w, rfl, rfl, h5, h⟩ := fitsW_cons.mp h
  obtain ⟨c6, cs, w6, w, rfl, rfl, h6, h⟩ := fitsW_cons.mp h
  obtain ⟨c7, cs, w7, w, rfl, rfl, h7, h⟩ := fitsW_cons.mp h
  obtain ⟨c8, cs, w8, w, rfl, rfl, h8, h⟩ := fitsW_cons.mp h
  obtain ⟨c9, cs, w9, w, rfl, rfl, h9, h⟩ := fitsW_cons.mp h
  obtain ⟨c10, rfl, h10⟩ := fitsW_one.mp h
  rename' w => w10
  obtain ⟨u0, rfl, rfl, k0⟩ := shw_AT h0
  obtain ⟨x1, u1, rfl, rfl, k1⟩ := shw___ANON_2 h1
  obtain ⟨u2, rfl, rfl, k2⟩ := shw_LPAR h2
  obtain ⟨x3, rfl, k3⟩ := h3
  obtain ⟨u4, rfl, k4⟩ := shw__CPP_COMMENT_NL h4
  obtain ⟨u5, rfl, rfl, k5⟩ := shw_RPAR h5
  obtain ⟨u6, rfl, k6⟩ := shw__CPP_COMMENT_NL h6
  obtain ⟨u7, rfl, k7⟩ := shw__CPP_COMMENT_NL h7
  obtain ⟨u8, rfl, k8⟩ := shw__CPP_COMMENT_NL h8
  obtain ⟨u9, rfl, k9⟩ := shw__CPP_COMMENT_NL h9
  obtain ⟨u10, rfl, k10⟩ := shw__CPP_COMMENT_NL h10
  exact ⟨⟨x1, some x3⟩, rfl, .arg (w1 := []) (w3 := [u4]) (w4 := [u6, u7, u8, u9, u10]) k0 k1 k2 optBreak_none k3 (optBreak_some k4) k5 (breaks_cons k6 (breaks_cons k7 (breaks_cons k8 (breaks_cons k9 (breaks_cons k10 breaks_nil))))) (by simp)⟩

theorem r_199 : RuleOK ⟨N.«decorator», [T.«AT», T.«__ANON_2», T.«LPAR», N.«value_brackets», T.«_CPP_COMMENT_NL», T.«RPAR», T.«_CPP_COMMENT_NL», T.«_CPP_COMMENT_NL», T.«_CPP_COMMENT_NL», T.«_CPP_COMMENT_NL», T.«_CPP_COMMENT_NL», T.«_CPP_COMMENT_NL», T.«_CPP_COMMENT_NL», T.«_CPP_COMMENT_NL», T.«_CPP_COMMENT_NL»], "decorator", false, [(1, false, 0), (3, false, 0)], 0⟩ := by
  refine ruleOK_node ?_
  intro cs w n l h hc hl
  obtain ⟨c0, cs, w0, w, rfl, rfl, h0, h⟩ := fitsW_cons.mp h
  obtain ⟨c1, cs, w1, w, rfl, rfl, h1, h⟩ := fitsW_cons.mp h
  obtain ⟨c2, cs, w2, w, rfl, rfl, h2, h⟩ := fitsW_cons.mp h
  obtain ⟨c3, cs, w3, w, rfl, rfl, h3, h⟩ := fitsW_cons.mp h
  obtain ⟨c4, cs, w4, w, rfl, rfl, h4, h⟩ := fitsW_cons.mp h
  obtain ⟨c5, cs, w5, w, rfl, rfl, h5, h⟩ := fitsW_cons.mp h
  obtain ⟨c6, cs, w6, w, rfl, rfl, h6, h⟩ := fitsW_cons.mp h
  obtain ⟨c7, cs, w7, w, rfl, rfl, h7, h⟩ := fitsW_cons.mp h
  obtain ⟨c8, cs, w8, w, rfl, rfl, h8, h⟩ := fitsW_cons.mp h
  obtain ⟨c9, cs, w9, w, rfl, rfl, h9, h⟩ := fitsW_cons.mp h
  obtain ⟨c10, cs, w10, w, rfl, rfl, h10, h⟩ := fitsW_cons.mp h
  obtain ⟨c11, cs, w11, w, rfl, rfl, h11, h⟩ := fitsW_cons.mp h
  obtain ⟨c12, cs, w12, w, rfl, rfl, h12, h⟩ := fitsW_cons.mp h
  obtain ⟨c13, cs, w13, w, rfl, rfl, h13, h⟩ := fitsW_cons.mp h
  obtain ⟨c14, rfl, h14⟩ := fitsW_one.mp h
  rename' w => w14
  obtain ⟨u0, rfl, rfl, k0⟩ := shw_AT h0
  obtain ⟨x1, u1, rfl, rfl, k1⟩ := shw___ANON_2 h1
  obtain ⟨u2, rfl, rfl, k2⟩ := shw_LPAR h2
  obtain ⟨x3, rfl, k3⟩ := h3
  obtain ⟨u4, rfl, k4⟩ := shw__CPP_COMMENT_NL h4
  obtain ⟨u5, rfl, rfl, k5⟩ := shw_RPAR h5
  obtain ⟨u6, rfl, k6⟩ := shw__CPP_COMMENT_NL h6
  obtain ⟨u7, rfl, k7⟩ := shw__CPP_COMMENT_NL h7
  obtain ⟨u8, rfl, k8⟩ := shw__CPP_COMMENT_NL h8
  obtain ⟨u9, rfl, k9⟩ := shw__CPP_COMMENT_NL h9
  obtain ⟨u10, rfl, k10⟩ := shw__CPP_COMMENT_NL h10
  obtain ⟨u11, rfl, k11⟩ := shw__CPP_COMMENT_NL h11
  obtain ⟨u12, rfl, k12⟩ := shw__CPP_COMMENT_NL h12
  obtain ⟨u13, rfl, k13⟩ := shw__CPP_COMMENT_NL h13
  obtain ⟨u14, rfl, k14⟩ := shw__CPP_COMMENT_NL h14
  exact ⟨⟨x1, some x3⟩, rfl, .arg (w1 := []) (w3 := [u4]) (w4 := [u6, u7, u8, u9, u10, u11, u12, u13, u14]) k0 k1 k2 optBreak_none k3 (optBreak_some k4) k5 (breaks_cons k6 (breaks_cons k7 (breaks_cons k8 (breaks_cons k9 (breaks_cons k10 (breaks_cons k11 (breaks_cons k12 (breaks_cons k13 (breaks_cons k14 breaks_nil))))))))) (by simp)⟩

theorem r_203 : RuleOK ⟨N.«decorator», [T.«AT», T.«__ANON_2», T.«LPAR», N.«value_brackets», T.«RPAR», T.«_CPP_COMMENT_NL», T.«_CPP_COMMENT_NL»], "decorator", false, [(1, false, 0), (3, false, 0)], 0⟩ := by
  refine ruleOK_node ?_
  intro cs w n l h hc hl
  obtain ⟨c0, cs, w0, w, rfl, rfl, h0, h⟩ := fitsW_cons.mp h
  obtain ⟨c1, cs, w1, w, rfl, rfl, h1, h⟩ := fitsW_cons.mp h
  obtain ⟨c2, cs, w2, w, rfl, rfl, h2, h⟩ := fitsW_cons.mp h
  obtain ⟨c3, cs, w3, w, rfl, rfl, h3, h⟩ := fitsW_cons.mp h
  obtain ⟨c4, cs, w4, w, rfl, rfl, h4, h⟩ := fitsW_cons.mp h
  obtain ⟨c5, cs, w5, w, rfl, rfl, h5, h⟩ := fitsW_cons.mp h
  obtain ⟨c6, rfl, h6⟩ := fitsW_one.mp h
  rename' w => w6
  obtain ⟨u0, rfl, rfl, k0⟩ := shw_AT h0
  obtain ⟨x1, u1, rfl, rfl, k1⟩ := shw___ANON_2 h1
  obtain ⟨u2, rfl, rfl, k2⟩ := shw_LPAR h2
  obtain ⟨x3, rfl, k3⟩ := h3
  obtain ⟨u4, rfl, rfl, k4⟩ := shw_RPAR h4
  obtain ⟨u5, rfl, k5⟩ := shw__CPP_COMMENT_NL h5
  obtain ⟨u6, rfl, k6⟩ := shw__CPP_COMMENT_NL h6
  exact ⟨⟨x1, some x3⟩, rfl, .arg (w1 := []) (w3 := []) (w4 := [u5, u6]) k0 k1 k2 optBreak_none k3 optBreak_none k4 (breaks_cons k5 (breaks_cons k6 breaks_nil)) (by simp)⟩

theorem r_207 : RuleOK ⟨N.«decorator», [T.«AT», T.«__ANON_2», T.«LPAR», N.«value_brackets», T.«RPAR», T.«_CPP_COMMENT_NL», T.«_CPP_COMMENT_NL», T.«_CPP_COMMENT_NL», T.«_CPP_COMMENT_NL», T.«_CPP_COMMENT_NL», T.«_CPP_COMMENT_NL»], "decorator", false, [(1, false, 0), (3, false, 0)], 0⟩ := by
  refine ruleOK_node ?_
  intro cs w n l h hc hl
  obtain ⟨c0, cs, w0, w, rfl, rfl, h0, h⟩ := fitsW_cons.mp h
  obtain ⟨c1, cs, w1, w, rfl, rfl, h1, h⟩ := fitsW_cons.mp h
  obtain ⟨c2, cs, w2, w, rfl, rfl, h2, h⟩ := fitsW_cons.mp h
  obtain ⟨c3, cs, w3, w, rfl, rfl, h3, h⟩ := fitsW_cons.mp h
  obtain ⟨c4, cs, w4, w, rfl, rfl, h4, h⟩ := fitsW_cons.mp h
  obtain ⟨c5, cs, w5, w, rfl, rfl, h5, h⟩ := fitsW_cons.mp h
  obtain ⟨c6, cs, w6, w, rfl, rfl, h6, h⟩ := fitsW_cons.mp h
  obtain ⟨c7, cs, w7, w, rfl, rfl, h7, h⟩ := fitsW_cons.mp h
  obtain ⟨c8, cs, w8, w, rfl, rfl, h8, h⟩ := fitsW_cons.mp h
  obtain ⟨c9, cs, w9, w, rfl, rfl, h9, h⟩ := fitsW_cons.mp h
  obtain ⟨c10, rfl, h10⟩ := fitsW_one.mp h
  rename' w => w10
  obtain ⟨u0, rfl, rfl, k0⟩ := shw_AT h0
  obtain ⟨x1, u1, rfl, rfl, k1⟩ := shw___ANON_2 h1
  obtain ⟨u2, rfl, rfl, k2⟩ := shw_LPAR h2
  obtain ⟨x3, rfl, k3⟩ := h3
  obtain ⟨u4, rfl, rfl, k4⟩ := shw_RPAR h4
  obtain ⟨u5, rfl, k5⟩ := shw__CPP_COMMENT_NL h5
  obtain ⟨u6, rfl, k6⟩ := shw__CPP_COMMENT_NL h6
  obtain ⟨u7, rfl, k7⟩ := shw__CPP_COMMENT_NL h7
  obtain ⟨u8, rfl, k8⟩ := shw__CPP_COMMENT_NL h8
  obtain ⟨u9, rfl, k9⟩ := shw__CPP_COMMENT_NL h9
  obtain ⟨u10, rfl, k10⟩ := shw__CPP_COMMENT_NL h10
  exact ⟨⟨x1, some x3⟩, rfl, .arg (w1 := []) (w3 := []) (w4 := [u5, u6, u7, u8, u9, u10]) k0 k1 k2 optBreak_none k3 optBreak_none k4 (breaks_cons k5 (breaks_cons k6 (breaks_cons k7 (breaks_cons k8 (breaks_cons k9 (breaks_cons k10 breaks_nil)))))) (by simp)⟩

theorem r_211 : RuleOK ⟨N.«decorator», [T.«AT», T.«__ANON_2», T.«LPAR», N.«value_brackets», T.«RPAR», T.«_CPP_COMMENT_NL», T.«_CPP_COMMENT_NL», T.«_CPP_COMMENT_NL», T.«_CPP_COMMENT_NL», T.«_CPP_COMMENT_NL», T.«_CPP_COMMENT_NL», T.«_CPP_COMMENT_NL», T.«_CPP_COMMENT_NL», T.«_CPP_COMMENT_NL», T.«_CPP_COMMENT_NL»], "decorator", false, [(1, false, 0), (3, false, 0)], 0⟩ := by
  refine ruleOK_node ?_
  intro cs w n l h hc hl
  obtain ⟨c0, cs, w0, w, rfl, rfl, h0, h⟩ := fitsW_cons.mp h
  obtain ⟨c1, cs, w1, w, rfl, rfl, h1, h⟩ := fitsW_cons.mp h
  obtain ⟨c2, cs, w2, w, rfl, rfl, h2, h⟩ := fitsW_cons.mp h
  obtain ⟨c3, cs, w3, w, rfl, rfl, h3, h⟩ := fitsW_cons.mp h
  obtain ⟨c4, cs, w4, w, rfl, rfl, h4, h⟩ := fitsW_cons.mp h
  obtain ⟨c5, cs, w5, w, rfl, rfl, h5, h⟩ := fitsW_cons.mp h
  obtain ⟨c6, cs, w6, w, rfl, rfl, h6, h⟩ := fitsW_cons.mp h
  obtain ⟨c7, cs, w7, w, rfl, rfl, h7, h⟩ := fitsW_cons.mp h
  obtain ⟨c8, cs, w8, w, rfl, rfl, h8, h⟩ := fitsW_cons.mp h
  obtain ⟨c9, cs, w9, w, rfl, rfl, h9, h⟩ := fitsW_cons.mp h
  obtain ⟨c10, cs, w10, w, rfl, rfl, h10, h⟩ := fitsW_cons.mp h
  obtain ⟨c11, cs, w11, w, rfl, rfl, h11, h⟩ := fitsW_cons.mp h
  obtain ⟨c12, cs, w12, w, rfl, rfl, h12, h⟩ := fitsW_cons.mp h
  obtain ⟨c13, cs, w13, w, rfl, rfl, h13, h⟩ := fitsW_cons.mp h
  obtain ⟨c14, rfl, h14⟩ := fitsW_one.mp h
  rename' w => w14
  obtain ⟨u0, rfl, rfl, k0⟩ := shw_AT h0
  obtain ⟨x1, u1, rfl, rfl, k1⟩ := shw___ANON_2 h1
  obtain ⟨u2, rfl, rfl, k2⟩ := shw_LPAR h2
  obtain ⟨x3, rfl, k3⟩ := h3
  obtain ⟨u4, rfl, rfl, k4⟩ := shw_RPAR h4
  obtain ⟨u5, rfl, k5⟩ := shw__CPP_COMMENT_NL h5
  obtain ⟨u6, rfl, k6⟩ := shw__CPP_COMMENT_NL h6
  obtain ⟨u7, rfl, k7⟩ := shw__CPP_COMMENT_NL h7
  obtain ⟨u8, rfl, k8⟩ := shw__CPP_COMMENT_NL h8
  obtain ⟨u9, rfl, k9⟩ := shw__CPP_COMMENT_NL h9
  obtain ⟨u10, rfl, k10⟩ := shw__CPP_COMMENT_NL h10
  obtain ⟨u11, rfl, k11⟩ := shw__CPP_COMMENT_NL h11
  obtain ⟨u12, rfl, k12⟩ := shw__CPP_COMMENT_NL h12
  obtain ⟨u13, rfl, k13⟩ := shw__CPP_COMMENT_NL h13
  obtain ⟨u14, rfl, k14⟩ := shw__CPP_COMMENT_NL h14
  exact ⟨⟨x1, some x3⟩, rfl, .arg (w1 := []) (w3 := []) (w4 := [u5, u6, u7, u8, u9, u10, u11, u12, u13, u14]) k0 k1 k2 optBreak_none k3 optBreak_none k4 (breaks_cons k5 (breaks_cons k6 (breaks_cons k7 (breaks_cons k8 (breaks_cons k9 (breaks_cons k10 (breaks_cons k11 (breaks_cons k12 (breaks_cons k13 (breaks_cons k14 breaks_nil)))))))))) (by simp)⟩

theorem r_215 : RuleOK ⟨N.«decorator», [T.«AT», T.«__ANON_2», T.«LPAR», T.«RPAR», T.«_CPP_COMMENT_NL», T.«_CPP_COMMENT_NL», T.«_CPP_COMMENT_NL»], "decorator", false, [(1, false, 0)], 0⟩ := by
  refine ruleOK_node ?_
  intro cs w n l h hc hl
  obtain ⟨c0, cs, w0, w, rfl, rfl, h0, h⟩ := fitsW_cons.mp h
  obtain ⟨c1, cs, w1, w, rfl, rfl, h1, h⟩ := fitsW_cons.mp h
  obtain ⟨c2, cs, w2, w, rfl, rfl, h2, h⟩ := fitsW_cons.mp h
  obtain ⟨c3, cs, w3, w, rfl, rfl, h3, h⟩ := fitsW_cons.mp h
  obtain ⟨c4, cs, w4, w, rfl, rfl, h4, h⟩ := fitsW_cons.mp h
  obtain ⟨c5, cs, w5, w, rfl, rfl, h5, h⟩ := fitsW_cons.mp h
  obtain ⟨c6, rfl, h6⟩ := fitsW_one.mp h
  rename' w => w6
  obtain ⟨u0, rfl, rfl, k0⟩ := shw_AT h0
  obtain ⟨x1, u1, rfl, rfl, k1⟩ := shw___ANON_2 h1
  obtain ⟨u2, rfl, rfl, k2⟩ := shw_LPAR h2
  obtain ⟨u3, rfl, rfl, k3⟩ := shw_RPAR h3
  obtain ⟨u4, rfl, k4⟩ := shw__CPP_COMMENT_NL h4
  obtain ⟨u5, rfl, k5⟩ := shw__CPP_COMMENT_NL h5
  obtain ⟨u6, rfl, k6⟩ := shw__CPP_COMMENT_NL h6
  exact ⟨⟨x1, .none⟩, rfl, .noArg (w1 := []) (w2 := [u4, u5, u6]) k0 k1 k2 breaks_nil (by simp) k3 (breaks_cons k4 (breaks_cons k5 (breaks_cons k6 breaks_nil))) (by simp)⟩

theorem r_219 : RuleOK ⟨N.«decorator», [T.«AT», T.«__ANON_2», T.«LPAR», T.«RPAR», T.«_CPP_COMMENT_NL», T.«_CPP_COMMENT_NL», T.«_CPP_COMMENT_NL», T.«_CPP_COMMENT_NL», T.«_CPP_COMMENT_NL», T.«_CPP_COMMENT_NL», T.«_CPP_COMMENT_NL»], "decorator", false, [(1, false, 0)], 0⟩ := by
  refine ruleOK_node ?_
  intro cs w n l h hc hl
  obtain ⟨c0, cs, w0, w, rfl, rfl, h0, h⟩ := fitsW_cons.mp h
  obtain ⟨c1, cs, w1, w, rfl, rfl, h1, h⟩ := fitsW_cons.mp h
  obtain ⟨c2, cs, w2, w, rfl, rfl, h2, h⟩ := fitsW_cons.mp h
  obtain ⟨c3, cs, w3, w, rfl, rfl, h3, h⟩ := fitsW_cons.mp h
  obtain ⟨c4, cs, w4, w, rfl, rfl, h4, h⟩ := fitsW_cons.mp h
  obtain ⟨c5, cs, w5, w, rfl, rfl, h5, h⟩ := fitsW_cons.mp h
  obtain ⟨c6, cs, w6, w, rfl, rfl, h6, h⟩ := fitsW_cons.mp h
  obtain ⟨c7, cs, w7, w, rfl, rfl, h7, h⟩ := fitsW_cons.mp h
  obtain ⟨c8, cs, w8, w, rfl, rfl, h8, h⟩ := fitsW_cons.mp h
  obtain ⟨c9, cs, w9, w, rfl, rfl, h9, h⟩ := fitsW_cons.mp h
  obtain ⟨c10, rfl, h10⟩ := fitsW_one.mp h
  rename' w => w10
  obtain ⟨u0, rfl, rfl, k0⟩ := shw_AT h0
  obtain ⟨x1, u1, rfl, rfl, k1⟩ := shw___ANON_2 h1
  obtain ⟨u2, rfl, rfl, k2⟩ := shw_LPAR h2
  obtain ⟨u3, rfl, rfl, k3⟩ := shw_RPAR h3
  obtain ⟨u4, rfl, k4⟩ := shw__CPP_COMMENT_NL h4
  obtain ⟨u5, rfl, k5⟩ := shw__CPP_COMMENT_NL h5
  obtain ⟨u6, rfl, k6⟩ := shw__CPP_COMMENT_NL h6
  obtain ⟨u7, rfl, k7⟩ := shw__CPP_COMMENT_NL h7
  obtain ⟨u8, rfl, k8⟩ := shw__CPP_COMMENT_NL h8
  obtain ⟨u9, rfl, k9⟩ := shw__CPP_COMMENT_NL h9
  obtain ⟨u10, rfl, k10⟩ := shw__CPP_COMMENT_NL h10
  exact ⟨⟨x1, .none⟩, rfl, .noArg (w1 := []) (w2 := [u4, u5, u6, u7, u8, u9, u10]) k0 k1 k2 breaks_nil (by simp) k3 (breaks_cons k4 (breaks_cons k5 (breaks_cons k6 (breaks_cons k7 (breaks_cons k8 (breaks_cons k9 (breaks_cons k10 breaks_nil))))))) (by simp)⟩

theorem r_223 : RuleOK ⟨N.«decorators», [N.«__decorators_plus_11»], "decorators", false, [(0, true, 0)], 0⟩ := by
  refine ruleOK_node ?_
  intro cs w n l h hc hl
  obtain ⟨c0, rfl, h0⟩ := fitsW_one.mp h
  rename' w => w0
  obtain ⟨x0, y0, q0, k0⟩ := h0
  exact ⟨x0, y0, (by simp only [keepKids', List.flatMap_cons, List.flatMap_nil, List.replicate_zero, List.replicate_succ, List.getElem?_cons_zero, List.getElem?_cons_succ, Bool.false_eq_true, if_true, if_false, List.append_nil, List.nil_append, List.cons_append, List.append_assoc, w_kids_mkCore, q0] <;> rfl), k0⟩

theorem r_227 : RuleOK ⟨N.«function», [T.«FUNCTION», T.«_CPP_COMMENT_NL», N.«value_brackets», T.«RPAR»], "function", false, [(0, false, 0), (2, false, 0)], 0⟩ := by
  refine ruleOK_node ?_
  intro cs w n l h hc hl
  obtain ⟨c0, cs, w0, w, rfl, rfl, h0, h⟩ := fitsW_cons.mp h
  obtain ⟨c1, cs, w1, w, rfl, rfl, h1, h⟩ := fitsW_cons.mp h
  obtain ⟨c2, cs, w2, w, rfl, rfl, h2, h⟩ := fitsW_cons.mp h
  obtain ⟨c3, rfl, h3⟩ := fitsW_one.mp h
  rename' w => w3
  obtain ⟨x0, u0, rfl, rfl, k0⟩ := shw_FUNCTION h0
  obtain ⟨u1, rfl, k1⟩ := shw__CPP_COMMENT_NL h1
  obtain ⟨x2, rfl, k2⟩ := h2
  obtain ⟨u3, rfl, rfl, k3⟩ := shw_RPAR h3
  exact ⟨x0, x2 :: [], rfl, .args (w1 := [u1]) (w2 := w2) (w3 := []) (w4 := []) k0 (optBreak_some k1) (by have := k2; simpa only [List.append_assoc, List.nil_append, List.append_nil, List.cons_append, nextT_append, nextT_cons, nextT_nil] using this) .nil optBreak_none k3⟩

theorem r_231 : RuleOK ⟨N.«function», [T.«FUNCTION», T.«_CPP_COMMENT_NL», T.«RPAR»], "function", false, [(0, false, 0)], 0⟩ := by
  refine ruleOK_node ?_
  intro cs w n l h hc hl
  obtain ⟨c0, cs, w0, w, rfl, rfl, h0, h⟩ := fitsW_cons.mp h
  obtain ⟨c1, cs, w1, w, rfl, rfl, h1, h⟩ := fitsW_cons.mp h
  obtain ⟨c2, rfl, h2⟩ := fitsW_one.mp h
  rename' w => w2
  obtain ⟨x0, u0, rfl, rfl, k0⟩ := shw_FUNCTION h0
  obtain ⟨u1, rfl, k1⟩ := shw__CPP_COMMENT_NL h1
  obtain ⟨u2, rfl, rfl, k2⟩ := shw_RPAR h2
  exact ⟨x0, [], rfl, .noArg (w1 := [u1]) (w3 := []) (w4 := []) k0 (optBreak_some k1) .nil optBreak_none k2⟩

theorem r_235 : RuleOK ⟨N.«function», [T.«FUNCTION», N.«value_brackets», T.«RPAR»], "function", false, [(0, false, 0), (1, false, 0)], 0⟩ := by
  refine ruleOK_node ?_
  intro cs w n l h hc hl
  obtain ⟨c0, cs, w0, w, rfl, rfl, h0, h⟩ := fitsW_cons.mp h
  obtain ⟨c1, cs, w1, w, rfl, rfl, h1, h⟩ := fitsW_cons.mp h
  obtain ⟨c2, rfl, h2⟩ := fitsW_one.mp h
  rename' w => w2
  obtain ⟨x0, u0, rfl, rfl, k0⟩ := shw_FUNCTION h0
  obtain ⟨x1, rfl, k1⟩ := h1
  obtain ⟨u2, rfl, rfl, k2⟩ := shw_RPAR h2
  exact ⟨x0, x1 :: [], rfl, .args (w1 := []) (w2 := w1) (w3 := []) (w4 := []) k0 optBreak_none (by have := k1; simpa only [List.append_assoc, List.nil_append, List.append_nil, List.cons_append, nextT_append, nextT_cons, nextT_nil] using this) .nil optBreak_none k2⟩

theorem r_239 : RuleOK ⟨N.«operator», [N.«operator_comparison»], "operator", false, [(0, false, 0)], 0⟩ := by
  refine ruleOK_node ?_
  intro cs w n l h hc hl
  obtain ⟨c0, rfl, h0⟩ := fitsW_one.mp h
  rename' w => w0
  obtain ⟨x0, q0, k0⟩ := h0
  exact ⟨x0, q0, k0⟩

theorem r_243 : RuleOK ⟨N.«operator_comparison», [N.«greater_than_or_equals»], "operator_comparison", true, [(0, false, 0)], 0⟩ := by
  refine ruleOK_ex ?_
  intro cs w n h hc
  obtain ⟨c0, rfl, h0⟩ := fitsW_one.mp h
  rename' w => w0
  obtain ⟨x0, q0, k0⟩ := h0
  exact ⟨_, rfl, w_op_nometa q0, x0, q0, k0⟩

theorem r_247 : RuleOK ⟨N.«operator_comparison», [N.«equals»], "operator_comparison", true, [(0, false, 0)], 0⟩ := by
  refine ruleOK_ex ?_
  intro cs w n h hc
  obtain ⟨c0, rfl, h0⟩ := fitsW_one.mp h
  rename' w => w0
  obtain ⟨x0, q0, k0⟩ := h0
  exact ⟨_, rfl, w_op_nometa q0, x0, q0, k0⟩

theorem r_251 : RuleOK ⟨N.«greater_than_or_equals», [N.«value_brackets», T.«__ANON_3», N.«value_brackets»], "greater_than_or_equals", false, [(0, false, 0), (2, false, 0)], 0⟩ := by
  refine ruleOK_node ?_
  intro cs w n l h hc hl
  obtain ⟨c0, cs, w0, w, rfl, rfl, h0, h⟩ := fitsW_cons.mp h
  obtain ⟨c1, cs, w1, w, rfl, rfl, h1, h⟩ := fitsW_cons.mp h
  obtain ⟨c2, rfl, h2⟩ := fitsW_one.mp h
  rename' w => w2
  obtain ⟨x0, rfl, k0⟩ := h0
  obtain ⟨u1, rfl, rfl, k1⟩ := shw___ANON_3 h1
  obtain ⟨x2, rfl, k2⟩ := h2
  exact ⟨.bin .ge x0 x2, rfl, .bin rfl k0 k1 k2 (hc.noInfix rfl)⟩

theorem r_255 : RuleOK ⟨N.«equals», [N.«value_brackets», T.«__ANON_5», N.«value_brackets»], "equals", false, [(0, false, 0), (2, false, 0)], 0⟩ := by
  refine ruleOK_node ?_
  intro cs w n l h hc hl
  obtain ⟨c0, cs, w0, w, rfl, rfl, h0, h⟩ := fitsW_cons.mp h
  obtain ⟨c1, cs, w1, w, rfl, rfl, h1, h⟩ := fitsW_cons.mp h
  obtain ⟨c2, rfl, h2⟩ := fitsW_one.mp h
  rename' w => w2
  obtain ⟨x0, rfl, k0⟩ := h0
  obtain ⟨u1, rfl, rfl, k1⟩ := shw___ANON_5 h1
  obtain ⟨x2, rfl, k2⟩ := h2
  exact ⟨.bin .eq x0 x2, rfl, .bin rfl k0 k1 k2 (hc.noInfix rfl)⟩

theorem r_259 : RuleOK ⟨N.«operator_logical», [N.«and_op»], "operator_logical", true, [(0, false, 0)], 0⟩ := by
  refine ruleOK_ex ?_
  intro cs w n h hc
  obtain ⟨c0, rfl, h0⟩ := fitsW_one.mp h
  rename' w => w0
  obtain ⟨x0, q0, k0⟩ := h0
  exact ⟨_, rfl, w_op_nometa q0, x0, q0, k0⟩

theorem r_263 : RuleOK ⟨N.«operator_logical», [N.«conditional»], "operator_logical", true, [(0, false, 0)], 0⟩ := by
  refine ruleOK_ex ?_
  intro cs w n h hc
  obtain ⟨c0, rfl, h0⟩ := fitsW_one.mp h
  rename' w => w0
  obtain ⟨x0, q0, k0⟩ := h0
  exact ⟨_, rfl, w_op_nometa q0, x0, q0, k0⟩

theorem r_267 : RuleOK ⟨N.«coalesce», [N.«value_brackets», T.«__ANON_11», N.«value_brackets»], "coalesce", false, [(0, false, 0), (2, false, 0)], 0⟩ := by
  refine ruleOK_node ?_
  intro cs w n l h hc hl
  obtain ⟨c0, cs, w0, w, rfl, rfl, h0, h⟩ := fitsW_cons.mp h
  obtain ⟨c1, cs, w1, w, rfl, rfl, h1, h⟩ := fitsW_cons.mp h
  obtain ⟨c2, rfl, h2⟩ := fitsW_one.mp h
  rename' w => w2
  obtain ⟨x0, rfl, k0⟩ := h0
  obtain ⟨u1, rfl, rfl, k1⟩ := shw___ANON_11 h1
  obtain ⟨x2, rfl, k2⟩ := h2
  exact ⟨.bin .coalesce x0 x2, rfl, .bin rfl k0 k1 k2 (hc.noInfix rfl)⟩

theorem r_271 : RuleOK ⟨N.«operator_numeric», [N.«minus»], "operator_numeric", true, [(0, false, 0)], 0⟩ := by
  refine ruleOK_ex ?_
  intro cs w n h hc
  obtain ⟨c0, rfl, h0⟩ := fitsW_one.mp h
  rename' w => w0
  obtain ⟨x0, q0, k0⟩ := h0
  exact ⟨_, rfl, w_op_nometa q0, x0, q0, k0⟩

theorem r_275 : RuleOK ⟨N.«add», [N.«value_brackets», T.«PLUS», N.«value_brackets»], "add", false, [(0, false, 0), (2, false, 0)], 0⟩ := by
  refine ruleOK_node ?_
  intro cs w n l h hc hl
  obtain ⟨c0, cs, w0, w, rfl, rfl, h0, h⟩ := fitsW_cons.mp h
  obtain ⟨c1, cs, w1, w, rfl, rfl, h1, h⟩ := fitsW_cons.mp h
  obtain ⟨c2, rfl, h2⟩ := fitsW_one.mp h
  rename' w => w2
  obtain ⟨x0, rfl, k0⟩ := h0
  obtain ⟨u1, rfl, rfl, k1⟩ := shw_PLUS h1
  obtain ⟨x2, rfl, k2⟩ := h2
  exact ⟨.bin .add x0 x2, rfl, .bin rfl k0 k1 k2 (hc.noInfix rfl)⟩

theorem r_279 : RuleOK ⟨N.«multiply», [N.«value_brackets», T.«STAR», N.«value_brackets»], "multiply", false, [(0, false, 0), (2, false, 0)], 0⟩ := by
  refine ruleOK_node ?_
  intro cs w n l h hc hl
  obtain ⟨c0, cs, w0, w, rfl, rfl, h0, h⟩ := fitsW_cons.mp h
  obtain ⟨c1, cs, w1, w, rfl, rfl, h1, h⟩ := fitsW_cons.mp h
  obtain ⟨c2, rfl, h2⟩ := fitsW_one.mp h
  rename' w => w2
  obtain ⟨x0, rfl, k0⟩ := h0
  obtain ⟨u1, rfl, rfl, k1⟩ := shw_STAR h1
  obtain ⟨x2, rfl, k2⟩ := h2
  exact ⟨.bin .mul x0 x2, rfl, .bin rfl k0 k1 k2 (hc.noInfix rfl)⟩

theorem r_283 : RuleOK ⟨N.«operator_accessor», [N.«nested_resource_accessor»], "operator_accessor", true, [(0, false, 0)], 0⟩ := by
  refine ruleOK_ex ?_
  intro cs w n h hc
  obtain ⟨c0, rfl, h0⟩ := fitsW_one.mp h
  rename' w => w0
  obtain ⟨x0, q0, k0⟩ := h0
  exact ⟨_, rfl, w_op_nometa q0, x0, q0, k0⟩

theorem r_287 : RuleOK ⟨N.«function_accessor», [N.«value_brackets», T.«DOT», T.«LIST_FUNC_NAME», T.«LPAR», N.«value_brackets», N.«__function_accessor_plus_13», T.«RPAR»], "function_accessor", false, [(0, false, 0), (2, false, 0), (4, false, 0), (5, true, 0)], 0⟩ := by
  refine ruleOK_node ?_
  intro cs w n l h hc hl
  obtain ⟨c0, cs, w0, w, rfl, rfl, h0, h⟩ := fitsW_cons.mp h
  obtain ⟨c1, cs, w1, w, rfl, rfl, h1, h⟩ := fitsW_cons.mp h
  obtain ⟨c2, cs, w2, w, rfl, rfl, h2, h⟩ := fitsW_cons.mp h
  obtain ⟨c3, cs, w3, w, rfl, rfl, h3, h⟩ := fitsW_cons.mp h
  obtain ⟨c4, cs, w4, w, rfl, rfl, h4, h⟩ := fitsW_cons.mp h
  obtain ⟨c5, cs, w5, w, rfl, rfl, h5, h⟩ := fitsW_cons.mp h
  obtain ⟨c6, rfl, h6⟩ := fitsW_one.mp h
  rename' w => w6
  obtain ⟨x0, rfl, k0⟩ := h0
  obtain ⟨u1, rfl, rfl, k1⟩ := shw_DOT h1
  obtain ⟨x2, u2, rfl, rfl, k2⟩ := shw_LIST_FUNC_NAME h2
  obtain ⟨u3, rfl, rfl, k3⟩ := shw_LPAR h3
  obtain ⟨x4, rfl, k4⟩ := h4
  obtain ⟨u6, rfl, rfl, k6⟩ := shw_RPAR h6
  · rcases h5 with ⟨q, rfl, _⟩ | ⟨es, e, q, k⟩
    · exact ⟨.method x0 x2 [some x4, .none], (by simp only [keepKids', List.flatMap_cons, List.flatMap_nil, List.replicate_zero, List.replicate_succ, List.getElem?_cons_zero, List.getElem?_cons_succ, Bool.false_eq_true, if_true, if_false, List.append_nil, List.nil_append, List.cons_append, List.append_assoc, w_kids_mkCore, q] <;> rfl), .method (w2 := w4) k0 k1 k2 k3 (.one k4) k6⟩
    · refine ⟨.method x0 x2 ((x4 :: es ++ [e]).map some), (by simp only [keepKids', List.flatMap_cons, List.flatMap_nil, List.replicate_zero, List.replicate_succ, List.getElem?_cons_zero, List.getElem?_cons_succ, Bool.false_eq_true, if_true, if_false, List.append_nil, List.nil_append, List.cons_append, List.append_assoc, w_kids_mkCore, q, Expr.tree, Expr.optTrees, List.map_cons, Expr.optTree] <;> rfl), ?_⟩
      have := ESyn.method (n := n) k0 k1 k2 k3 (.many (by have := k4; simpa only [List.append_assoc, List.nil_append, List.append_nil, List.cons_append, nextT_append, nextT_cons, nextT_nil] using this) k) k6
      simpa only [List.append_assoc, List.nil_append, List.append_nil, List.cons_append, nextT_append, nextT_cons, nextT_nil] using this

theorem r_291 : RuleOK ⟨N.«property_accessor», [N.«value_brackets», T.«DOT», N.«value_brackets»], "property_accessor", false, [(0, false, 0), (2, false, 0)], 0⟩ := by
  refine ruleOK_node ?_
  intro cs w n l h hc hl
  obtain ⟨c0, cs, w0, w, rfl, rfl, h0, h⟩ := fitsW_cons.mp h
  obtain ⟨c1, cs, w1, w, rfl, rfl, h1, h⟩ := fitsW_cons.mp h
  obtain ⟨c2, rfl, h2⟩ := fitsW_one.mp h
  rename' w => w2
  obtain ⟨x0, rfl, k0⟩ := h0
  obtain ⟨u1, rfl, rfl, k1⟩ := shw_DOT h1
  obtain ⟨x2, rfl, k2⟩ := h2
  exact ⟨.bin .prop x0 x2, rfl, .bin rfl k0 k1 k2 (hc.noInfix rfl)⟩

theorem r_295 : RuleOK ⟨N.«__start_star_0», [N.«__start_star_0», N.«element», T.«_CPP_COMMENT_NL»], "__start_star_0", false, [(0, true, 0), (1, false, 0)], 0⟩ := by
  refine ruleOK_node ?_
  intro cs w n l h hc hl
  obtain ⟨c0, cs, w0, w, rfl, rfl, h0, h⟩ := fitsW_cons.mp h
  obtain ⟨c1, cs, w1, w, rfl, rfl, h1, h⟩ := fitsW_cons.mp h
  obtain ⟨c2, rfl, h2⟩ := fitsW_one.mp h
  rename' w => w2
  obtain ⟨x0, q0, k0⟩ := h0
  obtain ⟨l1, x1, rfl, k1, m1⟩ := h1
  obtain ⟨u2, rfl, k2⟩ := shw__CPP_COMMENT_NL h2
  exact ⟨x0 ++ [(l1, x1)], (by simp only [keepKids', List.flatMap_cons, List.flatMap_nil, List.replicate_zero, List.replicate_succ, List.getElem?_cons_zero, List.getElem?_cons_succ, Bool.false_eq_true, if_true, if_false, List.append_nil, List.nil_append, List.cons_append, List.append_assoc, w_kids_mkCore, q0, List.map_append] <;> rfl), by have := ProgSyn.nl (n := n) (p := x0 ++ [(l1, x1)]) (ProgSyn.decl (p := x0) (w1 := w0) (by have := k0; simpa only [List.append_assoc, List.nil_append, List.append_nil, List.cons_append, nextT_append, nextT_cons, nextT_nil] using this) k1 m1) k2; simpa only [List.append_assoc, List.nil_append, List.append_nil, List.cons_append, nextT_append, nextT_cons, nextT_nil] using this⟩

theorem r_299 : RuleOK ⟨N.«___import_statement_star_1», [N.«___import_statement_star_1», T.«COMMA», N.«import_alias»], "___import_statement_star_1", false, [(0, true, 0), (2, false, 0)], 0⟩ := by
  refine ruleOK_node ?_
  intro cs w n l h hc hl
  obtain ⟨c0, cs, w0, w, rfl, rfl, h0, h⟩ := fitsW_cons.mp h
  obtain ⟨c1, cs, w1, w, rfl, rfl, h1, h⟩ := fitsW_cons.mp h
  obtain ⟨c2, rfl, h2⟩ := fitsW_one.mp h
  rename' w => w2
  obtain ⟨x0, q0, k0⟩ := h0
  obtain ⟨u1, rfl, rfl, k1⟩ := shw_COMMA h1
  obtain ⟨x2, rfl, k2⟩ := h2
  exact ⟨x0 ++ [x2], (by simp only [keepKids', List.flatMap_cons, List.flatMap_nil, List.replicate_zero, List.replicate_succ, List.getElem?_cons_zero, List.getElem?_cons_succ, Bool.false_eq_true, if_true, if_false, List.append_nil, List.nil_append, List.cons_append, List.append_assoc, w_kids_mkCore, q0, List.map_append] <;> rfl), .snoc k0 k1 k2⟩

theorem r_303 : RuleOK ⟨N.«__child_resource_plus_3», [N.«__child_resource_plus_3», T.«_CPP_COMMENT_NL»], "__child_resource_plus_3", false, [(0, true, 0)], 0⟩ := by
  refine ruleOK_node ?_
  intro cs w n l h hc hl
  obtain ⟨c0, cs, w0, w, rfl, rfl, h0, h⟩ := fitsW_cons.mp h
  obtain ⟨c1, rfl, h1⟩ := fitsW_one.mp h
  rename' w => w1
  obtain ⟨q0, k0, m0⟩ := h0
  obtain ⟨u1, rfl, k1⟩ := shw__CPP_COMMENT_NL h1
  exact ⟨(by simp only [keepKids', List.flatMap_cons, List.flatMap_nil, List.replicate_zero, List.replicate_succ, List.getElem?_cons_zero, List.getElem?_cons_succ, Bool.false_eq_true, if_true, if_false, List.append_nil, List.nil_append, List.cons_append, List.append_assoc, w_kids_mkCore, q0] <;> rfl), breaks_append k0 (breaks_cons k1 breaks_nil), by simp⟩

theorem r_307 : RuleOK ⟨N.«__data_type_star_5», [N.«__data_type_star_5», N.«array_suffix»], "__data_type_star_5", false, [(0, true, 0), (1, false, 0)], 0⟩ := by
  refine ruleOK_node ?_
  intro cs w n l h hc hl
  obtain ⟨c0, cs, w0, w, rfl, rfl, h0, h⟩ := fitsW_cons.mp h
  obtain ⟨c1, rfl, h1⟩ := fitsW_one.mp h
  rename' w => w1
  obtain ⟨x0, q0, k0⟩ := h0
  obtain ⟨rfl, u1, v1, rfl, k1, m1⟩ := h1
  exact ⟨x0 + 1, (by simp only [keepKids', List.flatMap_cons, List.flatMap_nil, List.replicate_zero, List.replicate_succ, List.getElem?_cons_zero, List.getElem?_cons_succ, Bool.false_eq_true, if_true, if_false, List.append_nil, List.nil_append, List.cons_append, List.append_assoc, w_kids_mkCore, q0]; exact (List.replicate_succ' ..).symm), .succ k0 k1 m1⟩

theorem r_311 : RuleOK ⟨N.«__array_star_7», [N.«__array_star_7», T.«COMMA», N.«value_brackets»], "__array_star_7", false, [(0, true, 0), (2, false, 0)], 0⟩ := by
  refine ruleOK_node ?_
  intro cs w n l h hc hl
  obtain ⟨c0, cs, w0, w, rfl, rfl, h0, h⟩ := fitsW_cons.mp h
  obtain ⟨c1, cs, w1, w, rfl, rfl, h1, h⟩ := fitsW_cons.mp h
  obtain ⟨c2, rfl, h2⟩ := fitsW_one.mp h
  rename' w => w2
  obtain ⟨x0, y0, q0, k0, m0⟩ := h0
  obtain ⟨u1, rfl, rfl, k1⟩ := shw_COMMA h1
  obtain ⟨x2, rfl, k2⟩ := h2
  exact ⟨x0, y0 ++ [x2], (by simp only [keepKids', List.flatMap_cons, List.flatMap_nil, List.replicate_zero, List.replicate_succ, List.getElem?_cons_zero, List.getElem?_cons_succ, Bool.false_eq_true, if_true, if_false, List.append_nil, List.nil_append, List.cons_append, List.append_assoc, w_kids_mkCore, q0, ← w_exprs_append]; simp only [w_exprs_append, List.cons_append, Expr.trees]), by have := ETail.snoc k0 k1 k2 (hc.noInfix rfl); exact this, (hc.noInfix rfl)⟩

theorem r_315 : RuleOK ⟨N.«__array_star_8», [N.«value_brackets»], "__array_star_8", false, [(0, false, 0)], 0⟩ := by
  refine ruleOK_node ?_
  intro cs w n l h hc hl
  obtain ⟨c0, rfl, h0⟩ := fitsW_one.mp h
  rename' w => w0
  obtain ⟨x0, rfl, k0⟩ := h0
  exact ⟨[] ++ x0 :: [], (by simp only [keepKids', List.flatMap_cons, List.flatMap_nil, List.replicate_zero, List.replicate_succ, List.getElem?_cons_zero, List.getElem?_cons_succ, Bool.false_eq_true, if_true, if_false, List.append_nil, List.nil_append, List.cons_append, List.append_assoc, w_kids_mkCore, w_exprs_append, Expr.trees] <;> rfl), (by have := Elems.snoc (es := []) (w1 := []) (w2 := w0) (w3 := []) (w4 := []) (es' := []) (n := n) .nil (by have := k0; simpa only [List.append_assoc, List.nil_append, List.append_nil, List.cons_append, nextT_append, nextT_cons, nextT_nil] using this) .nil breaks_nil (hc.noInfix rfl); simpa only [List.append_assoc, List.nil_append, List.append_nil, List.cons_append, nextT_append, nextT_cons, nextT_nil] using this)⟩

theorem r_319 : RuleOK ⟨N.«__array_star_8», [N.«__array_star_8», N.«value_brackets»], "__array_star_8", false, [(0, true, 0), (1, false, 0)], 0⟩ := by
  refine ruleOK_node ?_
  intro cs w n l h hc hl
  obtain ⟨c0, cs, w0, w, rfl, rfl, h0, h⟩ := fitsW_cons.mp h
  obtain ⟨c1, rfl, h1⟩ := fitsW_one.mp h
  rename' w => w1
  obtain ⟨x0, q0, k0⟩ := h0
  obtain ⟨x1, rfl, k1⟩ := h1
  exact ⟨x0 ++ x1 :: [], (by simp only [keepKids', List.flatMap_cons, List.flatMap_nil, List.replicate_zero, List.replicate_succ, List.getElem?_cons_zero, List.getElem?_cons_succ, Bool.false_eq_true, if_true, if_false, List.append_nil, List.nil_append, List.cons_append, List.append_assoc, w_kids_mkCore, q0, w_exprs_append, Expr.trees] <;> rfl), (by have := Elems.snoc (es := x0) (w1 := w0) (w2 := w1) (w3 := []) (w4 := []) (es' := []) (n := n) (by have := k0; simpa only [List.append_assoc, List.nil_append, List.append_nil, List.cons_append, nextT_append, nextT_cons, nextT_nil] using this) (by have := k1; simpa only [List.append_assoc, List.nil_append, List.append_nil, List.cons_append, nextT_append, nextT_cons, nextT_nil] using this) .nil breaks_nil (hc.noInfix rfl); simpa only [List.append_assoc, List.nil_append, List.append_nil, List.cons_append, nextT_append, nextT_cons, nextT_nil] using this)⟩

theorem r_323 : RuleOK ⟨N.«__object_star_10», [N.«pair», N.«__object_star_9»], "__object_star_10", false, [(0, false, 0), (1, true, 0)], 0⟩ := by
  refine ruleOK_node ?_
  intro cs w n l h hc hl
  obtain ⟨c0, cs, w0, w, rfl, rfl, h0, h⟩ := fitsW_cons.mp h
  obtain ⟨c1, rfl, h1⟩ := fitsW_one.mp h
  rename' w => w1
  obtain ⟨x0, rfl, k0⟩ := h0
  obtain ⟨x1, q1, k1⟩ := h1
  exact ⟨[] ++ x0 :: x1, (by simp only [keepKids', List.flatMap_cons, List.flatMap_nil, List.replicate_zero, List.replicate_succ, List.getElem?_cons_zero, List.getElem?_cons_succ, Bool.false_eq_true, if_true, if_false, List.append_nil, List.nil_append, List.cons_append, List.append_assoc, w_kids_mkCore, q1, w_items_append, Item.trees] <;> rfl), (by have := Items.pairs (is := []) (w1 := []) (w2 := w0) (w3 := w1) (w4 := []) (is' := x1) (n := n) .nil (by have := k0; simpa only [List.append_assoc, List.nil_append, List.append_nil, List.cons_append, nextT_append, nextT_cons, nextT_nil] using this) k1 breaks_nil; simpa only [List.append_assoc, List.nil_append, List.append_nil, List.cons_append, nextT_append, nextT_cons, nextT_nil] using this)⟩

theorem r_327 : RuleOK ⟨N.«__object_star_10», [N.«child_resource»], "__object_star_10", false, [(0, false, 0)], 0⟩ := by
  refine ruleOK_node ?_
  intro cs w n l h hc hl
  obtain ⟨c0, rfl, h0⟩ := fitsW_one.mp h
  rename' w => w0
  obtain ⟨x0, rfl, k0⟩ := h0
  exact ⟨[] ++ [x0], (by simp only [keepKids', List.flatMap_cons, List.flatMap_nil, List.replicate_zero, List.replicate_succ, List.getElem?_cons_zero, List.getElem?_cons_succ, Bool.false_eq_true, if_true, if_false, List.append_nil, List.nil_append, List.cons_append, List.append_assoc, w_kids_mkCore, w_items_append, Item.trees] <;> rfl), (by have := Items.child (is := []) (w1 := []) (w2 := w0) (w3 := []) (n := n) .nil (by have := k0; simpa only [List.append_assoc, List.nil_append, List.append_nil, List.cons_append, nextT_append, nextT_cons, nextT_nil] using this) breaks_nil; simpa only [List.append_assoc, List.nil_append, List.append_nil, List.cons_append, nextT_append, nextT_cons, nextT_nil] using this)⟩

theorem r_331 : RuleOK ⟨N.«__object_star_10», [N.«__object_star_10», N.«pair»], "__object_star_10", false, [(0, true, 0), (1, false, 0)], 0⟩ := by
  refine ruleOK_node ?_
  intro cs w n l h hc hl
  obtain ⟨c0, cs, w0, w, rfl, rfl, h0, h⟩ := fitsW_cons.mp h
  obtain ⟨c1, rfl, h1⟩ := fitsW_one.mp h
  rename' w => w1
  obtain ⟨x0, q0, k0⟩ := h0
  obtain ⟨x1, rfl, k1⟩ := h1
  exact ⟨x0 ++ x1 :: [], (by simp only [keepKids', List.flatMap_cons, List.flatMap_nil, List.replicate_zero, List.replicate_succ, List.getElem?_cons_zero, List.getElem?_cons_succ, Bool.false_eq_true, if_true, if_false, List.append_nil, List.nil_append, List.cons_append, List.append_assoc, w_kids_mkCore, q0, w_items_append, Item.trees] <;> rfl), (by have := Items.pairs (is := x0) (w1 := w0) (w2 := w1) (w3 := []) (w4 := []) (is' := []) (n := n) (by have := k0; simpa only [List.append_assoc, List.nil_append, List.append_nil, List.cons_append, nextT_append, nextT_cons, nextT_nil] using this) (by have := k1; simpa only [List.append_assoc, List.nil_append, List.append_nil, List.cons_append, nextT_append, nextT_cons, nextT_nil] using this) .nil breaks_nil; simpa only [List.append_assoc, List.nil_append, List.append_nil, List.cons_append, nextT_append, nextT_cons, nextT_nil] using this)⟩

theorem r_335 : RuleOK ⟨N.«__decorators_plus_11», [N.«__decorators_plus_11», N.«decorator»], "__decorators_plus_11", false, [(0, true, 0), (1, false, 0)], 0⟩ := by
  refine ruleOK_node ?_
  intro cs w n l h hc hl
  obtain ⟨c0, cs, w0, w, rfl, rfl, h0, h⟩ := fitsW_cons.mp h
  obtain ⟨c1, rfl, h1⟩ := fitsW_one.mp h
  rename' w => w1
  obtain ⟨x0, y0, q0, k0⟩ := h0
  obtain ⟨x1, rfl, k1⟩ := h1
  exact ⟨x0, y0 ++ [x1], (by simp only [keepKids', List.flatMap_cons, List.flatMap_nil, List.replicate_zero, List.replicate_succ, List.getElem?_cons_zero, List.getElem?_cons_succ, Bool.false_eq_true, if_true, if_false, List.append_nil, List.nil_append, List.cons_append, List.append_assoc, w_kids_mkCore, q0, List.map_append, List.map_cons, List.map_nil]), .snoc k0 k1⟩

theorem r_339 : RuleOK ⟨N.«__function_star_12», [N.«__function_star_12», T.«COMMA», N.«value_brackets»], "__function_star_12", false, [(0, true, 0), (2, false, 0)], 0⟩ := by
  refine ruleOK_node ?_
  intro cs w n l h hc hl
  obtain ⟨c0, cs, w0, w, rfl, rfl, h0, h⟩ := fitsW_cons.mp h
  obtain ⟨c1, cs, w1, w, rfl, rfl, h1, h⟩ := fitsW_cons.mp h
  obtain ⟨c2, rfl, h2⟩ := fitsW_one.mp h
  rename' w => w2
  obtain ⟨x0, q0, k0⟩ := h0
  obtain ⟨u1, rfl, rfl, k1⟩ := shw_COMMA h1
  obtain ⟨x2, rfl, k2⟩ := h2
  exact ⟨x0 ++ [x2], (by simp only [keepKids', List.flatMap_cons, List.flatMap_nil, List.replicate_zero, List.replicate_succ, List.getElem?_cons_zero, List.getElem?_cons_succ, Bool.false_eq_true, if_true, if_false, List.append_nil, List.nil_append, List.cons_append, List.append_assoc, w_kids_mkCore, q0, w_exprs_append] <;> rfl), .snoc (es := x0) (w1 := w0) (w2 := []) k0 k1 optBreak_none k2 (hc.noInfix rfl)⟩

theorem r_343 : RuleOK ⟨N.«__function_accessor_plus_13», [N.«__function_accessor_plus_13»], "__function_accessor_plus_13", false, [(0, true, 0)], 1⟩ := by
  refine ruleOK_node ?_
  intro cs w n l h hc hl
  obtain ⟨c0, rfl, h0⟩ := fitsW_one.mp h
  rename' w => w0
  exact (hc.loop13 rfl).elim

/-- the rules of this file -/
def list3 : List Rule := [
  ⟨N.«element», [T.«IMPORT», N.«_import_statement»], "custom_import", false, [(1, true, 0)], 0⟩,
  ⟨N.«element», [T.«EXTENSION», T.«STRING»], "extension", false, [(1, false, 0)], 2⟩,
  ⟨N.«element», [N.«decorators», T.«PARAM», T.«STRING», N.«data_type», T.«EQUAL», N.«value_brackets»], "param", false, [(0, false, 0), (2, false, 0), (3, false, 0), (5, false, 0)], 0⟩,
  ⟨N.«element», [T.«PARAM», T.«STRING», N.«data_type», T.«EQUAL», N.«value_brackets»], "param", false, [(1, false, 1), (2, false, 0), (4, false, 0)], 0⟩,
  ⟨N.«element», [N.«decorators», T.«VAR», T.«STRING», T.«EQUAL», N.«var_value»], "var", false, [(0, false, 0), (2, false, 0), (4, false, 1)], 0⟩,
  ⟨N.«element», [N.«decorators», T.«OUTPUT», T.«STRING», N.«data_type», T.«QMARK», T.«EQUAL», N.«output_value»], "output", false, [(0, false, 0), (2, false, 0), (3, false, 0), (6, false, 0)], 0⟩,
  ⟨N.«element», [N.«decorators», T.«RESOURCE», T.«STRING», N.«type_api_pair», T.«EXISTING», T.«EQUAL», N.«resource_value»], "resource", false, [(0, false, 0), (2, false, 0), (3, false, 0), (4, false, 0), (6, false, 0)], 0⟩,
  ⟨N.«element», [N.«decorators», T.«MODULE», T.«STRING», N.«module_path», T.«EQUAL», N.«module_value»], "module", false, [(0, false, 0), (2, false, 0), (3, false, 0), (5, false, 0)], 0⟩,
  ⟨N.«element», [N.«decorators», T.«FUNC», N.«_func_statement»], "custom_func", false, [(0, false, 0), (2, true, 0)], 0⟩,
  ⟨N.«value», [T.«_NEWLINE», T.«TRUE»], "true", false, [], 0⟩,
  ⟨N.«value», [T.«_NEWLINE», T.«INT»], "int_type", false, [(1, false, 0)], 0⟩,
  ⟨N.«value», [T.«_NEWLINE», T.«QUOTED_INTERPOLATION»], "string", false, [(1, false, 0)], 0⟩,
  ⟨N.«value», [N.«object»], "value", true, [(0, false, 0)], 0⟩,
  ⟨N.«value», [N.«lambda_expression»], "value", true, [(0, false, 0)], 0⟩,
  ⟨N.«value_brackets», [T.«LPAR», N.«value», T.«RPAR»], "value_brackets", true, [(1, false, 0)], 0⟩,
  ⟨N.«_import_statement», [T.«QUOTED_INTERPOLATION»], "_import_statement", false, [(0, false, 0)], 0⟩,
  ⟨N.«var_value», [N.«value_brackets»], "var_value", true, [(0, false, 0)], 0⟩,
  ⟨N.«output_value», [N.«loop»], "output_value", true, [(0, false, 0)], 0⟩,
  ⟨N.«module_value», [N.«object»], "module_value", true, [(0, false, 0)], 0⟩,
  ⟨N.«child_resource», [T.«RESOURCE», T.«STRING», T.«QUOTED_INTERPOLATION», T.«EXISTING», T.«EQUAL», N.«loop», N.«__child_resource_plus_3»], "child_resource", false, [(1, false, 0), (2, false, 0), (3, false, 0), (5, false, 0), (6, true, 0)], 0⟩,
  ⟨N.«child_resource», [T.«RESOURCE», T.«STRING», T.«QUOTED_INTERPOLATION», T.«EQUAL», N.«deploy_condition», N.«__child_resource_plus_3»], "child_resource", false, [(1, false, 0), (2, false, 0), (4, false, 1), (5, true, 0)], 0⟩,
  ⟨N.«data_type», [N.«base_type»], "data_type", false, [(0, false, 0)], 0⟩,
  ⟨N.«array_suffix», [T.«LSQB», T.«RSQB»], "array_suffix", false, [], 0⟩,
  ⟨N.«import_alias», [T.«STRING»], "import_alias", false, [(0, false, 0)], 1⟩,
  ⟨N.«loop», [T.«LSQB», T.«_CPP_COMMENT_NL», T.«FOR», N.«loop_array», T.«COLON», N.«value_brackets», N.«value_brackets», T.«RSQB»], "loop", false, [(3, false, 0), (5, false, 0), (6, false, 0)], 0⟩,
  ⟨N.«loop», [T.«LSQB», T.«_CPP_COMMENT_NL», T.«FOR», N.«loop_array_index», T.«COLON», N.«value_brackets», N.«value_brackets», T.«RSQB»], "loop", false, [(3, false, 0), (5, false, 0), (6, false, 0)], 0⟩,
  ⟨N.«loop», [T.«LSQB», T.«_CPP_COMMENT_NL», T.«FOR», N.«loop_object», T.«COLON», N.«value_brackets», N.«value_brackets», T.«RSQB»], "loop", false, [(3, false, 0), (5, false, 0), (6, false, 0)], 0⟩,
  ⟨N.«loop», [T.«LSQB», T.«FOR», N.«loop_array», T.«COLON», N.«value_brackets», N.«value_brackets», T.«RSQB»], "loop", false, [(2, false, 0), (4, false, 0), (5, false, 0)], 0⟩,
  ⟨N.«loop», [T.«LSQB», T.«FOR», N.«loop_array_index», T.«COLON», N.«value_brackets», N.«value_brackets», T.«RSQB»], "loop", false, [(2, false, 0), (4, false, 0), (5, false, 0)], 0⟩,
  ⟨N.«loop», [T.«LSQB», T.«FOR», N.«loop_object», T.«COLON», N.«value_brackets», N.«value_brackets», T.«RSQB»], "loop", false, [(2, false, 0), (4, false, 0), (5, false, 0)], 0⟩,
  ⟨N.«loop_array_index», [T.«LPAR», T.«STRING», T.«COMMA», T.«STRING», T.«RPAR», T.«IN», N.«value_brackets»], "loop_array_index", false, [(1, false, 0), (3, false, 0), (6, false, 0)], 0⟩,
  ⟨N.«quoted_string», [T.«STRING»], "quoted_string", true, [(0, false, 0)], 0⟩,
  ⟨N.«array», [T.«LSQB», N.«__child_resource_plus_3», T.«RSQB»], "array", false, [(1, true, 0)], 0⟩,
  ⟨N.«object», [T.«LBRACE», N.«__child_resource_plus_3», T.«RBRACE»], "object", false, [(1, true, 0)], 0⟩,
  ⟨N.«pair», [N.«key», T.«COLON», N.«value_brackets»], "pair", false, [(0, false, 0), (2, false, 0)], 0⟩,
  ⟨N.«key», [N.«quoted_string»], "key", false, [(0, false, 0)], 0⟩,
  ⟨N.«decorator», [T.«AT», T.«__ANON_2», T.«LPAR», T.«_CPP_COMMENT_NL», N.«value_brackets», T.«_CPP_COMMENT_NL», T.«RPAR», T.«_CPP_COMMENT_NL»], "decorator", false, [(1, false, 0), (4, false, 0)], 0⟩,
  ⟨N.«decorator», [T.«AT», T.«__ANON_2», T.«LPAR», T.«_CPP_COMMENT_NL», N.«value_brackets», T.«_CPP_COMMENT_NL», T.«RPAR», T.«_CPP_COMMENT_NL», T.«_CPP_COMMENT_NL», T.«_CPP_COMMENT_NL», T.«_CPP_COMMENT_NL», T.«_CPP_COMMENT_NL»], "decorator", false, [(1, false, 0), (4, false, 0)], 0⟩,
  ⟨N.«decorator», [T.«AT», T.«__ANON_2», T.«LPAR», T.«_CPP_COMMENT_NL», N.«value_brackets», T.«_CPP_COMMENT_NL», T.«RPAR», T.«_CPP_COMMENT_NL», T.«_CPP_COMMENT_NL», T.«_CPP_COMMENT_NL», T.«_CPP_COMMENT_NL», T.«_CPP_COMMENT_NL», T.«_CPP_COMMENT_NL», T.«_CPP_COMMENT_NL», T.«_CPP_COMMENT_NL», T.«_CPP_COMMENT_NL»], "decorator", false, [(1, false, 0), (4, false, 0)], 0⟩,
  ⟨N.«decorator», [T.«AT», T.«__ANON_2», T.«LPAR», T.«_CPP_COMMENT_NL», N.«value_brackets», T.«RPAR», T.«_CPP_COMMENT_NL», T.«_CPP_COMMENT_NL»], "decorator", false, [(1, false, 0), (4, false, 0)], 0⟩,
  ⟨N.«decorator», [T.«AT», T.«__ANON_2», T.«LPAR», T.«_CPP_COMMENT_NL», N.«value_brackets», T.«RPAR», T.«_CPP_COMMENT_NL», T.«_CPP_COMMENT_NL», T.«_CPP_COMMENT_NL», T.«_CPP_COMMENT_NL», T.«_CPP_COMMENT_NL», T.«_CPP_COMMENT_NL»], "decorator", false, [(1, false, 0), (4, false, 0)], 0⟩,
  ⟨N.«decorator», [T.«AT», T.«__ANON_2», T.«LPAR», T.«_CPP_COMMENT_NL», N.«value_brackets», T.«RPAR», T.«_CPP_COMMENT_NL», T.«_CPP_COMMENT_NL», T.«_CPP_COMMENT_NL», T.«_CPP_COMMENT_NL», T.«_CPP_COMMENT_NL», T.«_CPP_COMMENT_NL», T.«_CPP_COMMENT_NL», T.«_CPP_COMMENT_NL», T.«_CPP_COMMENT_NL», T.«_CPP_COMMENT_NL»], "decorator", false, [(1, false, 0), (4, false, 0)], 0⟩,
  ⟨N.«decorator», [T.«AT», T.«__ANON_2», T.«LPAR», T.«_CPP_COMMENT_NL», T.«_CPP_COMMENT_NL», T.«RPAR», T.«_CPP_COMMENT_NL», T.«_CPP_COMMENT_NL», T.«_CPP_COMMENT_NL»], "decorator", false, [(1, false, 0)], 0⟩,
  ⟨N.«decorator», [T.«AT», T.«__ANON_2», T.«LPAR», T.«_CPP_COMMENT_NL», T.«_CPP_COMMENT_NL», T.«RPAR», T.«_CPP_COMMENT_NL», T.«_CPP_COMMENT_NL», T.«_CPP_COMMENT_NL», T.«_CPP_COMMENT_NL», T.«_CPP_COMMENT_NL», T.«_CPP_COMMENT_NL», T.«_CPP_COMMENT_NL»], "decorator", false, [(1, false, 0)], 0⟩,
  ⟨N.«decorator», [T.«AT», T.«__ANON_2», T.«LPAR», T.«_CPP_COMMENT_NL», T.«RPAR»], "decorator", false, [(1, false, 0)], 0⟩,
  ⟨N.«decorator», [T.«AT», T.«__ANON_2», T.«LPAR», T.«_CPP_COMMENT_NL», T.«RPAR», T.«_CPP_COMMENT_NL», T.«_CPP_COMMENT_NL», T.«_CPP_COMMENT_NL», T.«_CPP_COMMENT_NL»], "decorator", false, [(1, false, 0)], 0⟩,
  ⟨N.«decorator», [T.«AT», T.«__ANON_2», T.«LPAR», T.«_CPP_COMMENT_NL», T.«RPAR», T.«_CPP_COMMENT_NL», T.«_CPP_COMMENT_NL», T.«_CPP_COMMENT_NL», T.«_CPP_COMMENT_NL», T.«_CPP_COMMENT_NL», T.«_CPP_COMMENT_NL», T.«_CPP_COMMENT_NL», T.«_CPP_COMMENT_NL»], "decorator", false, [(1, false, 0)], 0⟩,
  ⟨N.«decorator», [T.«AT», T.«__ANON_2», T.«LPAR», N.«value_brackets», T.«_CPP_COMMENT_NL», T.«RPAR», T.«_CPP_COMMENT_NL»], "decorator", false, [(1, false, 0), (3, false, 0)], 0⟩,
  ⟨N.«decorator», [T.«AT», T.«__ANON_2», T.«LPAR», N.«value_brackets», T.«_CPP_COMMENT_NL», T.«RPAR», T.«_CPP_COMMENT_NL», T.«_CPP_COMMENT_NL», T.«_CPP_COMMENT_NL», T.«_CPP_COMMENT_NL», T.«_CPP_COMMENT_NL»], "decorator", false, [(1, false, 0), (3, false, 0)], 0⟩,
  ⟨N.«decorator», [T.«AT», T.«__ANON_2», T.«LPAR», N.«value_brackets», T.«_CPP_COMMENT_NL», T.«RPAR», T.«_CPP_COMMENT_NL», T.«_CPP_COMMENT_NL», T.«_CPP_COMMENT_NL», T.«_CPP_COMMENT_NL», T.«_CPP_COMMENT_NL», T.«_CPP_COMMENT_NL», T.«_CPP_COMMENT_NL», T.«_CPP_COMMENT_NL», T.«_CPP_COMMENT_NL»], "decorator", false, [(1, false, 0), (3, false, 0)], 0⟩,
  ⟨N.«decorator», [T.«AT», T.«__ANON_2», T.«LPAR», N.«value_brackets», T.«RPAR», T.«_CPP_COMMENT_NL», T.«_CPP_COMMENT_NL»], "decorator", false, [(1, false, 0), (3, false, 0)], 0⟩,
  ⟨N.«decorator», [T.«AT», T.«__ANON_2», T.«LPAR», N.«value_brackets», T.«RPAR», T.«_CPP_COMMENT_NL», T.«_CPP_COMMENT_NL», T.«_CPP_COMMENT_NL», T.«_CPP_COMMENT_NL», T.«_CPP_COMMENT_NL», T.«_CPP_COMMENT_NL»], "decorator", false, [(1, false, 0), (3, false, 0)], 0⟩,
  ⟨N.«decorator», [T.«AT», T.«__ANON_2», T.«LPAR», N.«value_brackets», T.«RPAR», T.«_CPP_COMMENT_NL», T.«_CPP_COMMENT_NL», T.«_CPP_COMMENT_NL», T.«_CPP_COMMENT_NL», T.«_CPP_COMMENT_NL», T.«_CPP_COMMENT_NL», T.«_CPP_COMMENT_NL», T.«_CPP_COMMENT_NL», T.«_CPP_COMMENT_NL», T.«_CPP_COMMENT_NL»], "decorator", false, [(1, false, 0), (3, false, 0)], 0⟩,
  ⟨N.«decorator», [T.«AT», T.«__ANON_2», T.«LPAR», T.«RPAR», T.«_CPP_COMMENT_NL», T.«_CPP_COMMENT_NL», T.«_CPP_COMMENT_NL»], "decorator", false, [(1, false, 0)], 0⟩,
  ⟨N.«decorator», [T.«AT», T.«__ANON_2», T.«LPAR», T.«RPAR», T.«_CPP_COMMENT_NL», T.«_CPP_COMMENT_NL», T.«_CPP_COMMENT_NL», T.«_CPP_COMMENT_NL», T.«_CPP_COMMENT_NL», T.«_CPP_COMMENT_NL», T.«_CPP_COMMENT_NL»], "decorator", false, [(1, false, 0)], 0⟩,
  ⟨N.«decorators», [N.«__decorators_plus_11»], "decorators", false, [(0, true, 0)], 0⟩,
  ⟨N.«function», [T.«FUNCTION», T.«_CPP_COMMENT_NL», N.«value_brackets», T.«RPAR»], "function", false, [(0, false, 0), (2, false, 0)], 0⟩,
  ⟨N.«function», [T.«FUNCTION», T.«_CPP_COMMENT_NL», T.«RPAR»], "function", false, [(0, false, 0)], 0⟩,
  ⟨N.«function», [T.«FUNCTION», N.«value_brackets», T.«RPAR»], "function", false, [(0, false, 0), (1, false, 0)], 0⟩,
  ⟨N.«operator», [N.«operator_comparison»], "operator", false, [(0, false, 0)], 0⟩,
  ⟨N.«operator_comparison», [N.«greater_than_or_equals»], "operator_comparison", true, [(0, false, 0)], 0⟩,
  ⟨N.«operator_comparison», [N.«equals»], "operator_comparison", true, [(0, false, 0)], 0⟩,
  ⟨N.«greater_than_or_equals», [N.«value_brackets», T.«__ANON_3», N.«value_brackets»], "greater_than_or_equals", false, [(0, false, 0), (2, false, 0)], 0⟩,
  ⟨N.«equals», [N.«value_brackets», T.«__ANON_5», N.«value_brackets»], "equals", false, [(0, false, 0), (2, false, 0)], 0⟩,
  ⟨N.«operator_logical», [N.«and_op»], "operator_logical", true, [(0, false, 0)], 0⟩,
  ⟨N.«operator_logical», [N.«conditional»], "operator_logical", true, [(0, false, 0)], 0⟩,
  ⟨N.«coalesce», [N.«value_brackets», T.«__ANON_11», N.«value_brackets»], "coalesce", false, [(0, false, 0), (2, false, 0)], 0⟩,
  ⟨N.«operator_numeric», [N.«minus»], "operator_numeric", true, [(0, false, 0)], 0⟩,
  ⟨N.«add», [N.«value_brackets», T.«PLUS», N.«value_brackets»], "add", false, [(0, false, 0), (2, false, 0)], 0⟩,
  ⟨N.«multiply», [N.«value_brackets», T.«STAR», N.«value_brackets»], "multiply", false, [(0, false, 0), (2, false, 0)], 0⟩,
  ⟨N.«operator_accessor», [N.«nested_resource_accessor»], "operator_accessor", true, [(0, false, 0)], 0⟩,
  ⟨N.«function_accessor», [N.«value_brackets», T.«DOT», T.«LIST_FUNC_NAME», T.«LPAR», N.«value_brackets», N.«__function_accessor_plus_13», T.«RPAR»], "function_accessor", false, [(0, false, 0), (2, false, 0), (4, false, 0), (5, true, 0)], 0⟩,
  ⟨N.«property_accessor», [N.«value_brackets», T.«DOT», N.«value_brackets»], "property_accessor", false, [(0, false, 0), (2, false, 0)], 0⟩,
  ⟨N.«__start_star_0», [N.«__start_star_0», N.«element», T.«_CPP_COMMENT_NL»], "__start_star_0", false, [(0, true, 0), (1, false, 0)], 0⟩,
  ⟨N.«___import_statement_star_1», [N.«___import_statement_star_1», T.«COMMA», N.«import_alias»], "___import_statement_star_1", false, [(0, true, 0), (2, false, 0)], 0⟩,
  ⟨N.«__child_resource_plus_3», [N.«__child_resource_plus_3», T.«_CPP_COMMENT_NL»], "__child_resource_plus_3", false, [(0, true, 0)], 0⟩,
  ⟨N.«__data_type_star_5», [N.«__data_type_star_5», N.«array_suffix»], "__data_type_star_5", false, [(0, true, 0), (1, false, 0)], 0⟩,
  ⟨N.«__array_star_7», [N.«__array_star_7», T.«COMMA», N.«value_brackets»], "__array_star_7", false, [(0, true, 0), (2, false, 0)], 0⟩,
  ⟨N.«__array_star_8», [N.«value_brackets»], "__array_star_8", false, [(0, false, 0)], 0⟩,
  ⟨N.«__array_star_8», [N.«__array_star_8», N.«value_brackets»], "__array_star_8", false, [(0, true, 0), (1, false, 0)], 0⟩,
  ⟨N.«__object_star_10», [N.«pair», N.«__object_star_9»], "__object_star_10", false, [(0, false, 0), (1, true, 0)], 0⟩,
  ⟨N.«__object_star_10», [N.«child_resource»], "__object_star_10", false, [(0, false, 0)], 0⟩,
  ⟨N.«__object_star_10», [N.«__object_star_10», N.«pair»], "__object_star_10", false, [(0, true, 0), (1, false, 0)], 0⟩,
  ⟨N.«__decorators_plus_11», [N.«__decorators_plus_11», N.«decorator»], "__decorators_plus_11", false, [(0, true, 0), (1, false, 0)], 0⟩,
  ⟨N.«__function_star_12», [N.«__function_star_12», T.«COMMA», N.«value_brackets»], "__function_star_12", false, [(0, true, 0), (2, false, 0)], 0⟩,
  ⟨N.«__function_accessor_plus_13», [N.«__function_accessor_plus_13»], "__function_accessor_plus_13", false, [(0, true, 0)], 1⟩]

theorem ok3 : ∀ r ∈ list3, RuleOK r := by
  simp only [list3, List.forall_mem_cons]
  exact ⟨r_3, r_7, r_11, r_15, r_19, r_23, r_27, r_31, r_35, r_39, r_43, r_47, r_51, r_55, r_59, r_63, r_67, r_71, r_75, r_79, r_83, r_87, r_91, r_95, r_99, r_103, r_107, r_111, r_115, r_119, r_123, r_127, r_131, r_135, r_139, r_143, r_147, r_151, r_155, r_159, r_163, r_167, r_171, r_175, r_179, r_183, r_187, r_191, r_195, r_199, r_203, r_207, r_211, r_215, r_219, r_223, r_227, r_231, r_235, r_239, r_243, r_247, r_251, r_255, r_259, r_263, r_267, r_271, r_275, r_279, r_283, r_287, r_291, r_295, r_299, r_303, r_307, r_311, r_315, r_319, r_323, r_327, r_331, r_335, r_339, r_343, fun _ h => nomatch h⟩

end Pycep.SynRules
