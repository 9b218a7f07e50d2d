import Verif.Proofs.SynBase
/-
GENERATED by tools/gen_syntax_proofs.py.
The trees and tokens of derivations are those of syntax: one case per grammar rule.
-/
set_option linter.all false
namespace Pycep.SynRules
theorem r_0 : RuleOK ⟨N.«start», [N.«__start_star_0»], "start", false, [(0, true, 0)], 0⟩ := by
  refine ruleOK_node ?_
  intro cs w n l h hc hl
  obtain ⟨c0, rfl, h0⟩ := fitsW_one.mp h
  rename' w => w0
  obtain ⟨x0, q0, k0⟩ := h0
  exact ⟨x0, (by simp only [keepKids', List.flatMap_cons, List.flatMap_nil, List.replicate_zero, List.replicate_succ, List.getElem?_cons_zero, List.getElem?_cons_succ, Bool.false_eq_true, if_true, if_false, List.append_nil, List.nil_append, List.cons_append, List.append_assoc, w_kids_mkCore, q0] <;> rfl), k0⟩

theorem r_4 : RuleOK ⟨N.«element», [T.«EXTENSION», T.«STRING», T.«WITH», N.«object», T.«AS», T.«STRING»], "extension", false, [(1, false, 0), (3, false, 0), (5, false, 0)], 0⟩ := by
  refine ruleOK_node ?_
  intro cs w n l h hc hl
  obtain ⟨c0, cs, w0, w, rfl, rfl, h0, h⟩ := fitsW_cons.mp h
  obtain ⟨c1, cs, w1, w, rfl, rfl, h1, h⟩ := fitsW_cons.mp h
  obtain ⟨c2, cs, w2, w, rfl, rfl, h2, h⟩ := fitsW_cons.mp h
  obtain ⟨c3, cs, w3, w, rfl, rfl, h3, h⟩ := fitsW_cons.mp h
  obtain ⟨c4, cs, w4, w, rfl, rfl, h4, h⟩ := fitsW_cons.mp h
  obtain ⟨c5, rfl, h5⟩ := fitsW_one.mp h
  rename' w => w5
  obtain ⟨u0, rfl, rfl, k0⟩ := shw_EXTENSION h0
  obtain ⟨x1, u1, rfl, rfl, k1⟩ := shw_STRING h1
  obtain ⟨u2, rfl, rfl, k2⟩ := shw_WITH h2
  obtain ⟨x3, rfl, k3⟩ := h3
  obtain ⟨u4, rfl, rfl, k4⟩ := shw_AS h4
  obtain ⟨x5, u5, rfl, rfl, k5⟩ := shw_STRING h5
  exact ⟨l, .extension x1 (some x3) (some x5), rfl, (by have := DeclSyn.extension (w1 := (u2 :: w3)) (w2 := [u4, u5]) (n := n) k0 k1 (.yes k2 k3) (.yes k4 k5); simpa only [List.append_assoc, List.nil_append, List.append_nil, List.cons_append, nextT_append, nextT_cons, nextT_nil] using this), hl rfl⟩

theorem r_8 : RuleOK ⟨N.«element», [T.«METADATA», T.«STRING», T.«EQUAL», N.«metadata_value»], "metadata", false, [(1, false, 0), (3, false, 0)], 0⟩ := by
  refine ruleOK_node ?_
  intro cs w n l h hc hl
  obtain ⟨c0, cs, w0, w, rfl, rfl, h0, h⟩ := fitsW_cons.mp h
  obtain ⟨c1, cs, w1, w, rfl, rfl, h1, h⟩ := fitsW_cons.mp h
  obtain ⟨c2, cs, w2, w, rfl, rfl, h2, h⟩ := fitsW_cons.mp h
  obtain ⟨c3, rfl, h3⟩ := fitsW_one.mp h
  rename' w => w3
  obtain ⟨u0, rfl, rfl, k0⟩ := shw_METADATA h0
  obtain ⟨x1, u1, rfl, rfl, k1⟩ := shw_STRING h1
  obtain ⟨u2, rfl, rfl, k2⟩ := shw_EQUAL h2
  obtain ⟨x3, u3, rfl, rfl, k3⟩ := h3
  exact ⟨l, .metadata x1 x3, rfl, .metadata k0 k1 k2 k3, hl rfl⟩

theorem r_12 : RuleOK ⟨N.«element», [N.«decorators», T.«PARAM», T.«STRING», N.«data_type»], "param", false, [(0, false, 0), (2, false, 0), (3, false, 0)], 1⟩ := by
  refine ruleOK_node ?_
  intro cs w n l h hc hl
  obtain ⟨c0, cs, w0, w, rfl, rfl, h0, h⟩ := fitsW_cons.mp h
  obtain ⟨c1, cs, w1, w, rfl, rfl, h1, h⟩ := fitsW_cons.mp h
  obtain ⟨c2, cs, w2, w, rfl, rfl, h2, h⟩ := fitsW_cons.mp h
  obtain ⟨c3, rfl, h3⟩ := fitsW_one.mp h
  rename' w => w3
  obtain ⟨x0, y0, rfl, k0⟩ := h0
  obtain ⟨u1, rfl, rfl, k1⟩ := shw_PARAM h1
  obtain ⟨x2, u2, rfl, rfl, k2⟩ := shw_STRING h2
  obtain ⟨x3, rfl, k3⟩ := h3
  exact ⟨l, .param (x0 :: y0) x2 x3 .none, rfl, (by have := DeclSyn.param (ds := (x0 :: y0)) (w0 := w0) (w2 := []) (w3 := []) (n := n) k0 k1 k2 k3 optMark_none .no; simpa only [List.append_assoc, List.nil_append, List.append_nil, List.cons_append, nextT_append, nextT_cons, nextT_nil] using this), hl rfl⟩

theorem r_16 : RuleOK ⟨N.«element», [T.«PARAM», T.«STRING», N.«data_type»], "param", false, [(1, false, 1), (2, false, 0)], 1⟩ := by
  refine ruleOK_node ?_
  intro cs w n l h hc hl
  obtain ⟨c0, cs, w0, w, rfl, rfl, h0, h⟩ := fitsW_cons.mp h
  obtain ⟨c1, cs, w1, w, rfl, rfl, h1, h⟩ := fitsW_cons.mp h
  obtain ⟨c2, rfl, h2⟩ := fitsW_one.mp h
  rename' w => w2
  obtain ⟨u0, rfl, rfl, k0⟩ := shw_PARAM h0
  obtain ⟨x1, u1, rfl, rfl, k1⟩ := shw_STRING h1
  obtain ⟨x2, rfl, k2⟩ := h2
  exact ⟨l, .param [] x1 x2 .none, rfl, (by have := DeclSyn.param (ds := []) (w0 := []) (w2 := []) (w3 := []) (n := n) .nil k0 k1 k2 optMark_none .no; simpa only [List.append_assoc, List.nil_append, List.append_nil, List.cons_append, nextT_append, nextT_cons, nextT_nil] using this), hl rfl⟩

theorem r_20 : RuleOK ⟨N.«element», [T.«VAR», T.«STRING», N.«data_type», T.«QMARK», T.«EQUAL», N.«var_value»], "var", false, [(1, false, 1), (2, false, 0), (5, false, 0)], 0⟩ := by
  refine ruleOK_node ?_
  intro cs w n l h hc hl
  obtain ⟨c0, cs, w0, w, rfl, rfl, h0, h⟩ := fitsW_cons.mp h
  obtain ⟨c1, cs, w1, w, rfl, rfl, h1, h⟩ := fitsW_cons.mp h
  obtain ⟨c2, cs, w2, w, rfl, rfl, h2, h⟩ := fitsW_cons.mp h
  obtain ⟨c3, cs, w3, w, rfl, rfl, h3, h⟩ := fitsW_cons.mp h
  obtain ⟨c4, cs, w4, w, rfl, rfl, h4, h⟩ := fitsW_cons.mp h
  obtain ⟨c5, rfl, h5⟩ := fitsW_one.mp h
  rename' w => w5
  obtain ⟨u0, rfl, rfl, k0⟩ := shw_VAR h0
  obtain ⟨x1, u1, rfl, rfl, k1⟩ := shw_STRING h1
  obtain ⟨x2, rfl, k2⟩ := h2
  obtain ⟨u3, rfl, rfl, k3⟩ := shw_QMARK h3
  obtain ⟨u4, rfl, rfl, k4⟩ := shw_EQUAL h4
  obtain ⟨x5, rfl, k5⟩ := h5
  exact ⟨l, .var [] x1 (some x2) x5, rfl, (by have := DeclSyn.var (ds := []) (w0 := []) (w1 := (w2 ++ [u3])) .nil k0 k1 (.yes k2 (optMark_some k3)) k4 k5; simpa only [List.append_assoc, List.nil_append, List.append_nil, List.cons_append, nextT_append, nextT_cons, nextT_nil] using this), hl rfl⟩

theorem r_24 : RuleOK ⟨N.«element», [N.«decorators», T.«OUTPUT», T.«STRING», N.«data_type», T.«EQUAL», N.«output_value»], "output", false, [(0, false, 0), (2, false, 0), (3, false, 0), (5, false, 0)], 0⟩ := by
  refine ruleOK_node ?_
  intro cs w n l h hc hl
  obtain ⟨c0, cs, w0, w, rfl, rfl, h0, h⟩ := fitsW_cons.mp h
  obtain ⟨c1, cs, w1, w, rfl, rfl, h1, h⟩ := fitsW_cons.mp h
  obtain ⟨c2, cs, w2, w, rfl, rfl, h2, h⟩ := fitsW_cons.mp h
  obtain ⟨c3, cs, w3, w, rfl, rfl, h3, h⟩ := fitsW_cons.mp h
  obtain ⟨c4, cs, w4, w, rfl, rfl, h4, h⟩ := fitsW_cons.mp h
  obtain ⟨c5, rfl, h5⟩ := fitsW_one.mp h
  rename' w => w5
  obtain ⟨x0, y0, rfl, k0⟩ := h0
  obtain ⟨u1, rfl, rfl, k1⟩ := shw_OUTPUT h1
  obtain ⟨x2, u2, rfl, rfl, k2⟩ := shw_STRING h2
  obtain ⟨x3, rfl, k3⟩ := h3
  obtain ⟨u4, rfl, rfl, k4⟩ := shw_EQUAL h4
  obtain ⟨x5, rfl, k5⟩ := h5
  exact ⟨l, .output (x0 :: y0) x2 x3 x5, rfl, .output (w0 := w0) (w2 := []) k0 k1 k2 k3 optMark_none k4 k5, hl rfl⟩

theorem r_28 : RuleOK ⟨N.«element», [N.«decorators», T.«RESOURCE», T.«STRING», N.«type_api_pair», T.«EQUAL», N.«resource_value»], "resource", false, [(0, false, 0), (2, false, 0), (3, false, 0), (5, false, 1)], 0⟩ := by
  refine ruleOK_node ?_
  intro cs w n l h hc hl
  obtain ⟨c0, cs, w0, w, rfl, rfl, h0, h⟩ := fitsW_cons.mp h
  obtain ⟨c1, cs, w1, w, rfl, rfl, h1, h⟩ := fitsW_cons.mp h
  obtain ⟨c2, cs, w2, w, rfl, rfl, h2, h⟩ := fitsW_cons.mp h
  obtain ⟨c3, cs, w3, w, rfl, rfl, h3, h⟩ := fitsW_cons.mp h
  obtain ⟨c4, cs, w4, w, rfl, rfl, h4, h⟩ := fitsW_cons.mp h
  obtain ⟨c5, rfl, h5⟩ := fitsW_one.mp h
  rename' w => w5
  obtain ⟨x0, y0, rfl, k0⟩ := h0
  obtain ⟨u1, rfl, rfl, k1⟩ := shw_RESOURCE h1
  obtain ⟨x2, u2, rfl, rfl, k2⟩ := shw_STRING h2
  obtain ⟨x3, u3, rfl, rfl, k3⟩ := h3
  obtain ⟨u4, rfl, rfl, k4⟩ := shw_EQUAL h4
  obtain ⟨x5, rfl, k5⟩ := h5
  exact ⟨l, .resource (x0 :: y0) x2 x3 false x5, rfl, .resource (w0 := w0) (w1 := []) k0 k1 k2 k3 .no k4 k5, hl rfl⟩

theorem r_32 : RuleOK ⟨N.«element», [T.«MODULE», T.«STRING», N.«module_path», T.«EQUAL», N.«module_value»], "module", false, [(1, false, 1), (2, false, 0), (4, false, 0)], 0⟩ := by
  refine ruleOK_node ?_
  intro cs w n l h hc hl
  obtain ⟨c0, cs, w0, w, rfl, rfl, h0, h⟩ := fitsW_cons.mp h
  obtain ⟨c1, cs, w1, w, rfl, rfl, h1, h⟩ := fitsW_cons.mp h
  obtain ⟨c2, cs, w2, w, rfl, rfl, h2, h⟩ := fitsW_cons.mp h
  obtain ⟨c3, cs, w3, w, rfl, rfl, h3, h⟩ := fitsW_cons.mp h
  obtain ⟨c4, rfl, h4⟩ := fitsW_one.mp h
  rename' w => w4
  obtain ⟨u0, rfl, rfl, k0⟩ := shw_MODULE h0
  obtain ⟨x1, u1, rfl, rfl, k1⟩ := shw_STRING h1
  obtain ⟨x2, u2, rfl, rfl, k2⟩ := h2
  obtain ⟨u3, rfl, rfl, k3⟩ := shw_EQUAL h3
  obtain ⟨x4, rfl, k4⟩ := h4
  exact ⟨l, .module [] x1 x2 x4, rfl, .module (w0 := []) .nil k0 k1 k2 k3 k4, hl rfl⟩

theorem r_36 : RuleOK ⟨N.«element», [T.«FUNC», N.«_func_statement»], "custom_func", false, [(1, true, 1)], 0⟩ := by
  refine ruleOK_node ?_
  intro cs w n l h hc hl
  obtain ⟨c0, cs, w0, w, rfl, rfl, h0, h⟩ := fitsW_cons.mp h
  obtain ⟨c1, rfl, h1⟩ := fitsW_one.mp h
  rename' w => w1
  obtain ⟨u0, rfl, rfl, k0⟩ := shw_FUNC h0
  obtain ⟨x1, ps1, t1, e1, v1, p1, a1, o1, b1, r1, c1', q1, rfl, j1, j2, j3, j4, j5, j6, j7, j8⟩ := h1
  exact ⟨l, .func [] x1 ps1 t1 e1, (by simp only [keepKids', List.flatMap_cons, List.flatMap_nil, List.replicate_zero, List.replicate_succ, List.getElem?_cons_zero, List.getElem?_cons_succ, Bool.false_eq_true, if_true, if_false, List.append_nil, List.nil_append, List.cons_append, List.append_assoc, w_kids_mkCore, q1] <;> rfl), .func (w0 := []) .nil k0 j1 j2 j3 j4 j5 j6 j7 j8, hl rfl⟩

theorem r_40 : RuleOK ⟨N.«value», [T.«TRUE»], "true", false, [], 0⟩ := by
  refine ruleOK_node ?_
  intro cs w n l h hc hl
  obtain ⟨c0, rfl, h0⟩ := fitsW_one.mp h
  rename' w => w0
  obtain ⟨u0, rfl, rfl, k0⟩ := shw_TRUE h0
  exact ⟨.tru, rfl, .tru (w := []) optNewline_none k0⟩

theorem r_44 : RuleOK ⟨N.«value», [T.«INT»], "int_type", false, [(0, false, 0)], 0⟩ := by
  refine ruleOK_node ?_
  intro cs w n l h hc hl
  obtain ⟨c0, rfl, h0⟩ := fitsW_one.mp h
  rename' w => w0
  obtain ⟨x0, u0, rfl, rfl, k0⟩ := shw_INT h0
  exact ⟨.int x0, rfl, .int (w := []) optNewline_none k0⟩

theorem r_48 : RuleOK ⟨N.«value», [T.«QUOTED_INTERPOLATION»], "string", false, [(0, false, 0)], 0⟩ := by
  refine ruleOK_node ?_
  intro cs w n l h hc hl
  obtain ⟨c0, rfl, h0⟩ := fitsW_one.mp h
  rename' w => w0
  obtain ⟨x0, u0, rfl, rfl, k0⟩ := shw_QUOTED_INTERPOLATION h0
  exact ⟨.str x0, rfl, .str (w := []) optNewline_none k0⟩

theorem r_52 : RuleOK ⟨N.«value», [T.«_NEWLINE», N.«function»], "value", true, [(1, false, 0)], 0⟩ := by
  refine ruleOK_ex ?_
  intro cs w n h hc
  obtain ⟨c0, cs, w0, w, rfl, rfl, h0, h⟩ := fitsW_cons.mp h
  obtain ⟨c1, rfl, h1⟩ := fitsW_one.mp h
  rename' w => w1
  obtain ⟨u0, rfl, k0⟩ := shw__NEWLINE h0
  obtain ⟨x1, y1, rfl, k1⟩ := h1
  exact ⟨_, rfl, w_expr_nometa (.call x1 y1), .call x1 y1, rfl, .call (w1 := [u0]) (optNewline_some k0) k1⟩

theorem r_56 : RuleOK ⟨N.«value_brackets», [N.«value», T.«BANG»], "value_brackets", true, [(0, false, 0)], 0⟩ := by
  refine ruleOK_ex ?_
  intro cs w n h hc
  obtain ⟨c0, cs, w0, w, rfl, rfl, h0, h⟩ := fitsW_cons.mp h
  obtain ⟨c1, rfl, h1⟩ := fitsW_one.mp h
  rename' w => w1
  obtain ⟨x0, rfl, k0⟩ := h0
  obtain ⟨u1, rfl, rfl, k1⟩ := shw_BANG h1
  exact ⟨_, rfl, w_expr_nometa x0, x0, rfl, .bang k0 k1⟩

theorem r_60 : RuleOK ⟨N.«_import_statement», [T.«LBRACE», N.«import_alias», N.«___import_statement_star_1», T.«RBRACE», T.«FROM», T.«QUOTED_INTERPOLATION»], "_import_statement", false, [(1, false, 0), (2, true, 0), (5, false, 0)], 0⟩ := by
  refine ruleOK_node ?_
  intro cs w n l h hc hl
  obtain ⟨c0, cs, w0, w, rfl, rfl, h0, h⟩ := fitsW_cons.mp h
  obtain ⟨c1, cs, w1, w, rfl, rfl, h1, h⟩ := fitsW_cons.mp h
  obtain ⟨c2, cs, w2, w, rfl, rfl, h2, h⟩ := fitsW_cons.mp h
  obtain ⟨c3, cs, w3, w, rfl, rfl, h3, h⟩ := fitsW_cons.mp h
  obtain ⟨c4, cs, w4, w, rfl, rfl, h4, h⟩ := fitsW_cons.mp h
  obtain ⟨c5, rfl, h5⟩ := fitsW_one.mp h
  rename' w => w5
  obtain ⟨u0, rfl, rfl, k0⟩ := shw_LBRACE h0
  obtain ⟨x1, rfl, k1⟩ := h1
  obtain ⟨x2, q2, k2⟩ := h2
  obtain ⟨u3, rfl, rfl, k3⟩ := shw_RBRACE h3
  obtain ⟨u4, rfl, rfl, k4⟩ := shw_FROM h4
  obtain ⟨x5, u5, rfl, rfl, k5⟩ := shw_QUOTED_INTERPOLATION h5
  exact .inr (.inr ⟨x1, x2, x5, u0, _, w2, u3, u4, u5, (by simp only [keepKids', List.flatMap_cons, List.flatMap_nil, List.replicate_zero, List.replicate_succ, List.getElem?_cons_zero, List.getElem?_cons_succ, Bool.false_eq_true, if_true, if_false, List.append_nil, List.nil_append, List.cons_append, List.append_assoc, w_kids_mkCore, q2] <;> rfl), rfl, k0, k1, k2, k3, k4, k5⟩)

theorem r_64 : RuleOK ⟨N.«_func_statement», [T.«STRING», T.«LPAR», T.«STRING», N.«data_type», N.«___func_statement_star_2», T.«RPAR», N.«data_type», T.«__ANON_0», N.«value_brackets»], "_func_statement", false, [(0, false, 0), (2, false, 0), (3, false, 0), (4, true, 0), (6, false, 0), (8, false, 0)], 0⟩ := by
  refine ruleOK_node ?_
  intro cs w n l h hc hl
  obtain ⟨c0, cs, w0, w, rfl, rfl, h0, h⟩ := fitsW_cons.mp h
  obtain ⟨c1, cs, w1, w, rfl, rfl, h1, h⟩ := fitsW_cons.mp h
  obtain ⟨c2, cs, w2, w, rfl, rfl, h2, h⟩ := fitsW_cons.mp h
  obtain ⟨c3, cs, w3, w, rfl, rfl, h3, h⟩ := fitsW_cons.mp h
  obtain ⟨c4, cs, w4, w, rfl, rfl, h4, h⟩ := fitsW_cons.mp h
  obtain ⟨c5, cs, w5, w, rfl, rfl, h5, h⟩ := fitsW_cons.mp h
  obtain ⟨c6, cs, w6, w, rfl, rfl, h6, h⟩ := fitsW_cons.mp h
  obtain ⟨c7, cs, w7, w, rfl, rfl, h7, h⟩ := fitsW_cons.mp h
  obtain ⟨c8, rfl, h8⟩ := fitsW_one.mp h
  rename' w => w8
  obtain ⟨x0, u0, rfl, rfl, k0⟩ := shw_STRING h0
  obtain ⟨u1, rfl, rfl, k1⟩ := shw_LPAR h1
  obtain ⟨x2, u2, rfl, rfl, k2⟩ := shw_STRING h2
  obtain ⟨x3, rfl, k3⟩ := h3
  obtain ⟨x4, q4, k4⟩ := h4
  obtain ⟨u5, rfl, rfl, k5⟩ := shw_RPAR h5
  obtain ⟨x6, rfl, k6⟩ := h6
  obtain ⟨u7, rfl, rfl, k7⟩ := shw___ANON_0 h7
  obtain ⟨x8, rfl, k8⟩ := h8
  exact ⟨x0, ((x2, x3) :: x4), x6, x8, u0, u1, (u2 :: (w3 ++ w4)), u5, w6, u7, w8, (by simp only [keepKids', List.flatMap_cons, List.flatMap_nil, List.replicate_zero, List.replicate_succ, List.getElem?_cons_zero, List.getElem?_cons_succ, Bool.false_eq_true, if_true, if_false, List.append_nil, List.nil_append, List.cons_append, List.append_assoc, w_kids_mkCore, q4] <;> rfl), (by simp), k0, k1, (.mk k2 k3 k4), k5, k6, k7, k8, (hc.noInfix rfl)⟩

theorem r_68 : RuleOK ⟨N.«var_value», [N.«loop»], "var_value", true, [(0, false, 0)], 0⟩ := by
  refine ruleOK_ex ?_
  intro cs w n h hc
  obtain ⟨c0, rfl, h0⟩ := fitsW_one.mp h
  rename' w => w0
  obtain ⟨x0, rfl, k0⟩ := h0
  exact ⟨_, rfl, w_loop_nometa x0, .loop x0, rfl, .loop k0⟩

theorem r_72 : RuleOK ⟨N.«resource_value», [N.«object»], "resource_value", true, [(0, false, 0)], 0⟩ := by
  refine ruleOK_ex ?_
  intro cs w n h hc
  obtain ⟨c0, rfl, h0⟩ := fitsW_one.mp h
  rename' w => w0
  obtain ⟨x0, rfl, k0⟩ := h0
  exact ⟨_, rfl, w_expr_nometa (.object x0), .obj x0, rfl, .obj k0⟩

theorem r_76 : RuleOK ⟨N.«module_value», [N.«loop»], "module_value", true, [(0, false, 0)], 0⟩ := by
  refine ruleOK_ex ?_
  intro cs w n h hc
  obtain ⟨c0, rfl, h0⟩ := fitsW_one.mp h
  rename' w => w0
  obtain ⟨x0, rfl, k0⟩ := h0
  exact ⟨_, rfl, w_loop_nometa x0, .loop x0, rfl, .loop k0⟩

theorem r_80 : RuleOK ⟨N.«child_resource», [T.«RESOURCE», T.«STRING», T.«QUOTED_INTERPOLATION», T.«EXISTING», T.«EQUAL», N.«deploy_condition», N.«__child_resource_plus_3»], "child_resource", false, [(1, false, 0), (2, false, 0), (3, false, 0), (5, false, 0), (6, true, 0)], 0⟩ := by
  refine ruleOK_node ?_
  intro cs w n l h hc hl
  obtain ⟨c0, cs, w0, w, rfl, rfl, h0, h⟩ := fitsW_cons.mp h
  obtain ⟨c1, cs, w1, w, rfl, rfl, h1, h⟩ := fitsW_cons.mp h
  obtain ⟨c2, cs, w2, w, rfl, rfl, h2, h⟩ := fitsW_cons.mp h
  obtain ⟨c3, cs, w3, w, rfl, rfl, h3, h⟩ := fitsW_cons.mp h
  obtain ⟨c4, cs, w4, w, rfl, rfl, h4, h⟩ := fitsW_cons.mp h
  obtain ⟨c5, cs, w5, w, rfl, rfl, h5, h⟩ := fitsW_cons.mp h
  obtain ⟨c6, rfl, h6⟩ := fitsW_one.mp h
  rename' w => w6
  obtain ⟨u0, rfl, rfl, k0⟩ := shw_RESOURCE h0
  obtain ⟨x1, u1, rfl, rfl, k1⟩ := shw_STRING h1
  obtain ⟨x2, u2, rfl, rfl, k2⟩ := shw_QUOTED_INTERPOLATION h2
  obtain ⟨u3, rfl, rfl, k3⟩ := shw_EXISTING h3
  obtain ⟨u4, rfl, rfl, k4⟩ := shw_EQUAL h4
  obtain ⟨x5, y5, rfl, k5⟩ := h5
  obtain ⟨q6, k6, m6⟩ := h6
  exact ⟨.child l x1 x2 true (.cond x5 y5), (by simp only [keepKids', List.flatMap_cons, List.flatMap_nil, List.replicate_zero, List.replicate_succ, List.getElem?_cons_zero, List.getElem?_cons_succ, Bool.false_eq_true, if_true, if_false, List.append_nil, List.nil_append, List.cons_append, List.append_assoc, w_kids_mkCore, q6] <;> rfl), .mk (w1 := [u3]) (w2 := w5) (w3 := w6) k0 k1 k2 (.yes k3) k4 k5 k6 m6 (hc.childNL rfl) (hl rfl)⟩

theorem r_84 : RuleOK ⟨N.«type_value», [N.«value_brackets», N.«__type_value_star_4»], "type_value", true, [(0, false, 0), (1, true, 0)], 0⟩ := by
  refine ruleOK_long rfl ?_
  intro cs w n l h hc
  obtain ⟨c0, cs, w0, w, rfl, rfl, h0, h⟩ := fitsW_cons.mp h
  obtain ⟨c1, rfl, h1⟩ := fitsW_one.mp h
  rename' w => w1
  obtain ⟨x0, rfl, k0⟩ := h0
  obtain ⟨x1, y1, q1, k1, m1⟩ := h1
  exact ⟨(by simp only [keepKids', List.flatMap_cons, List.flatMap_nil, List.replicate_zero, List.replicate_succ, List.getElem?_cons_zero, List.getElem?_cons_succ, Bool.false_eq_true, if_true, if_false, List.append_nil, List.nil_append, List.cons_append, List.append_assoc, w_kids_mkCore, q1, Expr.trees, List.length_cons]; omega), x0, x1 :: y1, _, _, (by simp only [keepKids', List.flatMap_cons, List.flatMap_nil, List.replicate_zero, List.replicate_succ, List.getElem?_cons_zero, List.getElem?_cons_succ, Bool.false_eq_true, if_true, if_false, List.append_nil, List.nil_append, List.cons_append, List.append_assoc, w_kids_mkCore, q1] <;> rfl), rfl, k0, k1, m1⟩

theorem r_88 : RuleOK ⟨N.«base_type», [T.«STRING»], "base_type", false, [(0, false, 0)], 0⟩ := by
  refine ruleOK_node ?_
  intro cs w n l h hc hl
  obtain ⟨c0, rfl, h0⟩ := fitsW_one.mp h
  rename' w => w0
  obtain ⟨x0, u0, rfl, rfl, k0⟩ := shw_STRING h0
  exact ⟨.name x0, rfl, .name k0⟩

theorem r_92 : RuleOK ⟨N.«type_api_pair», [T.«QUOTED_INTERPOLATION»], "type_api_pair", false, [(0, false, 0)], 0⟩ := by
  refine ruleOK_node ?_
  intro cs w n l h hc hl
  obtain ⟨c0, rfl, h0⟩ := fitsW_one.mp h
  rename' w => w0
  obtain ⟨x0, u0, rfl, rfl, k0⟩ := shw_QUOTED_INTERPOLATION h0
  exact ⟨x0, u0, rfl, rfl, k0⟩

theorem r_96 : RuleOK ⟨N.«import_alias», [T.«__ANON_1», T.«AS», T.«STRING»], "import_alias", false, [(0, false, 0), (2, false, 0)], 0⟩ := by
  refine ruleOK_node ?_
  intro cs w n l h hc hl
  obtain ⟨c0, cs, w0, w, rfl, rfl, h0, h⟩ := fitsW_cons.mp h
  obtain ⟨c1, cs, w1, w, rfl, rfl, h1, h⟩ := fitsW_cons.mp h
  obtain ⟨c2, rfl, h2⟩ := fitsW_one.mp h
  rename' w => w2
  obtain ⟨u0, rfl, rfl, k0⟩ := shw___ANON_1 h0
  obtain ⟨u1, rfl, rfl, k1⟩ := shw_AS h1
  obtain ⟨x2, u2, rfl, rfl, k2⟩ := shw_STRING h2
  exact ⟨⟨.star, some x2⟩, rfl, .starAs k0 k1 k2⟩

theorem r_100 : RuleOK ⟨N.«loop», [T.«LSQB», T.«_CPP_COMMENT_NL», T.«FOR», N.«loop_array», T.«COLON», N.«value_brackets», T.«_CPP_COMMENT_NL», T.«RSQB»], "loop", false, [(3, false, 0), (5, false, 1)], 0⟩ := by
  refine ruleOK_node ?_
  intro cs w n l h hc hl
  obtain ⟨c0, cs, w0, w, rfl, rfl, h0, h⟩ := fitsW_cons.mp h
  obtain ⟨c1, cs, w1, w, rfl, rfl, h1, h⟩ := fitsW_cons.mp h
  obtain ⟨c2, cs, w2, w, rfl, rfl, h2, h⟩ := fitsW_cons.mp h
  obtain ⟨c3, cs, w3, w, rfl, rfl, h3, h⟩ := fitsW_cons.mp h
  obtain ⟨c4, cs, w4, w, rfl, rfl, h4, h⟩ := fitsW_cons.mp h
  obtain ⟨c5, cs, w5, w, rfl, rfl, h5, h⟩ := fitsW_cons.mp h
  obtain ⟨c6, cs, w6, w, rfl, rfl, h6, h⟩ := fitsW_cons.mp h
  obtain ⟨c7, rfl, h7⟩ := fitsW_one.mp h
  rename' w => w7
  obtain ⟨u0, rfl, rfl, k0⟩ := shw_LSQB h0
  obtain ⟨u1, rfl, k1⟩ := shw__CPP_COMMENT_NL h1
  obtain ⟨u2, rfl, rfl, k2⟩ := shw_FOR h2
  obtain ⟨x3, rfl, k3⟩ := h3
  obtain ⟨u4, rfl, rfl, k4⟩ := shw_COLON h4
  obtain ⟨x5, rfl, k5⟩ := h5
  obtain ⟨u6, rfl, k6⟩ := shw__CPP_COMMENT_NL h6
  obtain ⟨u7, rfl, rfl, k7⟩ := shw_RSQB h7
  exact ⟨.mk x3 .none x5, rfl, .plain (w1 := [u1]) (w4 := [u6]) k0 (optBreak_some k1) k2 k3 k4 k5 (optBreak_some k6) k7⟩

theorem r_104 : RuleOK ⟨N.«loop», [T.«LSQB», T.«_CPP_COMMENT_NL», T.«FOR», N.«loop_array_index», T.«COLON», N.«value_brackets», T.«_CPP_COMMENT_NL», T.«RSQB»], "loop", false, [(3, false, 0), (5, false, 1)], 0⟩ := by
  refine ruleOK_node ?_
  intro cs w n l h hc hl
  obtain ⟨c0, cs, w0, w, rfl, rfl, h0, h⟩ := fitsW_cons.mp h
  obtain ⟨c1, cs, w1, w, rfl, rfl, h1, h⟩ := fitsW_cons.mp h
  obtain ⟨c2, cs, w2, w, rfl, rfl, h2, h⟩ := fitsW_cons.mp h
  obtain ⟨c3, cs, w3, w, rfl, rfl, h3, h⟩ := fitsW_cons.mp h
  obtain ⟨c4, cs, w4, w, rfl, rfl, h4, h⟩ := fitsW_cons.mp h
  obtain ⟨c5, cs, w5, w, rfl, rfl, h5, h⟩ := fitsW_cons.mp h
  obtain ⟨c6, cs, w6, w, rfl, rfl, h6, h⟩ := fitsW_cons.mp h
  obtain ⟨c7, rfl, h7⟩ := fitsW_one.mp h
  rename' w => w7
  obtain ⟨u0, rfl, rfl, k0⟩ := shw_LSQB h0
  obtain ⟨u1, rfl, k1⟩ := shw__CPP_COMMENT_NL h1
  obtain ⟨u2, rfl, rfl, k2⟩ := shw_FOR h2
  obtain ⟨x3, rfl, k3⟩ := h3
  obtain ⟨u4, rfl, rfl, k4⟩ := shw_COLON h4
  obtain ⟨x5, rfl, k5⟩ := h5
  obtain ⟨u6, rfl, k6⟩ := shw__CPP_COMMENT_NL h6
  obtain ⟨u7, rfl, rfl, k7⟩ := shw_RSQB h7
  exact ⟨.mk x3 .none x5, rfl, .plain (w1 := [u1]) (w4 := [u6]) k0 (optBreak_some k1) k2 k3 k4 k5 (optBreak_some k6) k7⟩

theorem r_108 : RuleOK ⟨N.«loop», [T.«LSQB», T.«_CPP_COMMENT_NL», T.«FOR», N.«loop_object», T.«COLON», N.«value_brackets», T.«_CPP_COMMENT_NL», T.«RSQB»], "loop", false, [(3, false, 0), (5, false, 1)], 0⟩ := by
  refine ruleOK_node ?_
  intro cs w n l h hc hl
  obtain ⟨c0, cs, w0, w, rfl, rfl, h0, h⟩ := fitsW_cons.mp h
  obtain ⟨c1, cs, w1, w, rfl, rfl, h1, h⟩ := fitsW_cons.mp h
  obtain ⟨c2, cs, w2, w, rfl, rfl, h2, h⟩ := fitsW_cons.mp h
  obtain ⟨c3, cs, w3, w, rfl, rfl, h3, h⟩ := fitsW_cons.mp h
  obtain ⟨c4, cs, w4, w, rfl, rfl, h4, h⟩ := fitsW_cons.mp h
  obtain ⟨c5, cs, w5, w, rfl, rfl, h5, h⟩ := fitsW_cons.mp h
  obtain ⟨c6, cs, w6, w, rfl, rfl, h6, h⟩ := fitsW_cons.mp h
  obtain ⟨c7, rfl, h7⟩ := fitsW_one.mp h
  rename' w => w7
  obtain ⟨u0, rfl, rfl, k0⟩ := shw_LSQB h0
  obtain ⟨u1, rfl, k1⟩ := shw__CPP_COMMENT_NL h1
  obtain ⟨u2, rfl, rfl, k2⟩ := shw_FOR h2
  obtain ⟨x3, rfl, k3⟩ := h3
  obtain ⟨u4, rfl, rfl, k4⟩ := shw_COLON h4
  obtain ⟨x5, rfl, k5⟩ := h5
  obtain ⟨u6, rfl, k6⟩ := shw__CPP_COMMENT_NL h6
  obtain ⟨u7, rfl, rfl, k7⟩ := shw_RSQB h7
  exact ⟨.mk x3 .none x5, rfl, .plain (w1 := [u1]) (w4 := [u6]) k0 (optBreak_some k1) k2 k3 k4 k5 (optBreak_some k6) k7⟩

theorem r_112 : RuleOK ⟨N.«loop», [T.«LSQB», T.«FOR», N.«loop_array», T.«COLON», N.«value_brackets», T.«_CPP_COMMENT_NL», T.«RSQB»], "loop", false, [(2, false, 0), (4, false, 1)], 0⟩ := by
  refine ruleOK_node ?_
  intro cs w n l h hc hl
  obtain ⟨c0, cs, w0, w, rfl, rfl, h0, h⟩ := fitsW_cons.mp h
  obtain ⟨c1, cs, w1, w, rfl, rfl, h1, h⟩ := fitsW_cons.mp h
  obtain ⟨c2, cs, w2, w, rfl, rfl, h2, h⟩ := fitsW_cons.mp h
  obtain ⟨c3, cs, w3, w, rfl, rfl, h3, h⟩ := fitsW_cons.mp h
  obtain ⟨c4, cs, w4, w, rfl, rfl, h4, h⟩ := fitsW_cons.mp h
  obtain ⟨c5, cs, w5, w, rfl, rfl, h5, h⟩ := fitsW_cons.mp h
  obtain ⟨c6, rfl, h6⟩ := fitsW_one.mp h
  rename' w => w6
  obtain ⟨u0, rfl, rfl, k0⟩ := shw_LSQB h0
  obtain ⟨u1, rfl, rfl, k1⟩ := shw_FOR h1
  obtain ⟨x2, rfl, k2⟩ := h2
  obtain ⟨u3, rfl, rfl, k3⟩ := shw_COLON h3
  obtain ⟨x4, rfl, k4⟩ := h4
  obtain ⟨u5, rfl, k5⟩ := shw__CPP_COMMENT_NL h5
  obtain ⟨u6, rfl, rfl, k6⟩ := shw_RSQB h6
  exact ⟨.mk x2 .none x4, rfl, .plain (w1 := []) (w4 := [u5]) k0 optBreak_none k1 k2 k3 k4 (optBreak_some k5) k6⟩

theorem r_116 : RuleOK ⟨N.«loop», [T.«LSQB», T.«FOR», N.«loop_array_index», T.«COLON», N.«value_brackets», T.«_CPP_COMMENT_NL», T.«RSQB»], "loop", false, [(2, false, 0), (4, false, 1)], 0⟩ := by
  refine ruleOK_node ?_
  intro cs w n l h hc hl
  obtain ⟨c0, cs, w0, w, rfl, rfl, h0, h⟩ := fitsW_cons.mp h
  obtain ⟨c1, cs, w1, w, rfl, rfl, h1, h⟩ := fitsW_cons.mp h
  obtain ⟨c2, cs, w2, w, rfl, rfl, h2, h⟩ := fitsW_cons.mp h
  obtain ⟨c3, cs, w3, w, rfl, rfl, h3, h⟩ := fitsW_cons.mp h
  obtain ⟨c4, cs, w4, w, rfl, rfl, h4, h⟩ := fitsW_cons.mp h
  obtain ⟨c5, cs, w5, w, rfl, rfl, h5, h⟩ := fitsW_cons.mp h
  obtain ⟨c6, rfl, h6⟩ := fitsW_one.mp h
  rename' w => w6
  obtain ⟨u0, rfl, rfl, k0⟩ := shw_LSQB h0
  obtain ⟨u1, rfl, rfl, k1⟩ := shw_FOR h1
  obtain ⟨x2, rfl, k2⟩ := h2
  obtain ⟨u3, rfl, rfl, k3⟩ := shw_COLON h3
  obtain ⟨x4, rfl, k4⟩ := h4
  obtain ⟨u5, rfl, k5⟩ := shw__CPP_COMMENT_NL h5
  obtain ⟨u6, rfl, rfl, k6⟩ := shw_RSQB h6
  exact ⟨.mk x2 .none x4, rfl, .plain (w1 := []) (w4 := [u5]) k0 optBreak_none k1 k2 k3 k4 (optBreak_some k5) k6⟩

theorem r_120 : RuleOK ⟨N.«loop», [T.«LSQB», T.«FOR», N.«loop_object», T.«COLON», N.«value_brackets», T.«_CPP_COMMENT_NL», T.«RSQB»], "loop", false, [(2, false, 0), (4, false, 1)], 0⟩ := by
  refine ruleOK_node ?_
  intro cs w n l h hc hl
  obtain ⟨c0, cs, w0, w, rfl, rfl, h0, h⟩ := fitsW_cons.mp h
  obtain ⟨c1, cs, w1, w, rfl, rfl, h1, h⟩ := fitsW_cons.mp h
  obtain ⟨c2, cs, w2, w, rfl, rfl, h2, h⟩ := fitsW_cons.mp h
  obtain ⟨c3, cs, w3, w, rfl, rfl, h3, h⟩ := fitsW_cons.mp h
  obtain ⟨c4, cs, w4, w, rfl, rfl, h4, h⟩ := fitsW_cons.mp h
  obtain ⟨c5, cs, w5, w, rfl, rfl, h5, h⟩ := fitsW_cons.mp h
  obtain ⟨c6, rfl, h6⟩ := fitsW_one.mp h
  rename' w => w6
  obtain ⟨u0, rfl, rfl, k0⟩ := shw_LSQB h0
  obtain ⟨u1, rfl, rfl, k1⟩ := shw_FOR h1
  obtain ⟨x2, rfl, k2⟩ := h2
  obtain ⟨u3, rfl, rfl, k3⟩ := shw_COLON h3
  obtain ⟨x4, rfl, k4⟩ := h4
  obtain ⟨u5, rfl, k5⟩ := shw__CPP_COMMENT_NL h5
  obtain ⟨u6, rfl, rfl, k6⟩ := shw_RSQB h6
  exact ⟨.mk x2 .none x4, rfl, .plain (w1 := []) (w4 := [u5]) k0 optBreak_none k1 k2 k3 k4 (optBreak_some k5) k6⟩

theorem r_124 : RuleOK ⟨N.«loop_object», [T.«STRING», T.«IN», T.«ITEMS», T.«LPAR», N.«value_brackets», T.«RPAR»], "loop_object", false, [(0, false, 0), (4, false, 0)], 0⟩ := by
  refine ruleOK_node ?_
  intro cs w n l h hc hl
  obtain ⟨c0, cs, w0, w, rfl, rfl, h0, h⟩ := fitsW_cons.mp h
  obtain ⟨c1, cs, w1, w, rfl, rfl, h1, h⟩ := fitsW_cons.mp h
  obtain ⟨c2, cs, w2, w, rfl, rfl, h2, h⟩ := fitsW_cons.mp h
  obtain ⟨c3, cs, w3, w, rfl, rfl, h3, h⟩ := fitsW_cons.mp h
  obtain ⟨c4, cs, w4, w, rfl, rfl, h4, h⟩ := fitsW_cons.mp h
  obtain ⟨c5, rfl, h5⟩ := fitsW_one.mp h
  rename' w => w5
  obtain ⟨x0, u0, rfl, rfl, k0⟩ := shw_STRING h0
  obtain ⟨u1, rfl, rfl, k1⟩ := shw_IN h1
  obtain ⟨u2, rfl, rfl, k2⟩ := shw_ITEMS h2
  obtain ⟨u3, rfl, rfl, k3⟩ := shw_LPAR h3
  obtain ⟨x4, rfl, k4⟩ := h4
  obtain ⟨u5, rfl, rfl, k5⟩ := shw_RPAR h5
  exact ⟨.obj x0 x4, rfl, .obj k0 k1 k2 k3 k4 k5⟩

theorem r_128 : RuleOK ⟨N.«quoted_string», [T.«QUOTED_STRING»], "quoted_string", true, [(0, false, 0)], 0⟩ := by
  refine ruleOK_ex ?_
  intro cs w n h hc
  obtain ⟨c0, rfl, h0⟩ := fitsW_one.mp h
  rename' w => w0
  obtain ⟨x0, u0, rfl, rfl, k0⟩ := shw_QUOTED_STRING h0
  exact ⟨_, rfl, rfl, rfl, .quoted true x0, u0, rfl, rfl, .word k0⟩

theorem r_132 : RuleOK ⟨N.«array», [T.«LSQB», N.«__array_star_8», T.«RSQB»], "array", false, [(1, true, 0)], 0⟩ := by
  refine ruleOK_node ?_
  intro cs w n l h hc hl
  obtain ⟨c0, cs, w0, w, rfl, rfl, h0, h⟩ := fitsW_cons.mp h
  obtain ⟨c1, cs, w1, w, rfl, rfl, h1, h⟩ := fitsW_cons.mp h
  obtain ⟨c2, rfl, h2⟩ := fitsW_one.mp h
  rename' w => w2
  obtain ⟨u0, rfl, rfl, k0⟩ := shw_LSQB h0
  obtain ⟨x1, q1, k1⟩ := h1
  obtain ⟨u2, rfl, rfl, k2⟩ := shw_RSQB h2
  exact ⟨x1, (by simp only [keepKids', List.flatMap_cons, List.flatMap_nil, List.replicate_zero, List.replicate_succ, List.getElem?_cons_zero, List.getElem?_cons_succ, Bool.false_eq_true, if_true, if_false, List.append_nil, List.nil_append, List.cons_append, List.append_assoc, w_kids_mkCore, q1] <;> rfl), .array (w1 := []) (w2 := w1) k0 breaks_nil k1 k2⟩

theorem r_136 : RuleOK ⟨N.«object», [T.«LBRACE», N.«__object_star_10», T.«RBRACE»], "object", false, [(1, true, 0)], 0⟩ := by
  refine ruleOK_node ?_
  intro cs w n l h hc hl
  obtain ⟨c0, cs, w0, w, rfl, rfl, h0, h⟩ := fitsW_cons.mp h
  obtain ⟨c1, cs, w1, w, rfl, rfl, h1, h⟩ := fitsW_cons.mp h
  obtain ⟨c2, rfl, h2⟩ := fitsW_one.mp h
  rename' w => w2
  obtain ⟨u0, rfl, rfl, k0⟩ := shw_LBRACE h0
  obtain ⟨x1, q1, k1⟩ := h1
  obtain ⟨u2, rfl, rfl, k2⟩ := shw_RBRACE h2
  exact ⟨x1, (by simp only [keepKids', List.flatMap_cons, List.flatMap_nil, List.replicate_zero, List.replicate_succ, List.getElem?_cons_zero, List.getElem?_cons_succ, Bool.false_eq_true, if_true, if_false, List.append_nil, List.nil_append, List.cons_append, List.append_assoc, w_kids_mkCore, q1] <;> rfl), .mk (w1 := []) (w2 := w1) k0 breaks_nil k1 k2⟩

theorem r_140 : RuleOK ⟨N.«pair», [N.«key», T.«COLON», N.«loop», T.«QMARK»], "pair", false, [(0, false, 0), (2, false, 0)], 0⟩ := by
  refine ruleOK_node ?_
  intro cs w n l h hc hl
  obtain ⟨c0, cs, w0, w, rfl, rfl, h0, h⟩ := fitsW_cons.mp h
  obtain ⟨c1, cs, w1, w, rfl, rfl, h1, h⟩ := fitsW_cons.mp h
  obtain ⟨c2, cs, w2, w, rfl, rfl, h2, h⟩ := fitsW_cons.mp h
  obtain ⟨c3, rfl, h3⟩ := fitsW_one.mp h
  rename' w => w3
  obtain ⟨x0, u0, rfl, rfl, k0⟩ := h0
  obtain ⟨u1, rfl, rfl, k1⟩ := shw_COLON h1
  obtain ⟨x2, rfl, k2⟩ := h2
  obtain ⟨u3, rfl, rfl, k3⟩ := shw_QMARK h3
  exact ⟨.pairLoop x0 x2, rfl, .loopOpt k0 k1 k2 k3⟩

theorem r_144 : RuleOK ⟨N.«lambda_expression», [N.«value_brackets», T.«__ANON_0», N.«value_brackets»], "lambda_expression", false, [(0, false, 0), (2, false, 0)], 0⟩ := by
  refine ruleOK_node ?_
  intro cs w n l h hc hl
  obtain ⟨c0, cs, w0, w, rfl, rfl, h0, h⟩ := fitsW_cons.mp h
  obtain ⟨c1, cs, w1, w, rfl, rfl, h1, h⟩ := fitsW_cons.mp h
  obtain ⟨c2, rfl, h2⟩ := fitsW_one.mp h
  rename' w => w2
  obtain ⟨x0, rfl, k0⟩ := h0
  obtain ⟨u1, rfl, rfl, k1⟩ := shw___ANON_0 h1
  obtain ⟨x2, rfl, k2⟩ := h2
  exact ⟨.lambda x0 x2, rfl, .lambda k0 k1 k2 (hc.noInfix rfl)⟩

theorem r_148 : RuleOK ⟨N.«decorator», [T.«AT», T.«__ANON_2», T.«LPAR», T.«_CPP_COMMENT_NL», N.«value_brackets», T.«_CPP_COMMENT_NL», T.«RPAR», T.«_CPP_COMMENT_NL», T.«_CPP_COMMENT_NL»], "decorator", false, [(1, false, 0), (4, false, 0)], 0⟩ := by
  refine ruleOK_node ?_
  intro cs w n l h hc hl
  obtain ⟨c0, cs, w0, w, rfl, rfl, h0, h⟩ := fitsW_cons.mp h
  obtain ⟨c1, cs, w1, w, rfl, rfl, h1, h⟩ := fitsW_cons.mp h
  obtain ⟨c2, cs, w2, w, rfl, rfl, h2, h⟩ := fitsW_cons.mp h
  obtain ⟨c3, cs, w3, w, rfl, rfl, h3, h⟩ := fitsW_cons.mp h
  obtain ⟨c4, cs, w4, w, rfl, rfl, h4, h⟩ := fitsW_cons.mp h
  obtain ⟨c5, cs, w5, w, rfl, rfl, h5, h⟩ := fitsW_cons.mp h
  obtain ⟨c6, cs, w6, w, rfl, rfl, h6, h⟩ := fitsW_cons.mp h
  obtain ⟨c7, cs, w7, w, rfl, rfl, h7, h⟩ := fitsW_cons.mp h
  obtain ⟨c8, rfl, h8⟩ := fitsW_one.mp h
  rename' w => w8
  obtain ⟨u0, rfl, rfl, k0⟩ := shw_AT h0
  obtain ⟨x1, u1, rfl, rfl, k1⟩ := shw___ANON_2 h1
  obtain ⟨u2, rfl, rfl, k2⟩ := shw_LPAR h2
  obtain ⟨u3, rfl, k3⟩ := shw__CPP_COMMENT_NL h3
  obtain ⟨x4, rfl, k4⟩ := h4
  obtain ⟨u5, rfl, k5⟩ := shw__CPP_COMMENT_NL h5
  obtain ⟨u6, rfl, rfl, k6⟩ := shw_RPAR h6
  obtain ⟨u7, rfl, k7⟩ := shw__CPP_COMMENT_NL h7
  obtain ⟨u8, rfl, k8⟩ := shw__CPP_COMMENT_NL h8
  exact ⟨⟨x1, some x4⟩, rfl, .arg (w1 := [u3]) (w3 := [u5]) (w4 := [u7, u8]) k0 k1 k2 (optBreak_some k3) k4 (optBreak_some k5) k6 (breaks_cons k7 (breaks_cons k8 breaks_nil)) (by simp)⟩

theorem r_152 : RuleOK ⟨N.«decorator», [T.«AT», T.«__ANON_2», T.«LPAR», T.«_CPP_COMMENT_NL», N.«value_brackets», T.«_CPP_COMMENT_NL», T.«RPAR», T.«_CPP_COMMENT_NL», T.«_CPP_COMMENT_NL», T.«_CPP_COMMENT_NL», T.«_CPP_COMMENT_NL», T.«_CPP_COMMENT_NL», T.«_CPP_COMMENT_NL»], "decorator", false, [(1, false, 0), (4, false, 0)], 0⟩ := by
  refine ruleOK_node ?_
  intro cs w n l h hc hl
  obtain ⟨c0, cs, w0, w, rfl, rfl, h0, h⟩ := fitsW_cons.mp h
  obtain ⟨c1, cs, w1, w, rfl, rfl, h1, h⟩ := fitsW_cons.mp h
  obtain ⟨c2, cs, w2, w, rfl, rfl, h2, h⟩ := fitsW_cons.mp h
  obtain ⟨c3, cs, w3, w, rfl, rfl, h3, h⟩ := fitsW_cons.mp h
  obtain ⟨c4, cs, w4, w, rfl, rfl, h4, h⟩ := fitsW_cons.mp h
  obtain ⟨c5, cs, w5, w, rfl, rfl, h5, h⟩ := fitsW_cons.mp h
  obtain ⟨c6, cs, w6, w, rfl, rfl, h6, h⟩ := fitsW_cons.mp h
  obtain ⟨c7, cs, w7, w, rfl, rfl, h7, h⟩ := fitsW_cons.mp h
  obtain ⟨c8, cs, w8, w, rfl, rfl, h8, h⟩ := fitsW_cons.mp h
  obtain ⟨c9, cs, w9, w, rfl, rfl, h9, h⟩ := fitsW_cons.mp h
  obtain ⟨c10, cs, w10, w, rfl, rfl, h10, h⟩ := fitsW_cons.mp h
  obtain ⟨c11, cs, w11, w, rfl, rfl, h11, h⟩ := fitsW_cons.mp h
  obtain ⟨c12, rfl, h12⟩ := fitsW_one.mp h
  rename' w => w12
  obtain ⟨u0, rfl, rfl, k0⟩ := shw_AT h0
  obtain ⟨x1, u1, rfl, rfl, k1⟩ := shw___ANON_2 h1
  obtain ⟨u2, rfl, rfl, k2⟩ := shw_LPAR h2
  obtain ⟨u3, rfl, k3⟩ := shw__CPP_COMMENT_NL h3
  obtain ⟨x4, rfl, k4⟩ := h4
  obtain ⟨u5, rfl, k5⟩ := shw__CPP_COMMENT_NL h5
  obtain ⟨u6, rfl, rfl, k6⟩ := shw_RPAR h6
  obtain ⟨u7, rfl, k7⟩ := shw__CPP_COMMENT_NL h7
  obtain ⟨u8, rfl, k8⟩ := shw__CPP_COMMENT_NL h8
  obtain ⟨u9, rfl, k9⟩ := shw__CPP_COMMENT_NL h9
  obtain ⟨u10, rfl, k10⟩ := shw__CPP_COMMENT_NL h10
  obtain ⟨u11, rfl, k11⟩ := shw__CPP_COMMENT_NL h11
  obtain ⟨u12, rfl, k12⟩ := shw__CPP_COMMENT_NL h12
  exact ⟨⟨x1, some x4⟩, rfl, .arg (w1 := [u3]) (w3 := [u5]) (w4 := [u7, u8, u9, u10, u11, u12]) k0 k1 k2 (optBreak_some k3) k4 (optBreak_some k5) k6 (breaks_cons k7 (breaks_cons k8 (breaks_cons k9 (breaks_cons k10 (breaks_cons k11 (breaks_cons k12 breaks_nil)))))) (by simp)⟩

theorem r_156 : RuleOK ⟨N.«decorator», [T.«AT», T.«__ANON_2», T.«LPAR», T.«_CPP_COMMENT_NL», N.«value_brackets», T.«_CPP_COMMENT_NL», T.«RPAR», T.«_CPP_COMMENT_NL», T.«_CPP_COMMENT_NL», T.«_CPP_COMMENT_NL», T.«_CPP_COMMENT_NL», T.«_CPP_COMMENT_NL», T.«_CPP_COMMENT_NL», T.«_CPP_COMMENT_NL», T.«_CPP_COMMENT_NL», T.«_CPP_COMMENT_NL», T.«_CPP_COMMENT_NL»], "decorator", false, [(1, false, 0), (4, false, 0)], 0⟩ := by
  refine ruleOK_node ?_
  intro cs w n l h hc hl
  obtain ⟨c0, cs, w0, w, rfl, rfl, h0, h⟩ := fitsW_cons.mp h
  obtain ⟨c1, cs, w1, w, rfl, rfl, h1, h⟩ := fitsW_cons.mp h
  obtain ⟨c2, cs, w2, w, rfl, rfl, h2, h⟩ := fitsW_cons.mp h
  obtain ⟨c3, cs, w3, w, rfl, rfl, h3, h⟩ := fitsW_cons.mp h
  obtain ⟨c4, cs, w4, w, rfl, rfl, h4, h⟩ := fitsW_cons.mp h
  obtain ⟨c5, cs, w5, w, rfl, rfl, h5, h⟩ := fitsW_cons.mp h
  obtain ⟨c6, cs, w6, w, rfl, rfl, h6, h⟩ := fitsW_cons.mp h
  obtain ⟨c7, cs, w7, w, rfl, rfl, h7, h⟩ := fitsW_cons.mp h
  obtain ⟨c8, cs, w8, w, rfl, rfl, h8, h⟩ := fitsW_cons.mp h
  obtain ⟨c9, cs, w9, w, rfl, rfl, h9, h⟩ := fitsW_cons.mp h
  obtain ⟨c10, cs, w10, w, rfl, rfl, h10, h⟩ := fitsW_cons.mp h
  obtain ⟨c11, cs, w11, w, rfl, rfl, h11, h⟩ := fitsW_cons.mp h
  obtain ⟨c12, cs, w12, w, rfl, rfl, h12, h⟩ := fitsW_cons.mp h
  obtain ⟨c13, cs, w13, w, rfl, rfl, h13, h⟩ := fitsW_cons.mp h
  obtain ⟨c14, cs, w14, w, rfl, rfl, h14, h⟩ := fitsW_cons.mp h
  obtain ⟨c15, cs, w15, w, rfl, rfl, h15, h⟩ := fitsW_cons.mp h
  obtain ⟨c16, rfl, h16⟩ := fitsW_one.mp h
  rename' w => w16
  obtain ⟨u0, rfl, rfl, k0⟩ := shw_AT h0
  obtain ⟨x1, u1, rfl, rfl, k1⟩ := shw___ANON_2 h1
  obtain ⟨u2, rfl, rfl, k2⟩ := shw_LPAR h2
  obtain ⟨u3, rfl, k3⟩ := shw__CPP_COMMENT_NL h3
  obtain ⟨x4, rfl, k4⟩ := h4
  obtain ⟨u5, rfl, k5⟩ := shw__CPP_COMMENT_NL h5
  obtain ⟨u6, rfl, rfl, k6⟩ := shw_RPAR h6
  obtain ⟨u7, rfl, k7⟩ := shw__CPP_COMMENT_NL h7
  obtain ⟨u8, rfl, k8⟩ := shw__CPP_COMMENT_NL h8
  obtain ⟨u9, rfl, k9⟩ := shw__CPP_COMMENT_NL h9
  obtain ⟨u10, rfl, k10⟩ := shw__CPP_COMMENT_NL h10
  obtain ⟨u11, rfl, k11⟩ := shw__CPP_COMMENT_NL h11
  obtain ⟨u12, rfl, k12⟩ := shw__CPP_COMMENT_NL h12
  obtain ⟨u13, rfl, k13⟩ := shw__CPP_COMMENT_NL h13
  obtain ⟨u14, rfl, k14⟩ := shw__CPP_COMMENT_NL h14
  obtain ⟨u15, rfl, k15⟩ := shw__CPP_COMMENT_NL h15
  obtain ⟨u16, rfl, k16⟩ := shw__CPP_COMMENT_NL h16
  exact ⟨⟨x1, some x4⟩, rfl, .arg (w1 := [u3]) (w3 := [u5]) (w4 := [u7, u8, u9, u10, u11, u12, u13, u14, u15, u16]) k0 k1 k2 (optBreak_some k3) k4 (optBreak_some k5) k6 (breaks_cons k7 (breaks_cons k8 (breaks_cons k9 (breaks_cons k10 (breaks_cons k11 (breaks_cons k12 (breaks_cons k13 (breaks_cons k14 (breaks_cons k15 (breaks_cons k16 breaks_nil)))))))))) (by simp)⟩

theorem r_160 : RuleOK ⟨N.«decorator», [T.«AT», T.«__ANON_2», T.«LPAR», T.«_CPP_COMMENT_NL», N.«value_brackets», T.«RPAR», T.«_CPP_COMMENT_NL», T.«_CPP_COMMENT_NL», T.«_CPP_COMMENT_NL»], "decorator", false, [(1, false, 0), (4, false, 0)], 0⟩ := by
  refine ruleOK_node ?_
  intro cs w n l h hc hl
  obtain ⟨c0, cs, w0, w, rfl, rfl, h0, h⟩ := fitsW_cons.mp h
  obtain ⟨c1, cs, w1, w, rfl, rfl, h1, h⟩ := fitsW_cons.mp h
  obtain ⟨c2, cs, w2, w, rfl, rfl, h2, h⟩ := fitsW_cons.mp h
  obtain ⟨c3, cs, w3, w, rfl, rfl, h3, h⟩ := fitsW_cons.mp h
  obtain ⟨c4, cs, w4, w, rfl, rfl, h4, h⟩ := fitsW_cons.mp h
  obtain ⟨c5, cs, w5, w, rfl, rfl, h5, h⟩ := fitsW_cons.mp h
  obtain ⟨c6, cs, w6, w, rfl, rfl, h6, h⟩ := fitsW_cons.mp h
  obtain ⟨c7, cs, w7, w, rfl, rfl, h7, h⟩ := fitsW_cons.mp h
  obtain ⟨c8, rfl, h8⟩ := fitsW_one.mp h
  rename' w => w8
  obtain ⟨u0, rfl, rfl, k0⟩ := shw_AT h0
  obtain ⟨x1, u1, rfl, rfl, k1⟩ := shw___ANON_2 h1
  obtain ⟨u2, rfl, rfl, k2⟩ := shw_LPAR h2
  obtain ⟨u3, rfl, k3⟩ := shw__CPP_COMMENT_NL h3
  obtain ⟨x4, rfl, k4⟩ := h4
  obtain ⟨u5, rfl, rfl, k5⟩ := shw_RPAR h5
  obtain ⟨u6, rfl, k6⟩ := shw__CPP_COMMENT_NL h6
  obtain ⟨u7, rfl, k7⟩ := shw__CPP_COMMENT_NL h7
  obtain ⟨u8, rfl, k8⟩ := shw__CPP_COMMENT_NL h8
  exact ⟨⟨x1, some x4⟩, rfl, .arg (w1 := [u3]) (w3 := []) (w4 := [u6, u7, u8]) k0 k1 k2 (optBreak_some k3) k4 optBreak_none k5 (breaks_cons k6 (breaks_cons k7 (breaks_cons k8 breaks_nil))) (by simp)⟩

theorem r_164 : RuleOK ⟨N.«decorator», [T.«AT», T.«__ANON_2», T.«LPAR», T.«_CPP_COMMENT_NL», N.«value_brackets», T.«RPAR», T.«_CPP_COMMENT_NL», T.«_CPP_COMMENT_NL», T.«_CPP_COMMENT_NL», T.«_CPP_COMMENT_NL», T.«_CPP_COMMENT_NL», T.«_CPP_COMMENT_NL», T.«_CPP_COMMENT_NL»], "decorator", false, [(1, false, 0), (4, false, 0)], 0⟩ := by
  refine ruleOK_node ?_
  intro cs w n l h hc hl
  obtain ⟨c0, cs, w0, w, rfl, rfl, h0, h⟩ := fitsW_cons.mp h
  obtain ⟨c1, cs, w1, w, rfl, rfl, h1, h⟩ := fitsW_cons.mp h
  obtain ⟨c2, cs, w2, w, rfl, rfl, h2, h⟩ := fitsW_cons.mp h
  obtain ⟨c3, cs, w3, w, rfl, rfl, h3, h⟩ := fitsW_cons.mp h
  obtain ⟨c4, cs, w4, w, rfl, rfl, h4, h⟩ := fitsW_cons.mp h
  obtain ⟨c5, cs, w5, w, rfl, rfl, h5, h⟩ := fitsW_cons.mp h
  obtain ⟨c6, cs, w6, w, rfl, rfl, h6, h⟩ := fitsW_cons.mp h
  obtain ⟨c7, cs, w7, w, rfl, rfl, h7, h⟩ := fitsW_cons.mp h
  obtain ⟨c8, cs, w8, w, rfl, rfl, h8, h⟩ := fitsW_cons.mp h
  obtain ⟨c9, cs, w9, w, rfl, rfl, h9, h⟩ := fitsW_cons.mp h
  obtain ⟨c10, cs, w10, w, rfl, rfl, h10, h⟩ := fitsW_cons.mp h
  obtain ⟨c11, cs, w11, w, rfl, rfl, h11, h⟩ := fitsW_cons.mp h
  obtain ⟨c12, rfl, h12⟩ := fitsW_one.mp h
  rename' w => w12
  obtain ⟨u0, rfl, rfl, k0⟩ := shw_AT h0
  obtain ⟨x1, u1, rfl, rfl, k1⟩ := shw___ANON_2 h1
  obtain ⟨u2, rfl, rfl, k2⟩ := shw_LPAR h2
  obtain ⟨u3, rfl, k3⟩ := shw__CPP_COMMENT_NL h3
  obtain ⟨x4, rfl, k4⟩ := h4
  obtain ⟨u5, rfl, rfl, k5⟩ := shw_RPAR h5
  obtain ⟨u6, rfl, k6⟩ := shw__CPP_COMMENT_NL h6
  obtain ⟨u7, rfl, k7⟩ := shw__CPP_COMMENT_NL h7
  obtain ⟨u8, rfl, k8⟩ := shw__CPP_COMMENT_NL h8
  obtain ⟨u9, rfl, k9⟩ := shw__CPP_COMMENT_NL h9
  obtain ⟨u10, rfl, k10⟩ := shw__CPP_COMMENT_NL h10
  obtain ⟨u11, rfl, k11⟩ := shw__CPP_COMMENT_NL h11
  obtain ⟨u12, rfl, k12⟩ := shw__CPP_COMMENT_NL h12
  exact ⟨⟨x1, some x4⟩, rfl, .arg (w1 := [u3]) (w3 := []) (w4 := [u6, u7, u8, u9, u10, u11, u12]) k0 k1 k2 (optBreak_some k3) k4 optBreak_none k5 (breaks_cons k6 (breaks_cons k7 (breaks_cons k8 (breaks_cons k9 (breaks_cons k10 (breaks_cons k11 (breaks_cons k12 breaks_nil))))))) (by simp)⟩

theorem r_168 : RuleOK ⟨N.«decorator», [T.«AT», T.«__ANON_2», T.«LPAR», T.«_CPP_COMMENT_NL», T.«_CPP_COMMENT_NL», T.«RPAR»], "decorator", false, [(1, false, 0)], 0⟩ := by
  refine ruleOK_node ?_
  intro cs w n l h hc hl
  obtain ⟨c0, cs, w0, w, rfl, rfl, h0, h⟩ := fitsW_cons.mp h
  obtain ⟨c1, cs, w1, w, rfl, rfl, h1, h⟩ := fitsW_cons.mp h
  obtain ⟨c2, cs, w2, w, rfl, rfl, h2, h⟩ := fitsW_cons.mp h
  obtain ⟨c3, cs, w3, w, rfl, rfl, h3, h⟩ := fitsW_cons.mp h
  obtain ⟨c4, cs, w4, w, rfl, rfl, h4, h⟩ := fitsW_cons.mp h
  obtain ⟨c5, rfl, h5⟩ := fitsW_one.mp h
  rename' w => w5
  obtain ⟨u0, rfl, rfl, k0⟩ := shw_AT h0
  obtain ⟨x1, u1, rfl, rfl, k1⟩ := shw___ANON_2 h1
  obtain ⟨u2, rfl, rfl, k2⟩ := shw_LPAR h2
  obtain ⟨u3, rfl, k3⟩ := shw__CPP_COMMENT_NL h3
  obtain ⟨u4, rfl, k4⟩ := shw__CPP_COMMENT_NL h4
  obtain ⟨u5, rfl, rfl, k5⟩ := shw_RPAR h5
  exact ⟨⟨x1, .none⟩, rfl, .noArg (w1 := [u3, u4]) (w2 := []) k0 k1 k2 (breaks_cons k3 (breaks_cons k4 breaks_nil)) (by simp) k5 breaks_nil (by simp)⟩

theorem r_172 : RuleOK ⟨N.«decorator», [T.«AT», T.«__ANON_2», T.«LPAR», T.«_CPP_COMMENT_NL», T.«_CPP_COMMENT_NL», T.«RPAR», T.«_CPP_COMMENT_NL», T.«_CPP_COMMENT_NL», T.«_CPP_COMMENT_NL», T.«_CPP_COMMENT_NL»], "decorator", false, [(1, false, 0)], 0⟩ := by
  refine ruleOK_node ?_
  intro cs w n l h hc hl
  obtain ⟨c0, cs, w0, w, rfl, rfl, h0, h⟩ := fitsW_cons.mp h
  obtain ⟨c1, cs, w1, w, rfl, rfl, h1, h⟩ := fitsW_cons.mp h
  obtain ⟨c2, cs, w2, w, rfl, rfl, h2, h⟩ := fitsW_cons.mp h
  obtain ⟨c3, cs, w3, w, rfl, rfl, h3, h⟩ := fitsW_cons.mp h
  obtain ⟨c4, cs, w4, w, rfl, rfl, h4, h⟩ := fitsW_cons.mp h
  obtain ⟨c5, cs, w5, w, rfl, rfl, h5, h⟩ := fitsW_cons.mp h
  obtain ⟨c6, cs, w6, w, rfl, rfl, h6, h⟩ := fitsW_cons.mp h
  obtain ⟨c7, cs, w7, w, rfl, rfl, h7, h⟩ := fitsW_cons.mp h
  obtain ⟨c8, cs, w8, w, rfl, rfl, h8, h⟩ := fitsW_cons.mp h
  obtain ⟨c9, rfl, h9⟩ := fitsW_one.mp h
  rename' w => w9
  obtain ⟨u0, rfl, rfl, k0⟩ := shw_AT h0
  obtain ⟨x1, u1, rfl, rfl, k1⟩ := shw___ANON_2 h1
  obtain ⟨u2, rfl, rfl, k2⟩ := shw_LPAR h2
  obtain ⟨u3, rfl, k3⟩ := shw__CPP_COMMENT_NL h3
  obtain ⟨u4, rfl, k4⟩ := shw__CPP_COMMENT_NL h4
  obtain ⟨u5, rfl, rfl, k5⟩ := shw_RPAR h5
  obtain ⟨u6, rfl, k6⟩ := shw__CPP_COMMENT_NL h6
  obtain ⟨u7, rfl, k7⟩ := shw__CPP_COMMENT_NL h7
  obtain ⟨u8, rfl, k8⟩ := shw__CPP_COMMENT_NL h8
  obtain ⟨u9, rfl, k9⟩ := shw__CPP_COMMENT_NL h9
  exact ⟨⟨x1, .none⟩, rfl, .noArg (w1 := [u3, u4]) (w2 := [u6, u7, u8, u9]) k0 k1 k2 (breaks_cons k3 (breaks_cons k4 breaks_nil)) (by simp) k5 (breaks_cons k6 (breaks_cons k7 (breaks_cons k8 (breaks_cons k9 breaks_nil)))) (by simp)⟩

theorem r_176 : RuleOK ⟨N.«decorator», [T.«AT», T.«__ANON_2», T.«LPAR», T.«_CPP_COMMENT_NL», T.«_CPP_COMMENT_NL», T.«RPAR», T.«_CPP_COMMENT_NL», T.«_CPP_COMMENT_NL», T.«_CPP_COMMENT_NL», T.«_CPP_COMMENT_NL», T.«_CPP_COMMENT_NL», T.«_CPP_COMMENT_NL», T.«_CPP_COMMENT_NL», T.«_CPP_COMMENT_NL»], "decorator", false, [(1, false, 0)], 0⟩ := by
  refine ruleOK_node ?_
  intro cs w n l h hc hl
  obtain ⟨c0, cs, w0, w, rfl, rfl, h0, h⟩ := fitsW_cons.mp h
  obtain ⟨c1, cs, w1, w, rfl, rfl, h1, h⟩ := fitsW_cons.mp h
  obtain ⟨c2, cs, w2, w, rfl, rfl, h2, h⟩ := fitsW_cons.mp h
  obtain ⟨c3, cs, w3, w, rfl, rfl, h3, h⟩ := fitsW_cons.mp h
  obtain ⟨c4, cs, w4, w, rfl, rfl, h4, h⟩ := fitsW_cons.mp h
  obtain ⟨c5, cs, w5, w, rfl, rfl, h5, h⟩ := fitsW_cons.mp h
  obtain ⟨c6, cs, w6, w, rfl, rfl, h6, h⟩ := fitsW_cons.mp h
  obtain ⟨c7, cs, w7, w, rfl, rfl, h7, h⟩ := fitsW_cons.mp h
  obtain ⟨c8, cs, w8, w, rfl, rfl, h8, h⟩ := fitsW_cons.mp h
  obtain ⟨c9, cs, w9, w, rfl, rfl, h9, h⟩ := fitsW_cons.mp h
  obtain ⟨c10, cs, w10, w, rfl, rfl, h10, h⟩ := fitsW_cons.mp h
  obtain ⟨c11, cs, w11, w, rfl, rfl, h11, h⟩ := fitsW_cons.mp h
  obtain ⟨c12, cs, w12, w, rfl, rfl, h12, h⟩ := fitsW_cons.mp h
  obtain ⟨c13, rfl, h13⟩ := fitsW_one.mp h
  rename' w => w13
  obtain ⟨u0, rfl, rfl, k0⟩ := shw_AT h0
  obtain ⟨x1, u1, rfl, rfl, k1⟩ := shw___ANON_2 h1
  obtain ⟨u2, rfl, rfl, k2⟩ := shw_LPAR h2
  obtain ⟨u3, rfl, k3⟩ := shw__CPP_COMMENT_NL h3
  obtain ⟨u4, rfl, k4⟩ := shw__CPP_COMMENT_NL h4
  obtain ⟨u5, rfl, rfl, k5⟩ := shw_RPAR h5
  obtain ⟨u6, rfl, k6⟩ := shw__CPP_COMMENT_NL h6
  obtain ⟨u7, rfl, k7⟩ := shw__CPP_COMMENT_NL h7
  obtain ⟨u8, rfl, k8⟩ := shw__CPP_COMMENT_NL h8
  obtain ⟨u9, rfl, k9⟩ := shw__CPP_COMMENT_NL h9
  obtain ⟨u10, rfl, k10⟩ := shw__CPP_COMMENT_NL h10
  obtain ⟨u11, rfl, k11⟩ := shw__CPP_COMMENT_NL h11
  obtain ⟨u12, rfl, k12⟩ := shw__CPP_COMMENT_NL h12
  obtain ⟨u13, rfl, k13⟩ := shw__CPP_COMMENT_NL h13
  exact ⟨⟨x1, .none⟩, rfl, .noArg (w1 := [u3, u4]) (w2 := [u6, u7, u8, u9, u10, u11, u12, u13]) k0 k1 k2 (breaks_cons k3 (breaks_cons k4 breaks_nil)) (by simp) k5 (breaks_cons k6 (breaks_cons k7 (breaks_cons k8 (breaks_cons k9 (breaks_cons k10 (breaks_cons k11 (breaks_cons k12 (breaks_cons k13 breaks_nil)))))))) (by simp)⟩

theorem r_180 : RuleOK ⟨N.«decorator», [T.«AT», T.«__ANON_2», T.«LPAR», T.«_CPP_COMMENT_NL», T.«RPAR», T.«_CPP_COMMENT_NL»], "decorator", false, [(1, false, 0)], 0⟩ := by
  refine ruleOK_node ?_
  intro cs w n l h hc hl
  obtain ⟨c0, cs, w0, w, rfl, rfl, h0, h⟩ := fitsW_cons.mp h
  obtain ⟨c1, cs, w1, w, rfl, rfl, h1, h⟩ := fitsW_cons.mp h
  obtain ⟨c2, cs, w2, w, rfl, rfl, h2, h⟩ := fitsW_cons.mp h
  obtain ⟨c3, cs, w3, w, rfl, rfl, h3, h⟩ := fitsW_cons.mp h
  obtain ⟨c4, cs, w4, w, rfl, rfl, h4, h⟩ := fitsW_cons.mp h
  obtain ⟨c5, rfl, h5⟩ := fitsW_one.mp h
  rename' w => w5
  obtain ⟨u0, rfl, rfl, k0⟩ := shw_AT h0
  obtain ⟨x1, u1, rfl, rfl, k1⟩ := shw___ANON_2 h1
  obtain ⟨u2, rfl, rfl, k2⟩ := shw_LPAR h2
  obtain ⟨u3, rfl, k3⟩ := shw__CPP_COMMENT_NL h3
  obtain ⟨u4, rfl, rfl, k4⟩ := shw_RPAR h4
  obtain ⟨u5, rfl, k5⟩ := shw__CPP_COMMENT_NL h5
  exact ⟨⟨x1, .none⟩, rfl, .noArg (w1 := [u3]) (w2 := [u5]) k0 k1 k2 (breaks_cons k3 breaks_nil) (by simp) k4 (breaks_cons k5 breaks_nil) (by simp)⟩

theorem r_184 : RuleOK ⟨N.«decorator», [T.«AT», T.«__ANON_2», T.«LPAR», T.«_CPP_COMMENT_NL», T.«RPAR», T.«_CPP_COMMENT_NL», T.«_CPP_COMMENT_NL», T.«_CPP_COMMENT_NL», T.«_CPP_COMMENT_NL», T.«_CPP_COMMENT_NL»], "decorator", false, [(1, false, 0)], 0⟩ := by
  refine ruleOK_node ?_
  intro cs w n l h hc hl
  obtain ⟨c0, cs, w0, w, rfl, rfl, h0, h⟩ := fitsW_cons.mp h
  obtain ⟨c1, cs, w1, w, rfl, rfl, h1, h⟩ := fitsW_cons.mp h
  obtain ⟨c2, cs, w2, w, rfl, rfl, h2, h⟩ := fitsW_cons.mp h
  obtain ⟨c3, cs, w3, w, rfl, rfl, h3, h⟩ := fitsW_cons.mp h
  obtain ⟨c4, cs, w4, w, rfl, rfl, h4, h⟩ := fitsW_cons.mp h
  obtain ⟨c5, cs, w5, w, rfl, rfl, h5, h⟩ := fitsW_cons.mp h
  obtain ⟨c6, cs, w6, w, rfl, rfl, h6, h⟩ := fitsW_cons.mp h
  obtain ⟨c7, cs, w7, w, rfl, rfl, h7, h⟩ := fitsW_cons.mp h
  obtain ⟨c8, cs, w8, w, rfl, rfl, h8, h⟩ := fitsW_cons.mp h
  obtain ⟨c9, rfl, h9⟩ := fitsW_one.mp h
  rename' w => w9
  obtain ⟨u0, rfl, rfl, k0⟩ := shw_AT h0
  obtain ⟨x1, u1, rfl, rfl, k1⟩ := shw___ANON_2 h1
  obtain ⟨u2, rfl, rfl, k2⟩ := shw_LPAR h2
  obtain ⟨u3, rfl, k3⟩ := shw__CPP_COMMENT_NL h3
  obtain ⟨u4, rfl, rfl, k4⟩ := shw_RPAR h4
  obtain ⟨u5, rfl, k5⟩ := shw__CPP_COMMENT_NL h5
  obtain ⟨u6, rfl, k6⟩ := shw__CPP_COMMENT_NL h6
  obtain ⟨u7, rfl, k7⟩ := shw__CPP_COMMENT_NL h7
  obtain ⟨u8, rfl, k8⟩ := shw__CPP_COMMENT_NL h8
  obtain ⟨u9, rfl, k9⟩ := shw__CPP_COMMENT_NL h9
  exact ⟨⟨x1, .none⟩, rfl, .noArg (w1 := [u3]) (w2 := [u5, u6, u7, u8, u9]) k0 k1 k2 (breaks_cons k3 breaks_nil) (by simp) k4 (breaks_cons k5 (breaks_cons k6 (breaks_cons k7 (breaks_cons k8 (breaks_cons k9 breaks_nil))))) (by simp)⟩

theorem r_188 : RuleOK ⟨N.«decorator», [T.«AT», T.«__ANON_2», T.«LPAR», T.«_CPP_COMMENT_NL», T.«RPAR», T.«_CPP_COMMENT_NL», T.«_CPP_COMMENT_NL», T.«_CPP_COMMENT_NL», T.«_CPP_COMMENT_NL», T.«_CPP_COMMENT_NL», T.«_CPP_COMMENT_NL», T.«_CPP_COMMENT_NL», T.«_CPP_COMMENT_NL», T.«_CPP_COMMENT_NL»], "decorator", false, [(1, false, 0)], 0⟩ := by
  refine ruleOK_node ?_
  intro cs w n l h hc hl
  obtain ⟨c0, cs, w0, w, rfl, rfl, h0, h⟩ := fitsW_cons.mp h
  obtain ⟨c1, cs, w1, w, rfl, rfl, h1, h⟩ := fitsW_cons.mp h
  obtain ⟨c2, cs, w2, w, rfl, rfl, h2, h⟩ := fitsW_cons.mp h
  obtain ⟨c3, cs, w3, w, rfl, rfl, h3, h⟩ := fitsW_cons.mp h
  obtain ⟨c4, cs, w4, w, rfl, rfl, h4, h⟩ := fitsW_cons.mp h
  obtain ⟨c5, cs, w5, w, rfl, rfl, h5, h⟩ := fitsW_cons.mp h
  obtain ⟨c6, cs, w6, w, rfl, rfl, h6, h⟩ := fitsW_cons.mp h
  obtain ⟨c7, cs, w7, w, rfl, rfl, h7, h⟩ := fitsW_cons.mp h
  obtain ⟨c8, cs, w8, w, rfl, rfl, h8, h⟩ := fitsW_cons.mp h
  obtain ⟨c9, cs, w9, w, rfl, rfl, h9, h⟩ := fitsW_cons.mp h
  obtain ⟨c10, cs, w10, w, rfl, rfl, h10, h⟩ := fitsW_cons.mp h
  obtain ⟨c11, cs, w11, w, rfl, rfl, h11, h⟩ := fitsW_cons.mp h
  obtain ⟨c12, cs, w12, w, rfl, rfl, h12, h⟩ := fitsW_cons.mp h
  obtain ⟨c13, rfl, h13⟩ := fitsW_one.mp h
  rename' w => w13
  obtain ⟨u0, rfl, rfl, k0⟩ := shw_AT h0
  obtain ⟨x1, u1, rfl, rfl, k1⟩ := shw___ANON_2 h1
  obtain ⟨u2, rfl, rfl, k2⟩ := shw_LPAR h2
  obtain ⟨u3, rfl, k3⟩ := shw__CPP_COMMENT_NL h3
  obtain ⟨u4, rfl, rfl, k4⟩ := shw_RPAR h4
  obtain ⟨u5, rfl, k5⟩ := shw__CPP_COMMENT_NL h5
  obtain ⟨u6, rfl, k6⟩ := shw__CPP_COMMENT_NL h6
  obtain ⟨u7, rfl, k7⟩ := shw__CPP_COMMENT_NL h7
  obtain ⟨u8, rfl, k8⟩ := shw__CPP_COMMENT_NL h8
  obtain ⟨u9, rfl, k9⟩ := shw__CPP_COMMENT_NL h9
  obtain ⟨u10, rfl, k10⟩ := shw__CPP_COMMENT_NL h10
  obtain ⟨u11, rfl, k11⟩ := shw__CPP_COMMENT_NL h11
  obtain ⟨u12, rfl, k12⟩ := shw__CPP_COMMENT_NL h12
  obtain ⟨u13, rfl, k13⟩ := shw__CPP_COMMENT_NL h13
  exact ⟨⟨x1, .none⟩, rfl, .noArg (w1 := [u3]) (w2 := [u5, u6, u7, u8, u9, u10, u11, u12, u13]) k0 k1 k2 (breaks_cons k3 breaks_nil) (by simp) k4 (breaks_cons k5 (breaks_cons k6 (breaks_cons k7 (breaks_cons k8 (breaks_cons k9 (breaks_cons k10 (breaks_cons k11 (breaks_cons k12 (breaks_cons k13 breaks_nil))))))))) (by simp)⟩

theorem r_192 : RuleOK ⟨N.«decorator», [T.«AT», T.«__ANON_2», T.«LPAR», N.«value_brackets», T.«_CPP_COMMENT_NL», T.«RPAR», T.«_CPP_COMMENT_NL», T.«_CPP_COMMENT_NL»], "decorator", false, [(1, false, 0), (3, false, 0)], 0⟩ := by
  refine ruleOK_node ?_
  intro cs w n l h hc hl
  obtain ⟨c0, cs, w0, w, rfl, rfl, h0, h⟩ := fitsW_cons.mp h
  obtain ⟨c1, cs, w1, w, rfl, rfl, h1, h⟩ := fitsW_cons.mp h
  obtain ⟨c2, cs, w2, w, rfl, rfl, h2, h⟩ := fitsW_cons.mp h
  obtain ⟨c3, cs, w3, w, rfl, rfl, h3, h⟩ := fitsW_cons.mp h
  obtain ⟨c4, cs, w4, w, rfl, rfl, h4, h⟩ := fitsW_cons.mp h
  obtain ⟨c5, cs, w5, w, rfl, rfl, h5, h⟩ := fitsW_cons.mp h
  obtain ⟨c6, cs, w6, w, rfl, rfl, h6, h⟩ := fitsW_cons.mp h
  obtain ⟨c7, rfl, h7⟩ := fitsW_one.mp h
  rename' w => w7
  obtain ⟨u0, rfl, rfl, k0⟩ := shw_AT h0
  obtain ⟨x1, u1, rfl, rfl, k1⟩ := shw___ANON_2 h1
  obtain ⟨u2, rfl, rfl, k2⟩ := shw_LPAR h2
  obtain ⟨x3, rfl, k3⟩ := h3
  obtain ⟨u4, rfl, k4⟩ := shw__CPP_COMMENT_NL h4
  obtain ⟨u5, rfl, rfl, k5⟩ := shw_RPAR h5
  obtain ⟨u6, rfl, k6⟩ := shw__CPP_COMMENT_NL h6
  obtain ⟨u7, rfl, k7⟩ := shw__CPP_COMMENT_NL h7
  exact ⟨⟨x1, some x3⟩, rfl, .arg (w1 := []) (w3 := [u4]) (w4 := [u6, u7]) k0 k1 k2 optBreak_none k3 (optBreak_some k4) k5 (breaks_cons k6 (breaks_cons k7 breaks_nil)) (by simp)⟩

theorem r_196 : RuleOK ⟨N.«decorator», [T.«AT», T.«__ANON_2», T.«LPAR», N.«value_brackets», T.«_CPP_COMMENT_NL», T.«RPAR», T.«_CPP_COMMENT_NL», T.«_CPP_COMMENT_NL», T.«_CPP_COMMENT_NL», T.«_CPP_COMMENT_NL», T.«_CPP_COMMENT_NL», T.«_CPP_COMMENT_NL»], "decorator", false, [(1, false, 0), (3, false, 0)], 0⟩ := by
  refine ruleOK_node ?_
  intro cs w n l h hc hl
  obtain ⟨c0, cs, w0, w, rfl, rfl, h0, h⟩ := fitsW_cons.mp h
  obtain ⟨c1, cs, w1, w, rfl, rfl, h1, h⟩ := fitsW_cons.mp h
  obtain ⟨c2, cs, w2, w, rfl, rfl, h2, h⟩ := fitsW_cons.mp h
  obtain ⟨c3, cs, w3, w, rfl, rfl, h3, h⟩ := fitsW_cons.mp h
  obtain ⟨c4, cs, w4, w, rfl, rfl, h4, h⟩ := fitsW_cons.mp h
  obtain ⟨c5, cs, w5, w, rfl, rfl, h5, h⟩ := fitsW_cons.mp h
  obtain ⟨c6, cs, w6, w, rfl, rfl, h6, h⟩ := fitsW_cons.mp h
  obtain ⟨c7, cs, w7, w, rfl, rfl, h7, h⟩ := fitsW_cons.mp h
  obtain ⟨c8, cs, w8, w, rfl, rfl, h8, h⟩ := fitsW_cons.mp h
  obtain ⟨c9, cs, w9, w, rfl, rfl, h9, h⟩ := fitsW_cons.mp h
  obtain ⟨c10, cs, w10, w, rfl, rfl, h10, h⟩ := fitsW_cons.mp h
  obtain ⟨c11, rfl, h11⟩ := fitsW_one.mp h
  rename' w => w11
  obtain ⟨u0, rfl, rfl, k0⟩ := shw_AT h0
  obtain ⟨x1, u1, rfl, rfl, k1⟩ := shw___ANON_2 h1
  obtain ⟨u2, rfl, rfl, k2⟩ := shw_LPAR h2
  obtain ⟨x3, rfl, k3⟩ := h3
  obtain ⟨u4, rfl, k4⟩ := shw__CPP_COMMENT_NL h4
  obtain ⟨u5, rfl, rfl, k5⟩ := shw_RPAR h5
  obtain ⟨u6, rfl, k6⟩ := shw__CPP_COMMENT_NL h6
  obtain ⟨u7, rfl, k7⟩ := shw__CPP_COMMENT_NL h7
  obtain ⟨u8, rfl, k8⟩ := shw__CPP_COMMENT_NL h8
  obtain ⟨u9, rfl, k9⟩ := shw__CPP_COMMENT_NL h9
  obtain ⟨u10, rfl, k10⟩ := shw__CPP_COMMENT_NL h10
  obtain ⟨u11, rfl, k11⟩ := shw__CPP_COMMENT_NL h11
  exact ⟨⟨x1, some x3⟩, rfl, .arg (w1 := []) (w3 := [u4]) (w4 := [u6, u7, u8, u9, u10, u11]) k0 k1 k2 optBreak_none k3 (optBreak_some k4) k5 (breaks_cons k6 (breaks_cons k7 (breaks_cons k8 (breaks_cons k9 (breaks_cons k10 (breaks_cons k11 breaks_nil)))))) (by simp)⟩

theorem r_200 : RuleOK ⟨N.«decorator», [T.«AT», T.«__ANON_2», T.«LPAR», N.«value_brackets», T.«_CPP_COMMENT_NL», T.«RPAR», T.«_CPP_COMMENT_NL», T.«_CPP_COMMENT_NL», T.«_CPP_COMMENT_NL», T.«_CPP_COMMENT_NL», T.«_CPP_COMMENT_NL», T.«_CPP_COMMENT_NL», T.«_CPP_COMMENT_NL», T.«_CPP_COMMENT_NL», T.«_CPP_COMMENT_NL», T.«_CPP_COMMENT_NL»], "decorator", false, [(1, false, 0), (3, false, 0)], 0⟩ := by
  refine ruleOK_node ?_
  intro cs w n l h hc hl
  obtain ⟨c0, cs, w0, w, rfl, rfl, h0, h⟩ := fitsW_cons.mp h
  obtain ⟨c1, cs, w1, w, rfl, rfl, h1, h⟩ := fitsW_cons.mp h
  obtain ⟨c2, cs, w2, w, rfl, rfl, h2, h⟩ := fitsW_cons.mp h
  obtain ⟨c3, cs, w3, w, rfl, rfl, h3, h⟩ := fitsW_cons.mp h
  obtain ⟨c4, cs, w4, w, rfl, rfl, h4, h⟩ := fitsW_cons.mp h
  obtain ⟨c5, cs, w5, w, rfl, rfl, h5, h⟩ := fitsW_cons.mp h
  obtain ⟨c6, cs, w6, w, rfl, rfl, h6, h⟩ := fitsW_cons.mp h
  obtain ⟨c7, cs, w7, w, rfl, rfl, h7, h⟩ := fitsW_cons.mp h
  obtain ⟨c8, cs, w8, w, rfl, rfl, h8, h⟩ := fitsW_cons.mp h
  obtain ⟨c9, cs, w9, w, rfl, rfl, h9, h⟩ := fitsW_cons.mp h
  obtain ⟨c10, cs, w10, w, rfl, rfl, h10, h⟩ := fitsW_cons.mp h
  obtain ⟨c11, cs, w11, w, rfl, rfl, h11, h⟩ := fitsW_cons.mp h
  obtain ⟨c12, cs, w12, w, rfl, rfl, h12, h⟩ := fitsW_cons.mp h
  obtain ⟨c13, cs, w13, w, rfl, rfl, h13, h⟩ := fitsW_cons.mp h
  obtain ⟨c14, cs, w14, w, rfl, rfl, h14, h⟩ := fitsW_cons.mp h
  obtain ⟨c15, rfl, h15⟩ := fitsW_one.mp h
  rename' w => w15
  obtain ⟨u0, rfl, rfl, k0⟩ := shw_AT h0
  obtain ⟨x1, u1, rfl, rfl, k1⟩ := shw___ANON_2 h1
  obtain ⟨u2, rfl, rfl, k2⟩ := shw_LPAR h2
  obtain ⟨x3, rfl, k3⟩ := h3
  obtain ⟨u4, rfl, k4⟩ := shw__CPP_COMMENT_NL h4
  obtain ⟨u5, rfl, rfl, k5⟩ := shw_RPAR h5
  obtain ⟨u6, rfl, k6⟩ := shw__CPP_COMMENT_NL h6
  obtain ⟨u7, rfl, k7⟩ := shw__CPP_COMMENT_NL h7
  obtain ⟨u8, rfl, k8⟩ := shw__CPP_COMMENT_NL h8
  obtain ⟨u9, rfl, k9⟩ := shw__CPP_COMMENT_NL h9
  obtain ⟨u10, rfl, k10⟩ := shw__CPP_COMMENT_NL h10
  obtain ⟨u11, rfl, k11⟩ := shw__CPP_COMMENT_NL h11
  obtain ⟨u12, rfl, k12⟩ := shw__CPP_COMMENT_NL h12
  obtain ⟨u13, rfl, k13⟩ := shw__CPP_COMMENT_NL h13
  obtain ⟨u14, rfl, k14⟩ := shw__CPP_COMMENT_NL h14
  obtain ⟨u15, rfl, k15⟩ := shw__CPP_COMMENT_NL h15
  exact ⟨⟨x1, some x3⟩, rfl, .arg (w1 := []) (w3 := [u4]) (w4 := [u6, u7, u8, u9, u10, u11, u12, u13, u14, u15]) k0 k1 k2 optBreak_none k3 (optBreak_some k4) k5 (breaks_cons k6 (breaks_cons k7 (breaks_cons k8 (breaks_cons k9 (breaks_cons k10 (breaks_cons k11 (breaks_cons k12 (breaks_cons k13 (breaks_cons k14 (breaks_cons k15 breaks_nil)))))))))) (by simp)⟩

theorem r_204 : RuleOK ⟨N.«decorator», [T.«AT», T.«__ANON_2», T.«LPAR», N.«value_brackets», T.«RPAR», T.«_CPP_COMMENT_NL», T.«_CPP_COMMENT_NL», T.«_CPP_COMMENT_NL»], "decorator", false, [(1, false, 0), (3, false, 0)], 0⟩ := by
  refine ruleOK_node ?_
  intro cs w n l h hc hl
  obtain ⟨c0, cs, w0, w, rfl, rfl, h0, h⟩ := fitsW_cons.mp h
  obtain ⟨c1, cs, w1, w, rfl, rfl, h1, h⟩ := fitsW_cons.mp h
  obtain ⟨c2, cs, w2, w, rfl, rfl, h2, h⟩ := fitsW_cons.mp h
  obtain ⟨c3, cs, w3, w, rfl, rfl, h3, h⟩ := fitsW_cons.mp h
  obtain ⟨c4, cs, w4, w, rfl, rfl, h4, h⟩ := fitsW_cons.mp h
  obtain ⟨c5, cs, w5, w, rfl, rfl, h5, h⟩ := fitsW_cons.mp h
  obtain ⟨c6, cs, w6, w, rfl, rfl, h6, h⟩ := fitsW_cons.mp h
  obtain ⟨c7, rfl, h7⟩ := fitsW_one.mp h
  rename' w => w7
  obtain ⟨u0, rfl, rfl, k0⟩ := shw_AT h0
  obtain ⟨x1, u1, rfl, rfl, k1⟩ := shw___ANON_2 h1
  obtain ⟨u2, rfl, rfl, k2⟩ := shw_LPAR h2
  obtain ⟨x3, rfl, k3⟩ := h3
  obtain ⟨u4, rfl, rfl, k4⟩ := shw_RPAR h4
  obtain ⟨u5, rfl, k5⟩ := shw__CPP_COMMENT_NL h5
  obtain ⟨u6, rfl, k6⟩ := shw__CPP_COMMENT_NL h6
  obtain ⟨u7, rfl, k7⟩ := shw__CPP_COMMENT_NL h7
  exact ⟨⟨x1, some x3⟩, rfl, .arg (w1 := []) (w3 := []) (w4 := [u5, u6, u7]) k0 k1 k2 optBreak_none k3 optBreak_none k4 (breaks_cons k5 (breaks_cons k6 (breaks_cons k7 breaks_nil))) (by simp)⟩

theorem r_208 : RuleOK ⟨N.«decorator», [T.«AT», T.«__ANON_2», T.«LPAR», N.«value_brackets», T.«RPAR», T.«_CPP_COMMENT_NL», T.«_CPP_COMMENT_NL», T.«_CPP_COMMENT_NL», T.«_CPP_COMMENT_NL», T.«_CPP_COMMENT_NL», T.«_CPP_COMMENT_NL», T.«_CPP_COMMENT_NL»], "decorator", false, [(1, false, 0), (3, false, 0)], 0⟩ := by
  refine ruleOK_node ?_
  intro cs w n l h hc hl
  obtain ⟨c0, cs, w0, w, rfl, rfl, h0, h⟩ := fitsW_cons.mp h
  obtain ⟨c1, cs, w1, w, rfl, rfl, h1, h⟩ := fitsW_cons.mp h
  obtain ⟨c2, cs, w2, w, rfl, rfl, h2, h⟩ := fitsW_cons.mp h
  obtain ⟨c3, cs, w3, w, rfl, rfl, h3, h⟩ := fitsW_cons.mp h
  obtain ⟨c4, cs, w4, w, rfl, rfl, h4, h⟩ := fitsW_cons.mp h
  obtain ⟨c5, cs, w5, w, rfl, rfl, h5, h⟩ := fitsW_cons.mp h
  obtain ⟨c6, cs, w6, w, rfl, rfl, h6, h⟩ := fitsW_cons.mp h
  obtain ⟨c7, cs, w7, w, rfl, rfl, h7, h⟩ := fitsW_cons.mp h
  obtain ⟨c8, cs, w8, w, rfl, rfl, h8, h⟩ := fitsW_cons.mp h
  obtain ⟨c9, cs, w9, w, rfl, rfl, h9, h⟩ := fitsW_cons.mp h
  obtain ⟨c10, cs, w10, w, rfl, rfl, h10, h⟩ := fitsW_cons.mp h
  obtain ⟨c11, rfl, h11⟩ := fitsW_one.mp h
  rename' w => w11
  obtain ⟨u0, rfl, rfl, k0⟩ := shw_AT h0
  obtain ⟨x1, u1, rfl, rfl, k1⟩ := shw___ANON_2 h1
  obtain ⟨u2, rfl, rfl, k2⟩ := shw_LPAR h2
  obtain ⟨x3, rfl, k3⟩ := h3
  obtain ⟨u4, rfl, rfl, k4⟩ := shw_RPAR h4
  obtain ⟨u5, rfl, k5⟩ := shw__CPP_COMMENT_NL h5
  obtain ⟨u6, rfl, k6⟩ := shw__CPP_COMMENT_NL h6
  obtain ⟨u7, rfl, k7⟩ := shw__CPP_COMMENT_NL h7
  obtain ⟨u8, rfl, k8⟩ := shw__CPP_COMMENT_NL h8
  obtain ⟨u9, rfl, k9⟩ := shw__CPP_COMMENT_NL h9
  obtain ⟨u10, rfl, k10⟩ := shw__CPP_COMMENT_NL h10
  obtain ⟨u11, rfl, k11⟩ := shw__CPP_COMMENT_NL h11
  exact ⟨⟨x1, some x3⟩, rfl, .arg (w1 := []) (w3 := []) (w4 := [u5, u6, u7, u8, u9, u10, u11]) k0 k1 k2 optBreak_none k3 optBreak_none k4 (breaks_cons k5 (breaks_cons k6 (breaks_cons k7 (breaks_cons k8 (breaks_cons k9 (breaks_cons k10 (breaks_cons k11 breaks_nil))))))) (by simp)⟩

theorem r_212 : RuleOK ⟨N.«decorator», [T.«AT», T.«__ANON_2», T.«LPAR», T.«RPAR»], "decorator", false, [(1, false, 0)], 0⟩ := by
  refine ruleOK_node ?_
  intro cs w n l h hc hl
  obtain ⟨c0, cs, w0, w, rfl, rfl, h0, h⟩ := fitsW_cons.mp h
  obtain ⟨c1, cs, w1, w, rfl, rfl, h1, h⟩ := fitsW_cons.mp h
  obtain ⟨c2, cs, w2, w, rfl, rfl, h2, h⟩ := fitsW_cons.mp h
  obtain ⟨c3, rfl, h3⟩ := fitsW_one.mp h
  rename' w => w3
  obtain ⟨u0, rfl, rfl, k0⟩ := shw_AT h0
  obtain ⟨x1, u1, rfl, rfl, k1⟩ := shw___ANON_2 h1
  obtain ⟨u2, rfl, rfl, k2⟩ := shw_LPAR h2
  obtain ⟨u3, rfl, rfl, k3⟩ := shw_RPAR h3
  exact ⟨⟨x1, .none⟩, rfl, .noArg (w1 := []) (w2 := []) k0 k1 k2 breaks_nil (by simp) k3 breaks_nil (by simp)⟩

theorem r_216 : RuleOK ⟨N.«decorator», [T.«AT», T.«__ANON_2», T.«LPAR», T.«RPAR», T.«_CPP_COMMENT_NL», T.«_CPP_COMMENT_NL», T.«_CPP_COMMENT_NL», T.«_CPP_COMMENT_NL»], "decorator", false, [(1, false, 0)], 0⟩ := by
  refine ruleOK_node ?_
  intro cs w n l h hc hl
  obtain ⟨c0, cs, w0, w, rfl, rfl, h0, h⟩ := fitsW_cons.mp h
  obtain ⟨c1, cs, w1, w, rfl, rfl, h1, h⟩ := fitsW_cons.mp h
  obtain ⟨c2, cs, w2, w, rfl, rfl, h2, h⟩ := fitsW_cons.mp h
  obtain ⟨c3, cs, w3, w, rfl, rfl, h3, h⟩ := fitsW_cons.mp h
  obtain ⟨c4, cs, w4, w, rfl, rfl, h4, h⟩ := fitsW_cons.mp h
  obtain ⟨c5, cs, w5, w, rfl, rfl, h5, h⟩ := fitsW_cons.mp h
  obtain ⟨c6, cs, w6, w, rfl, rfl, h6, h⟩ := fitsW_cons.mp h
  obtain ⟨c7, rfl, h7⟩ := fitsW_one.mp h
  rename' w => w7
  obtain ⟨u0, rfl, rfl, k0⟩ := shw_AT h0
  obtain ⟨x1, u1, rfl, rfl, k1⟩ := shw___ANON_2 h1
  obtain ⟨u2, rfl, rfl, k2⟩ := shw_LPAR h2
  obtain ⟨u3, rfl, rfl, k3⟩ := shw_RPAR h3
  obtain ⟨u4, rfl, k4⟩ := shw__CPP_COMMENT_NL h4
  obtain ⟨u5, rfl, k5⟩ := shw__CPP_COMMENT_NL h5
  obtain ⟨u6, rfl, k6⟩ := shw__CPP_COMMENT_NL h6
  obtain ⟨u7, rfl, k7⟩ := shw__CPP_COMMENT_NL h7
  exact ⟨⟨x1, .none⟩, rfl, .noArg (w1 := []) (w2 := [u4, u5, u6, u7]) k0 k1 k2 breaks_nil (by simp) k3 (breaks_cons k4 (breaks_cons k5 (breaks_cons k6 (breaks_cons k7 breaks_nil)))) (by simp)⟩

theorem r_220 : RuleOK ⟨N.«decorator», [T.«AT», T.«__ANON_2», T.«LPAR», T.«RPAR», T.«_CPP_COMMENT_NL», T.«_CPP_COMMENT_NL», T.«_CPP_COMMENT_NL», T.«_CPP_COMMENT_NL», T.«_CPP_COMMENT_NL», T.«_CPP_COMMENT_NL», T.«_CPP_COMMENT_NL», T.«_CPP_COMMENT_NL»], "decorator", false, [(1, false, 0)], 0⟩ := by
  refine ruleOK_node ?_
  intro cs w n l h hc hl
  obtain ⟨c0, cs, w0, w, rfl, rfl, h0, h⟩ := fitsW_cons.mp h
  obtain ⟨c1, cs, w1, w, rfl, rfl, h1, h⟩ := fitsW_cons.mp h
  obtain ⟨c2, cs, w2, w, rfl, rfl, h2, h⟩ := fitsW_cons.mp h
  obtain ⟨c3, cs, w3, w, rfl, rfl, h3, h⟩ := fitsW_cons.mp h
  obtain ⟨c4, cs, w4, w, rfl, rfl, h4, h⟩ := fitsW_cons.mp h
  obtain ⟨c5, cs, w5, w, rfl, rfl, h5, h⟩ := fitsW_cons.mp h
  obtain ⟨c6, cs, w6, w, rfl, rfl, h6, h⟩ := fitsW_cons.mp h
  obtain ⟨c7, cs, w7, w, rfl, rfl, h7, h⟩ := fitsW_cons.mp h
  obtain ⟨c8, cs, w8, w, rfl, rfl, h8, h⟩ := fitsW_cons.mp h
  obtain ⟨c9, cs, w9, w, rfl, rfl, h9, h⟩ := fitsW_cons.mp h
  obtain ⟨c10, cs, w10, w, rfl, rfl, h10, h⟩ := fitsW_cons.mp h
  obtain ⟨c11, rfl, h11⟩ := fitsW_one.mp h
  rename' w => w11
  obtain ⟨u0, rfl, rfl, k0⟩ := shw_AT h0
  obtain ⟨x1, u1, rfl, rfl, k1⟩ := shw___ANON_2 h1
  obtain ⟨u2, rfl, rfl, k2⟩ := shw_LPAR h2
  obtain ⟨u3, rfl, rfl, k3⟩ := shw_RPAR h3
  obtain ⟨u4, rfl, k4⟩ := shw__CPP_COMMENT_NL h4
  obtain ⟨u5, rfl, k5⟩ := shw__CPP_COMMENT_NL h5
  obtain ⟨u6, rfl, k6⟩ := shw__CPP_COMMENT_NL h6
  obtain ⟨u7, rfl, k7⟩ := shw__CPP_COMMENT_NL h7
  obtain ⟨u8, rfl, k8⟩ := shw__CPP_COMMENT_NL h8
  obtain ⟨u9, rfl, k9⟩ := shw__CPP_COMMENT_NL h9
  obtain ⟨u10, rfl, k10⟩ := shw__CPP_COMMENT_NL h10
  obtain ⟨u11, rfl, k11⟩ := shw__CPP_COMMENT_NL h11
  exact ⟨⟨x1, .none⟩, rfl, .noArg (w1 := []) (w2 := [u4, u5, u6, u7, u8, u9, u10, u11]) k0 k1 k2 breaks_nil (by simp) k3 (breaks_cons k4 (breaks_cons k5 (breaks_cons k6 (breaks_cons k7 (breaks_cons k8 (breaks_cons k9 (breaks_cons k10 (breaks_cons k11 breaks_nil)))))))) (by simp)⟩

theorem r_224 : RuleOK ⟨N.«function», [T.«FUNCTION», T.«_CPP_COMMENT_NL», N.«value_brackets», N.«__function_star_12», T.«_CPP_COMMENT_NL», T.«RPAR»], "function", false, [(0, false, 0), (2, false, 0), (3, true, 0)], 0⟩ := by
  refine ruleOK_node ?_
  intro cs w n l h hc hl
  obtain ⟨c0, cs, w0, w, rfl, rfl, h0, h⟩ := fitsW_cons.mp h
  obtain ⟨c1, cs, w1, w, rfl, rfl, h1, h⟩ := fitsW_cons.mp h
  obtain ⟨c2, cs, w2, w, rfl, rfl, h2, h⟩ := fitsW_cons.mp h
  obtain ⟨c3, cs, w3, w, rfl, rfl, h3, h⟩ := fitsW_cons.mp h
  obtain ⟨c4, cs, w4, w, rfl, rfl, h4, h⟩ := fitsW_cons.mp h
  obtain ⟨c5, rfl, h5⟩ := fitsW_one.mp h
  rename' w => w5
  obtain ⟨x0, u0, rfl, rfl, k0⟩ := shw_FUNCTION h0
  obtain ⟨u1, rfl, k1⟩ := shw__CPP_COMMENT_NL h1
  obtain ⟨x2, rfl, k2⟩ := h2
  obtain ⟨x3, q3, k3⟩ := h3
  obtain ⟨u4, rfl, k4⟩ := shw__CPP_COMMENT_NL h4
  obtain ⟨u5, rfl, rfl, k5⟩ := shw_RPAR h5
  exact ⟨x0, x2 :: x3, (by simp only [keepKids', List.flatMap_cons, List.flatMap_nil, List.replicate_zero, List.replicate_succ, List.getElem?_cons_zero, List.getElem?_cons_succ, Bool.false_eq_true, if_true, if_false, List.append_nil, List.nil_append, List.cons_append, List.append_assoc, w_kids_mkCore, q3, Expr.tree, Expr.trees] <;> rfl), .args (w1 := [u1]) (w2 := w2) (w3 := w3) (w4 := [u4]) k0 (optBreak_some k1) (by have := k2; simpa only [List.append_assoc, List.nil_append, List.append_nil, List.cons_append, nextT_append, nextT_cons, nextT_nil] using this) k3 (optBreak_some k4) k5⟩

theorem r_228 : RuleOK ⟨N.«function», [T.«FUNCTION», T.«_CPP_COMMENT_NL», N.«__function_star_12», T.«_CPP_COMMENT_NL», T.«RPAR»], "function", false, [(0, false, 0), (2, true, 0)], 0⟩ := by
  refine ruleOK_node ?_
  intro cs w n l h hc hl
  obtain ⟨c0, cs, w0, w, rfl, rfl, h0, h⟩ := fitsW_cons.mp h
  obtain ⟨c1, cs, w1, w, rfl, rfl, h1, h⟩ := fitsW_cons.mp h
  obtain ⟨c2, cs, w2, w, rfl, rfl, h2, h⟩ := fitsW_cons.mp h
  obtain ⟨c3, cs, w3, w, rfl, rfl, h3, h⟩ := fitsW_cons.mp h
  obtain ⟨c4, rfl, h4⟩ := fitsW_one.mp h
  rename' w => w4
  obtain ⟨x0, u0, rfl, rfl, k0⟩ := shw_FUNCTION h0
  obtain ⟨u1, rfl, k1⟩ := shw__CPP_COMMENT_NL h1
  obtain ⟨x2, q2, k2⟩ := h2
  obtain ⟨u3, rfl, k3⟩ := shw__CPP_COMMENT_NL h3
  obtain ⟨u4, rfl, rfl, k4⟩ := shw_RPAR h4
  exact ⟨x0, x2, (by simp only [keepKids', List.flatMap_cons, List.flatMap_nil, List.replicate_zero, List.replicate_succ, List.getElem?_cons_zero, List.getElem?_cons_succ, Bool.false_eq_true, if_true, if_false, List.append_nil, List.nil_append, List.cons_append, List.append_assoc, w_kids_mkCore, q2] <;> rfl), .noArg (w1 := [u1]) (w3 := w2) (w4 := [u3]) k0 (optBreak_some k1) k2 (optBreak_some k3) k4⟩

theorem r_232 : RuleOK ⟨N.«function», [T.«FUNCTION», N.«value_brackets», N.«__function_star_12», T.«_CPP_COMMENT_NL», T.«RPAR»], "function", false, [(0, false, 0), (1, false, 0), (2, true, 0)], 0⟩ := by
  refine ruleOK_node ?_
  intro cs w n l h hc hl
  obtain ⟨c0, cs, w0, w, rfl, rfl, h0, h⟩ := fitsW_cons.mp h
  obtain ⟨c1, cs, w1, w, rfl, rfl, h1, h⟩ := fitsW_cons.mp h
  obtain ⟨c2, cs, w2, w, rfl, rfl, h2, h⟩ := fitsW_cons.mp h
  obtain ⟨c3, cs, w3, w, rfl, rfl, h3, h⟩ := fitsW_cons.mp h
  obtain ⟨c4, rfl, h4⟩ := fitsW_one.mp h
  rename' w => w4
  obtain ⟨x0, u0, rfl, rfl, k0⟩ := shw_FUNCTION h0
  obtain ⟨x1, rfl, k1⟩ := h1
  obtain ⟨x2, q2, k2⟩ := h2
  obtain ⟨u3, rfl, k3⟩ := shw__CPP_COMMENT_NL h3
  obtain ⟨u4, rfl, rfl, k4⟩ := shw_RPAR h4
  exact ⟨x0, x1 :: x2, (by simp only [keepKids', List.flatMap_cons, List.flatMap_nil, List.replicate_zero, List.replicate_succ, List.getElem?_cons_zero, List.getElem?_cons_succ, Bool.false_eq_true, if_true, if_false, List.append_nil, List.nil_append, List.cons_append, List.append_assoc, w_kids_mkCore, q2, Expr.tree, Expr.trees] <;> rfl), .args (w1 := []) (w2 := w1) (w3 := w2) (w4 := [u3]) k0 optBreak_none (by have := k1; simpa only [List.append_assoc, List.nil_append, List.append_nil, List.cons_append, nextT_append, nextT_cons, nextT_nil] using this) k2 (optBreak_some k3) k4⟩

theorem r_236 : RuleOK ⟨N.«function», [T.«FUNCTION», N.«__function_star_12», T.«_CPP_COMMENT_NL», T.«RPAR»], "function", false, [(0, false, 0), (1, true, 0)], 0⟩ := by
  refine ruleOK_node ?_
  intro cs w n l h hc hl
  obtain ⟨c0, cs, w0, w, rfl, rfl, h0, h⟩ := fitsW_cons.mp h
  obtain ⟨c1, cs, w1, w, rfl, rfl, h1, h⟩ := fitsW_cons.mp h
  obtain ⟨c2, cs, w2, w, rfl, rfl, h2, h⟩ := fitsW_cons.mp h
  obtain ⟨c3, rfl, h3⟩ := fitsW_one.mp h
  rename' w => w3
  obtain ⟨x0, u0, rfl, rfl, k0⟩ := shw_FUNCTION h0
  obtain ⟨x1, q1, k1⟩ := h1
  obtain ⟨u2, rfl, k2⟩ := shw__CPP_COMMENT_NL h2
  obtain ⟨u3, rfl, rfl, k3⟩ := shw_RPAR h3
  exact ⟨x0, x1, (by simp only [keepKids', List.flatMap_cons, List.flatMap_nil, List.replicate_zero, List.replicate_succ, List.getElem?_cons_zero, List.getElem?_cons_succ, Bool.false_eq_true, if_true, if_false, List.append_nil, List.nil_append, List.cons_append, List.append_assoc, w_kids_mkCore, q1] <;> rfl), .noArg (w1 := []) (w3 := w1) (w4 := [u2]) k0 optBreak_none k1 (optBreak_some k2) k3⟩

theorem r_240 : RuleOK ⟨N.«operator», [N.«operator_logical»], "operator", false, [(0, false, 0)], 0⟩ := by
  refine ruleOK_node ?_
  intro cs w n l h hc hl
  obtain ⟨c0, rfl, h0⟩ := fitsW_one.mp h
  rename' w => w0
  obtain ⟨x0, q0, k0⟩ := h0
  exact ⟨x0, q0, k0⟩

theorem r_244 : RuleOK ⟨N.«operator_comparison», [N.«greater_than»], "operator_comparison", true, [(0, false, 0)], 0⟩ := by
  refine ruleOK_ex ?_
  intro cs w n h hc
  obtain ⟨c0, rfl, h0⟩ := fitsW_one.mp h
  rename' w => w0
  obtain ⟨x0, q0, k0⟩ := h0
  exact ⟨_, rfl, w_op_nometa q0, x0, q0, k0⟩

theorem r_248 : RuleOK ⟨N.«operator_comparison», [N.«not_equals»], "operator_comparison", true, [(0, false, 0)], 0⟩ := by
  refine ruleOK_ex ?_
  intro cs w n h hc
  obtain ⟨c0, rfl, h0⟩ := fitsW_one.mp h
  rename' w => w0
  obtain ⟨x0, q0, k0⟩ := h0
  exact ⟨_, rfl, w_op_nometa q0, x0, q0, k0⟩

theorem r_252 : RuleOK ⟨N.«greater_than», [N.«value_brackets», T.«MORETHAN», N.«value_brackets»], "greater_than", false, [(0, false, 0), (2, false, 0)], 0⟩ := by
  refine ruleOK_node ?_
  intro cs w n l h hc hl
  obtain ⟨c0, cs, w0, w, rfl, rfl, h0, h⟩ := fitsW_cons.mp h
  obtain ⟨c1, cs, w1, w, rfl, rfl, h1, h⟩ := fitsW_cons.mp h
  obtain ⟨c2, rfl, h2⟩ := fitsW_one.mp h
  rename' w => w2
  obtain ⟨x0, rfl, k0⟩ := h0
  obtain ⟨u1, rfl, rfl, k1⟩ := shw_MORETHAN h1
  obtain ⟨x2, rfl, k2⟩ := h2
  exact ⟨.bin .gt x0 x2, rfl, .bin rfl k0 k1 k2 (hc.noInfix rfl)⟩

theorem r_256 : RuleOK ⟨N.«not_equals», [N.«value_brackets», T.«__ANON_6», N.«value_brackets»], "not_equals", false, [(0, false, 0), (2, false, 0)], 0⟩ := by
  refine ruleOK_node ?_
  intro cs w n l h hc hl
  obtain ⟨c0, cs, w0, w, rfl, rfl, h0, h⟩ := fitsW_cons.mp h
  obtain ⟨c1, cs, w1, w, rfl, rfl, h1, h⟩ := fitsW_cons.mp h
  obtain ⟨c2, rfl, h2⟩ := fitsW_one.mp h
  rename' w => w2
  obtain ⟨x0, rfl, k0⟩ := h0
  obtain ⟨u1, rfl, rfl, k1⟩ := shw___ANON_6 h1
  obtain ⟨x2, rfl, k2⟩ := h2
  exact ⟨.bin .ne x0 x2, rfl, .bin rfl k0 k1 k2 (hc.noInfix rfl)⟩

theorem r_260 : RuleOK ⟨N.«operator_logical», [N.«or_op»], "operator_logical", true, [(0, false, 0)], 0⟩ := by
  refine ruleOK_ex ?_
  intro cs w n h hc
  obtain ⟨c0, rfl, h0⟩ := fitsW_one.mp h
  rename' w => w0
  obtain ⟨x0, q0, k0⟩ := h0
  exact ⟨_, rfl, w_op_nometa q0, x0, q0, k0⟩

theorem r_264 : RuleOK ⟨N.«and_op», [N.«value_brackets», T.«__ANON_9», N.«value_brackets»], "and_op", false, [(0, false, 0), (2, false, 0)], 0⟩ := by
  refine ruleOK_node ?_
  intro cs w n l h hc hl
  obtain ⟨c0, cs, w0, w, rfl, rfl, h0, h⟩ := fitsW_cons.mp h
  obtain ⟨c1, cs, w1, w, rfl, rfl, h1, h⟩ := fitsW_cons.mp h
  obtain ⟨c2, rfl, h2⟩ := fitsW_one.mp h
  rename' w => w2
  obtain ⟨x0, rfl, k0⟩ := h0
  obtain ⟨u1, rfl, rfl, k1⟩ := shw___ANON_9 h1
  obtain ⟨x2, rfl, k2⟩ := h2
  exact ⟨.bin .and x0 x2, rfl, .bin rfl k0 k1 k2 (hc.noInfix rfl)⟩

theorem r_268 : RuleOK ⟨N.«conditional», [N.«value_brackets», T.«QMARK», N.«value_brackets», T.«COLON», N.«value_brackets»], "conditional", false, [(0, false, 0), (2, false, 0), (4, false, 0)], 0⟩ := by
  refine ruleOK_node ?_
  intro cs w n l h hc hl
  obtain ⟨c0, cs, w0, w, rfl, rfl, h0, h⟩ := fitsW_cons.mp h
  obtain ⟨c1, cs, w1, w, rfl, rfl, h1, h⟩ := fitsW_cons.mp h
  obtain ⟨c2, cs, w2, w, rfl, rfl, h2, h⟩ := fitsW_cons.mp h
  obtain ⟨c3, cs, w3, w, rfl, rfl, h3, h⟩ := fitsW_cons.mp h
  obtain ⟨c4, rfl, h4⟩ := fitsW_one.mp h
  rename' w => w4
  obtain ⟨x0, rfl, k0⟩ := h0
  obtain ⟨u1, rfl, rfl, k1⟩ := shw_QMARK h1
  obtain ⟨x2, rfl, k2⟩ := h2
  obtain ⟨u3, rfl, rfl, k3⟩ := shw_COLON h3
  obtain ⟨x4, rfl, k4⟩ := h4
  exact ⟨.cond x0 x2 x4, rfl, .cond k0 k1 k2 k3 k4 (hc.noInfix rfl)⟩

theorem r_272 : RuleOK ⟨N.«operator_numeric», [N.«modulo»], "operator_numeric", true, [(0, false, 0)], 0⟩ := by
  refine ruleOK_ex ?_
  intro cs w n h hc
  obtain ⟨c0, rfl, h0⟩ := fitsW_one.mp h
  rename' w => w0
  obtain ⟨x0, q0, k0⟩ := h0
  exact ⟨_, rfl, w_op_nometa q0, x0, q0, k0⟩

theorem r_276 : RuleOK ⟨N.«divide», [N.«value_brackets», T.«SLASH», N.«value_brackets»], "divide", false, [(0, false, 0), (2, false, 0)], 0⟩ := by
  refine ruleOK_node ?_
  intro cs w n l h hc hl
  obtain ⟨c0, cs, w0, w, rfl, rfl, h0, h⟩ := fitsW_cons.mp h
  obtain ⟨c1, cs, w1, w, rfl, rfl, h1, h⟩ := fitsW_cons.mp h
  obtain ⟨c2, rfl, h2⟩ := fitsW_one.mp h
  rename' w => w2
  obtain ⟨x0, rfl, k0⟩ := h0
  obtain ⟨u1, rfl, rfl, k1⟩ := shw_SLASH h1
  obtain ⟨x2, rfl, k2⟩ := h2
  exact ⟨.bin .div x0 x2, rfl, .bin rfl k0 k1 k2 (hc.noInfix rfl)⟩

theorem r_280 : RuleOK ⟨N.«substract», [N.«value_brackets», T.«MINUS», N.«value_brackets»], "substract", false, [(0, false, 0), (2, false, 0)], 0⟩ := by
  refine ruleOK_node ?_
  intro cs w n l h hc hl
  obtain ⟨c0, cs, w0, w, rfl, rfl, h0, h⟩ := fitsW_cons.mp h
  obtain ⟨c1, cs, w1, w, rfl, rfl, h1, h⟩ := fitsW_cons.mp h
  obtain ⟨c2, rfl, h2⟩ := fitsW_one.mp h
  rename' w => w2
  obtain ⟨x0, rfl, k0⟩ := h0
  obtain ⟨u1, rfl, rfl, k1⟩ := shw_MINUS h1
  obtain ⟨x2, rfl, k2⟩ := h2
  exact ⟨.bin .sub x0 x2, rfl, .bin rfl k0 k1 k2 (hc.noInfix rfl)⟩

theorem r_284 : RuleOK ⟨N.«operator_accessor», [N.«property_accessor»], "operator_accessor", true, [(0, false, 0)], 0⟩ := by
  refine ruleOK_ex ?_
  intro cs w n h hc
  obtain ⟨c0, rfl, h0⟩ := fitsW_one.mp h
  rename' w => w0
  obtain ⟨x0, q0, k0⟩ := h0
  exact ⟨_, rfl, w_op_nometa q0, x0, q0, k0⟩

theorem r_288 : RuleOK ⟨N.«function_accessor», [N.«value_brackets», T.«DOT», T.«LIST_FUNC_NAME», T.«LPAR», N.«__function_accessor_plus_13», T.«RPAR»], "function_accessor", false, [(0, false, 0), (2, false, 0), (4, true, 0)], 0⟩ := by
  refine ruleOK_node ?_
  intro cs w n l h hc hl
  obtain ⟨c0, cs, w0, w, rfl, rfl, h0, h⟩ := fitsW_cons.mp h
  obtain ⟨c1, cs, w1, w, rfl, rfl, h1, h⟩ := fitsW_cons.mp h
  obtain ⟨c2, cs, w2, w, rfl, rfl, h2, h⟩ := fitsW_cons.mp h
  obtain ⟨c3, cs, w3, w, rfl, rfl, h3, h⟩ := fitsW_cons.mp h
  obtain ⟨c4, cs, w4, w, rfl, rfl, h4, h⟩ := fitsW_cons.mp h
  obtain ⟨c5, rfl, h5⟩ := fitsW_one.mp h
  rename' w => w5
  obtain ⟨x0, rfl, k0⟩ := h0
  obtain ⟨u1, rfl, rfl, k1⟩ := shw_DOT h1
  obtain ⟨x2, u2, rfl, rfl, k2⟩ := shw_LIST_FUNC_NAME h2
  obtain ⟨u3, rfl, rfl, k3⟩ := shw_LPAR h3
  obtain ⟨u5, rfl, rfl, k5⟩ := shw_RPAR h5
  · rcases h4 with ⟨q, rfl, _⟩ | ⟨es, e, q, k⟩
    · exact ⟨.method x0 x2 [.none], (by simp only [keepKids', List.flatMap_cons, List.flatMap_nil, List.replicate_zero, List.replicate_succ, List.getElem?_cons_zero, List.getElem?_cons_succ, Bool.false_eq_true, if_true, if_false, List.append_nil, List.nil_append, List.cons_append, List.append_assoc, w_kids_mkCore, q] <;> rfl), .method (w2 := []) k0 k1 k2 k3 .empty k5⟩
    · exact ⟨.method x0 x2 ((es ++ [e]).map some), (by simp only [keepKids', List.flatMap_cons, List.flatMap_nil, List.replicate_zero, List.replicate_succ, List.getElem?_cons_zero, List.getElem?_cons_succ, Bool.false_eq_true, if_true, if_false, List.append_nil, List.nil_append, List.cons_append, List.append_assoc, w_kids_mkCore, q] <;> rfl), .method k0 k1 k2 k3 (.lead k) k5⟩

theorem r_292 : RuleOK ⟨N.«__start_star_0», [N.«element», T.«_CPP_COMMENT_NL»], "__start_star_0", false, [(0, false, 0)], 0⟩ := by
  refine ruleOK_node ?_
  intro cs w n l h hc hl
  obtain ⟨c0, cs, w0, w, rfl, rfl, h0, h⟩ := fitsW_cons.mp h
  obtain ⟨c1, rfl, h1⟩ := fitsW_one.mp h
  rename' w => w1
  obtain ⟨l0, x0, rfl, k0, m0⟩ := h0
  obtain ⟨u1, rfl, k1⟩ := shw__CPP_COMMENT_NL h1
  exact ⟨[] ++ [(l0, x0)], (by simp only [keepKids', List.flatMap_cons, List.flatMap_nil, List.replicate_zero, List.replicate_succ, List.getElem?_cons_zero, List.getElem?_cons_succ, Bool.false_eq_true, if_true, if_false, List.append_nil, List.nil_append, List.cons_append, List.append_assoc, w_kids_mkCore, List.map_append] <;> rfl), ProgSyn.nl (n := n) (p := [] ++ [(l0, x0)]) (ProgSyn.decl (p := []) (w1 := []) .nil k0 m0) k1⟩

theorem r_296 : RuleOK ⟨N.«__start_star_0», [N.«__start_star_0», N.«element»], "__start_star_0", false, [(0, true, 0), (1, false, 0)], 0⟩ := by
  refine ruleOK_node ?_
  intro cs w n l h hc hl
  obtain ⟨c0, cs, w0, w, rfl, rfl, h0, h⟩ := fitsW_cons.mp h
  obtain ⟨c1, rfl, h1⟩ := fitsW_one.mp h
  rename' w => w1
  obtain ⟨x0, q0, k0⟩ := h0
  obtain ⟨l1, x1, rfl, k1, m1⟩ := h1
  exact ⟨x0 ++ [(l1, x1)], (by simp only [keepKids', List.flatMap_cons, List.flatMap_nil, List.replicate_zero, List.replicate_succ, List.getElem?_cons_zero, List.getElem?_cons_succ, Bool.false_eq_true, if_true, if_false, List.append_nil, List.nil_append, List.cons_append, List.append_assoc, w_kids_mkCore, q0, List.map_append] <;> rfl), ProgSyn.decl (p := x0) (w1 := w0) (by have := k0; simpa only [List.append_assoc, List.nil_append, List.append_nil, List.cons_append, nextT_append, nextT_cons, nextT_nil] using this) k1 m1⟩

theorem r_300 : RuleOK ⟨N.«___func_statement_star_2», [T.«COMMA», T.«STRING», N.«data_type»], "___func_statement_star_2", false, [(1, false, 0), (2, false, 0)], 0⟩ := by
  refine ruleOK_node ?_
  intro cs w n l h hc hl
  obtain ⟨c0, cs, w0, w, rfl, rfl, h0, h⟩ := fitsW_cons.mp h
  obtain ⟨c1, cs, w1, w, rfl, rfl, h1, h⟩ := fitsW_cons.mp h
  obtain ⟨c2, rfl, h2⟩ := fitsW_one.mp h
  rename' w => w2
  obtain ⟨u0, rfl, rfl, k0⟩ := shw_COMMA h0
  obtain ⟨x1, u1, rfl, rfl, k1⟩ := shw_STRING h1
  obtain ⟨x2, rfl, k2⟩ := h2
  exact ⟨[(x1, x2)], rfl, .snoc (ps := []) (w1 := []) .nil k0 k1 k2⟩

theorem r_304 : RuleOK ⟨N.«__type_value_star_4», [T.«VBAR», N.«value_brackets»], "__type_value_star_4", false, [(1, false, 0)], 0⟩ := by
  refine ruleOK_node ?_
  intro cs w n l h hc hl
  obtain ⟨c0, cs, w0, w, rfl, rfl, h0, h⟩ := fitsW_cons.mp h
  obtain ⟨c1, rfl, h1⟩ := fitsW_one.mp h
  rename' w => w1
  obtain ⟨u0, rfl, rfl, k0⟩ := shw_VBAR h0
  obtain ⟨x1, rfl, k1⟩ := h1
  exact ⟨x1, [], rfl, .snoc (es := []) (w1 := []) .nil k0 k1 (hc.noInfix rfl), (hc.noInfix rfl)⟩

theorem r_308 : RuleOK ⟨N.«__union_type_plus_6», [T.«VBAR», N.«data_type»], "__union_type_plus_6", false, [(1, false, 0)], 0⟩ := by
  refine ruleOK_node ?_
  intro cs w n l h hc hl
  obtain ⟨c0, cs, w0, w, rfl, rfl, h0, h⟩ := fitsW_cons.mp h
  obtain ⟨c1, rfl, h1⟩ := fitsW_one.mp h
  rename' w => w1
  obtain ⟨u0, rfl, rfl, k0⟩ := shw_VBAR h0
  obtain ⟨x1, rfl, k1⟩ := h1
  exact ⟨x1, [], rfl, .snoc (ds := []) (w1 := []) .nil k0 k1⟩

theorem r_312 : RuleOK ⟨N.«__array_star_8», [N.«value_brackets», N.«__array_star_7», N.«__child_resource_plus_3»], "__array_star_8", false, [(0, false, 0), (1, true, 0), (2, true, 0)], 0⟩ := by
  refine ruleOK_node ?_
  intro cs w n l h hc hl
  obtain ⟨c0, cs, w0, w, rfl, rfl, h0, h⟩ := fitsW_cons.mp h
  obtain ⟨c1, cs, w1, w, rfl, rfl, h1, h⟩ := fitsW_cons.mp h
  obtain ⟨c2, rfl, h2⟩ := fitsW_one.mp h
  rename' w => w2
  obtain ⟨x0, rfl, k0⟩ := h0
  obtain ⟨x1, y1, q1, k1, m1⟩ := h1
  obtain ⟨q2, k2, m2⟩ := h2
  exact ⟨[] ++ x0 :: (x1 :: y1), (by simp only [keepKids', List.flatMap_cons, List.flatMap_nil, List.replicate_zero, List.replicate_succ, List.getElem?_cons_zero, List.getElem?_cons_succ, Bool.false_eq_true, if_true, if_false, List.append_nil, List.nil_append, List.cons_append, List.append_assoc, w_kids_mkCore, q1, q2, w_exprs_append, Expr.trees] <;> rfl), (by have := Elems.snoc (es := []) (w1 := []) (w2 := w0) (w3 := w1) (w4 := w2) (es' := (x1 :: y1)) (n := n) .nil (by have := k0; simpa only [List.append_assoc, List.nil_append, List.append_nil, List.cons_append, nextT_append, nextT_cons, nextT_nil] using this) k1 k2 (noInfix_breaks k2 m2); simpa only [List.append_assoc, List.nil_append, List.append_nil, List.cons_append, nextT_append, nextT_cons, nextT_nil] using this)⟩

theorem r_316 : RuleOK ⟨N.«__array_star_8», [N.«__array_star_8», N.«value_brackets», N.«__array_star_7», N.«__child_resource_plus_3»], "__array_star_8", false, [(0, true, 0), (1, false, 0), (2, true, 0), (3, true, 0)], 0⟩ := by
  refine ruleOK_node ?_
  intro cs w n l h hc hl
  obtain ⟨c0, cs, w0, w, rfl, rfl, h0, h⟩ := fitsW_cons.mp h
  obtain ⟨c1, cs, w1, w, rfl, rfl, h1, h⟩ := fitsW_cons.mp h
  obtain ⟨c2, cs, w2, w, rfl, rfl, h2, h⟩ := fitsW_cons.mp h
  obtain ⟨c3, rfl, h3⟩ := fitsW_one.mp h
  rename' w => w3
  obtain ⟨x0, q0, k0⟩ := h0
  obtain ⟨x1, rfl, k1⟩ := h1
  obtain ⟨x2, y2, q2, k2, m2⟩ := h2
  obtain ⟨q3, k3, m3⟩ := h3
  exact ⟨x0 ++ x1 :: (x2 :: y2), (by simp only [keepKids', List.flatMap_cons, List.flatMap_nil, List.replicate_zero, List.replicate_succ, List.getElem?_cons_zero, List.getElem?_cons_succ, Bool.false_eq_true, if_true, if_false, List.append_nil, List.nil_append, List.cons_append, List.append_assoc, w_kids_mkCore, q0, q2, q3, w_exprs_append, Expr.trees] <;> rfl), (by have := Elems.snoc (es := x0) (w1 := w0) (w2 := w1) (w3 := w2) (w4 := w3) (es' := (x2 :: y2)) (n := n) (by have := k0; simpa only [List.append_assoc, List.nil_append, List.append_nil, List.cons_append, nextT_append, nextT_cons, nextT_nil] using this) (by have := k1; simpa only [List.append_assoc, List.nil_append, List.append_nil, List.cons_append, nextT_append, nextT_cons, nextT_nil] using this) k2 k3 (noInfix_breaks k3 m3); simpa only [List.append_assoc, List.nil_append, List.append_nil, List.cons_append, nextT_append, nextT_cons, nextT_nil] using this)⟩

theorem r_320 : RuleOK ⟨N.«__object_star_9», [T.«COMMA», N.«pair»], "__object_star_9", false, [(1, false, 0)], 0⟩ := by
  refine ruleOK_node ?_
  intro cs w n l h hc hl
  obtain ⟨c0, cs, w0, w, rfl, rfl, h0, h⟩ := fitsW_cons.mp h
  obtain ⟨c1, rfl, h1⟩ := fitsW_one.mp h
  rename' w => w1
  obtain ⟨u0, rfl, rfl, k0⟩ := shw_COMMA h0
  obtain ⟨x1, rfl, k1⟩ := h1
  exact ⟨[x1], rfl, .snoc (is := []) (w1 := []) .nil k0 k1⟩

theorem r_324 : RuleOK ⟨N.«__object_star_10», [N.«pair», N.«__child_resource_plus_3»], "__object_star_10", false, [(0, false, 0), (1, true, 0)], 0⟩ := by
  refine ruleOK_node ?_
  intro cs w n l h hc hl
  obtain ⟨c0, cs, w0, w, rfl, rfl, h0, h⟩ := fitsW_cons.mp h
  obtain ⟨c1, rfl, h1⟩ := fitsW_one.mp h
  rename' w => w1
  obtain ⟨x0, rfl, k0⟩ := h0
  obtain ⟨q1, k1, m1⟩ := h1
  exact ⟨[] ++ x0 :: [], (by simp only [keepKids', List.flatMap_cons, List.flatMap_nil, List.replicate_zero, List.replicate_succ, List.getElem?_cons_zero, List.getElem?_cons_succ, Bool.false_eq_true, if_true, if_false, List.append_nil, List.nil_append, List.cons_append, List.append_assoc, w_kids_mkCore, q1, w_items_append, Item.trees] <;> rfl), (by have := Items.pairs (is := []) (w1 := []) (w2 := w0) (w3 := []) (w4 := w1) (is' := []) (n := n) .nil (by have := k0; simpa only [List.append_assoc, List.nil_append, List.append_nil, List.cons_append, nextT_append, nextT_cons, nextT_nil] using this) .nil k1; simpa only [List.append_assoc, List.nil_append, List.append_nil, List.cons_append, nextT_append, nextT_cons, nextT_nil] using this)⟩

theorem r_328 : RuleOK ⟨N.«__object_star_10», [N.«__object_star_10», N.«pair», N.«__object_star_9», N.«__child_resource_plus_3»], "__object_star_10", false, [(0, true, 0), (1, false, 0), (2, true, 0), (3, true, 0)], 0⟩ := by
  refine ruleOK_node ?_
  intro cs w n l h hc hl
  obtain ⟨c0, cs, w0, w, rfl, rfl, h0, h⟩ := fitsW_cons.mp h
  obtain ⟨c1, cs, w1, w, rfl, rfl, h1, h⟩ := fitsW_cons.mp h
  obtain ⟨c2, cs, w2, w, rfl, rfl, h2, h⟩ := fitsW_cons.mp h
  obtain ⟨c3, rfl, h3⟩ := fitsW_one.mp h
  rename' w => w3
  obtain ⟨x0, q0, k0⟩ := h0
  obtain ⟨x1, rfl, k1⟩ := h1
  obtain ⟨x2, q2, k2⟩ := h2
  obtain ⟨q3, k3, m3⟩ := h3
  exact ⟨x0 ++ x1 :: x2, (by simp only [keepKids', List.flatMap_cons, List.flatMap_nil, List.replicate_zero, List.replicate_succ, List.getElem?_cons_zero, List.getElem?_cons_succ, Bool.false_eq_true, if_true, if_false, List.append_nil, List.nil_append, List.cons_append, List.append_assoc, w_kids_mkCore, q0, q2, q3, w_items_append, Item.trees] <;> rfl), (by have := Items.pairs (is := x0) (w1 := w0) (w2 := w1) (w3 := w2) (w4 := w3) (is' := x2) (n := n) (by have := k0; simpa only [List.append_assoc, List.nil_append, List.append_nil, List.cons_append, nextT_append, nextT_cons, nextT_nil] using this) (by have := k1; simpa only [List.append_assoc, List.nil_append, List.append_nil, List.cons_append, nextT_append, nextT_cons, nextT_nil] using this) k2 k3; simpa only [List.append_assoc, List.nil_append, List.append_nil, List.cons_append, nextT_append, nextT_cons, nextT_nil] using this)⟩

theorem r_332 : RuleOK ⟨N.«__object_star_10», [N.«__object_star_10», N.«child_resource», N.«__child_resource_plus_3»], "__object_star_10", false, [(0, true, 0), (1, false, 0), (2, true, 0)], 0⟩ := by
  refine ruleOK_node ?_
  intro cs w n l h hc hl
  obtain ⟨c0, cs, w0, w, rfl, rfl, h0, h⟩ := fitsW_cons.mp h
  obtain ⟨c1, cs, w1, w, rfl, rfl, h1, h⟩ := fitsW_cons.mp h
  obtain ⟨c2, rfl, h2⟩ := fitsW_one.mp h
  rename' w => w2
  obtain ⟨x0, q0, k0⟩ := h0
  obtain ⟨x1, rfl, k1⟩ := h1
  obtain ⟨q2, k2, m2⟩ := h2
  exact ⟨x0 ++ [x1], (by simp only [keepKids', List.flatMap_cons, List.flatMap_nil, List.replicate_zero, List.replicate_succ, List.getElem?_cons_zero, List.getElem?_cons_succ, Bool.false_eq_true, if_true, if_false, List.append_nil, List.nil_append, List.cons_append, List.append_assoc, w_kids_mkCore, q0, q2, w_items_append, Item.trees] <;> rfl), (by have := Items.child (is := x0) (w1 := w0) (w2 := w1) (w3 := w2) (n := n) (by have := k0; simpa only [List.append_assoc, List.nil_append, List.append_nil, List.cons_append, nextT_append, nextT_cons, nextT_nil] using this) (by have := k1; simpa only [List.append_assoc, List.nil_append, List.append_nil, List.cons_append, nextT_append, nextT_cons, nextT_nil] using this) k2; simpa only [List.append_assoc, List.nil_append, List.append_nil, List.cons_append, nextT_append, nextT_cons, nextT_nil] using this)⟩

theorem r_336 : RuleOK ⟨N.«__function_star_12», [T.«COMMA», T.«_CPP_COMMENT_NL», N.«value_brackets»], "__function_star_12", false, [(2, false, 0)], 0⟩ := by
  refine ruleOK_node ?_
  intro cs w n l h hc hl
  obtain ⟨c0, cs, w0, w, rfl, rfl, h0, h⟩ := fitsW_cons.mp h
  obtain ⟨c1, cs, w1, w, rfl, rfl, h1, h⟩ := fitsW_cons.mp h
  obtain ⟨c2, rfl, h2⟩ := fitsW_one.mp h
  rename' w => w2
  obtain ⟨u0, rfl, rfl, k0⟩ := shw_COMMA h0
  obtain ⟨u1, rfl, k1⟩ := shw__CPP_COMMENT_NL h1
  obtain ⟨x2, rfl, k2⟩ := h2
  exact ⟨[] ++ [x2], (by simp only [keepKids', List.flatMap_cons, List.flatMap_nil, List.replicate_zero, List.replicate_succ, List.getElem?_cons_zero, List.getElem?_cons_succ, Bool.false_eq_true, if_true, if_false, List.append_nil, List.nil_append, List.cons_append, List.append_assoc, w_kids_mkCore, w_exprs_append] <;> rfl), .snoc (es := []) (w1 := []) (w2 := [u1]) .nil k0 (optBreak_some k1) k2 (hc.noInfix rfl)⟩

theorem r_340 : RuleOK ⟨N.«__function_accessor_plus_13», [T.«COMMA», N.«value_brackets»], "__function_accessor_plus_13", false, [(1, false, 0)], 0⟩ := by
  refine ruleOK_node ?_
  intro cs w n l h hc hl
  obtain ⟨c0, cs, w0, w, rfl, rfl, h0, h⟩ := fitsW_cons.mp h
  obtain ⟨c1, rfl, h1⟩ := fitsW_one.mp h
  rename' w => w1
  obtain ⟨u0, rfl, rfl, k0⟩ := shw_COMMA h0
  obtain ⟨x1, rfl, k1⟩ := h1
  exact .inr ⟨[], x1, rfl, .snoc (es := []) (w1 := []) .nil k0 k1 (hc.noInfix rfl)⟩

/-- the rules of this file -/
def list0 : List Rule := [
  ⟨N.«start», [N.«__start_star_0»], "start", false, [(0, true, 0)], 0⟩,
  ⟨N.«element», [T.«EXTENSION», T.«STRING», T.«WITH», N.«object», T.«AS», T.«STRING»], "extension", false, [(1, false, 0), (3, false, 0), (5, false, 0)], 0⟩,
  ⟨N.«element», [T.«METADATA», T.«STRING», T.«EQUAL», N.«metadata_value»], "metadata", false, [(1, false, 0), (3, false, 0)], 0⟩,
  ⟨N.«element», [N.«decorators», T.«PARAM», T.«STRING», N.«data_type»], "param", false, [(0, false, 0), (2, false, 0), (3, false, 0)], 1⟩,
  ⟨N.«element», [T.«PARAM», T.«STRING», N.«data_type»], "param", false, [(1, false, 1), (2, false, 0)], 1⟩,
  ⟨N.«element», [T.«VAR», T.«STRING», N.«data_type», T.«QMARK», T.«EQUAL», N.«var_value»], "var", false, [(1, false, 1), (2, false, 0), (5, false, 0)], 0⟩,
  ⟨N.«element», [N.«decorators», T.«OUTPUT», T.«STRING», N.«data_type», T.«EQUAL», N.«output_value»], "output", false, [(0, false, 0), (2, false, 0), (3, false, 0), (5, false, 0)], 0⟩,
  ⟨N.«element», [N.«decorators», T.«RESOURCE», T.«STRING», N.«type_api_pair», T.«EQUAL», N.«resource_value»], "resource", false, [(0, false, 0), (2, false, 0), (3, false, 0), (5, false, 1)], 0⟩,
  ⟨N.«element», [T.«MODULE», T.«STRING», N.«module_path», T.«EQUAL», N.«module_value»], "module", false, [(1, false, 1), (2, false, 0), (4, false, 0)], 0⟩,
  ⟨N.«element», [T.«FUNC», N.«_func_statement»], "custom_func", false, [(1, true, 1)], 0⟩,
  ⟨N.«value», [T.«TRUE»], "true", false, [], 0⟩,
  ⟨N.«value», [T.«INT»], "int_type", false, [(0, false, 0)], 0⟩,
  ⟨N.«value», [T.«QUOTED_INTERPOLATION»], "string", false, [(0, false, 0)], 0⟩,
  ⟨N.«value», [T.«_NEWLINE», N.«function»], "value", true, [(1, false, 0)], 0⟩,
  ⟨N.«value_brackets», [N.«value», T.«BANG»], "value_brackets", true, [(0, false, 0)], 0⟩,
  ⟨N.«_import_statement», [T.«LBRACE», N.«import_alias», N.«___import_statement_star_1», T.«RBRACE», T.«FROM», T.«QUOTED_INTERPOLATION»], "_import_statement", false, [(1, false, 0), (2, true, 0), (5, false, 0)], 0⟩,
  ⟨N.«_func_statement», [T.«STRING», T.«LPAR», T.«STRING», N.«data_type», N.«___func_statement_star_2», T.«RPAR», N.«data_type», T.«__ANON_0», N.«value_brackets»], "_func_statement", false, [(0, false, 0), (2, false, 0), (3, false, 0), (4, true, 0), (6, false, 0), (8, false, 0)], 0⟩,
  ⟨N.«var_value», [N.«loop»], "var_value", true, [(0, false, 0)], 0⟩,
  ⟨N.«resource_value», [N.«object»], "resource_value", true, [(0, false, 0)], 0⟩,
  ⟨N.«module_value», [N.«loop»], "module_value", true, [(0, false, 0)], 0⟩,
  ⟨N.«child_resource», [T.«RESOURCE», T.«STRING», T.«QUOTED_INTERPOLATION», T.«EXISTING», T.«EQUAL», N.«deploy_condition», N.«__child_resource_plus_3»], "child_resource", false, [(1, false, 0), (2, false, 0), (3, false, 0), (5, false, 0), (6, true, 0)], 0⟩,
  ⟨N.«type_value», [N.«value_brackets», N.«__type_value_star_4»], "type_value", true, [(0, false, 0), (1, true, 0)], 0⟩,
  ⟨N.«base_type», [T.«STRING»], "base_type", false, [(0, false, 0)], 0⟩,
  ⟨N.«type_api_pair», [T.«QUOTED_INTERPOLATION»], "type_api_pair", false, [(0, false, 0)], 0⟩,
  ⟨N.«import_alias», [T.«__ANON_1», T.«AS», T.«STRING»], "import_alias", false, [(0, false, 0), (2, false, 0)], 0⟩,
  ⟨N.«loop», [T.«LSQB», T.«_CPP_COMMENT_NL», T.«FOR», N.«loop_array», T.«COLON», N.«value_brackets», T.«_CPP_COMMENT_NL», T.«RSQB»], "loop", false, [(3, false, 0), (5, false, 1)], 0⟩,
  ⟨N.«loop», [T.«LSQB», T.«_CPP_COMMENT_NL», T.«FOR», N.«loop_array_index», T.«COLON», N.«value_brackets», T.«_CPP_COMMENT_NL», T.«RSQB»], "loop", false, [(3, false, 0), (5, false, 1)], 0⟩,
  ⟨N.«loop», [T.«LSQB», T.«_CPP_COMMENT_NL», T.«FOR», N.«loop_object», T.«COLON», N.«value_brackets», T.«_CPP_COMMENT_NL», T.«RSQB»], "loop", false, [(3, false, 0), (5, false, 1)], 0⟩,
  ⟨N.«loop», [T.«LSQB», T.«FOR», N.«loop_array», T.«COLON», N.«value_brackets», T.«_CPP_COMMENT_NL», T.«RSQB»], "loop", false, [(2, false, 0), (4, false, 1)], 0⟩,
  ⟨N.«loop», [T.«LSQB», T.«FOR», N.«loop_array_index», T.«COLON», N.«value_brackets», T.«_CPP_COMMENT_NL», T.«RSQB»], "loop", false, [(2, false, 0), (4, false, 1)], 0⟩,
  ⟨N.«loop», [T.«LSQB», T.«FOR», N.«loop_object», T.«COLON», N.«value_brackets», T.«_CPP_COMMENT_NL», T.«RSQB»], "loop", false, [(2, false, 0), (4, false, 1)], 0⟩,
  ⟨N.«loop_object», [T.«STRING», T.«IN», T.«ITEMS», T.«LPAR», N.«value_brackets», T.«RPAR»], "loop_object", false, [(0, false, 0), (4, false, 0)], 0⟩,
  ⟨N.«quoted_string», [T.«QUOTED_STRING»], "quoted_string", true, [(0, false, 0)], 0⟩,
  ⟨N.«array», [T.«LSQB», N.«__array_star_8», T.«RSQB»], "array", false, [(1, true, 0)], 0⟩,
  ⟨N.«object», [T.«LBRACE», N.«__object_star_10», T.«RBRACE»], "object", false, [(1, true, 0)], 0⟩,
  ⟨N.«pair», [N.«key», T.«COLON», N.«loop», T.«QMARK»], "pair", false, [(0, false, 0), (2, false, 0)], 0⟩,
  ⟨N.«lambda_expression», [N.«value_brackets», T.«__ANON_0», N.«value_brackets»], "lambda_expression", false, [(0, false, 0), (2, false, 0)], 0⟩,
  ⟨N.«decorator», [T.«AT», T.«__ANON_2», T.«LPAR», T.«_CPP_COMMENT_NL», N.«value_brackets», T.«_CPP_COMMENT_NL», T.«RPAR», T.«_CPP_COMMENT_NL», T.«_CPP_COMMENT_NL»], "decorator", false, [(1, false, 0), (4, false, 0)], 0⟩,
  ⟨N.«decorator», [T.«AT», T.«__ANON_2», T.«LPAR», T.«_CPP_COMMENT_NL», N.«value_brackets», T.«_CPP_COMMENT_NL», T.«RPAR», T.«_CPP_COMMENT_NL», T.«_CPP_COMMENT_NL», T.«_CPP_COMMENT_NL», T.«_CPP_COMMENT_NL», T.«_CPP_COMMENT_NL», T.«_CPP_COMMENT_NL»], "decorator", false, [(1, false, 0), (4, false, 0)], 0⟩,
  ⟨N.«decorator», [T.«AT», T.«__ANON_2», T.«LPAR», T.«_CPP_COMMENT_NL», N.«value_brackets», T.«_CPP_COMMENT_NL», T.«RPAR», T.«_CPP_COMMENT_NL», T.«_CPP_COMMENT_NL», T.«_CPP_COMMENT_NL», T.«_CPP_COMMENT_NL», T.«_CPP_COMMENT_NL», T.«_CPP_COMMENT_NL», T.«_CPP_COMMENT_NL», T.«_CPP_COMMENT_NL», T.«_CPP_COMMENT_NL», T.«_CPP_COMMENT_NL»], "decorator", false, [(1, false, 0), (4, false, 0)], 0⟩,
  ⟨N.«decorator», [T.«AT», T.«__ANON_2», T.«LPAR», T.«_CPP_COMMENT_NL», N.«value_brackets», T.«RPAR», T.«_CPP_COMMENT_NL», T.«_CPP_COMMENT_NL», T.«_CPP_COMMENT_NL»], "decorator", false, [(1, false, 0), (4, false, 0)], 0⟩,
  ⟨N.«decorator», [T.«AT», T.«__ANON_2», T.«LPAR», T.«_CPP_COMMENT_NL», N.«value_brackets», T.«RPAR», T.«_CPP_COMMENT_NL», T.«_CPP_COMMENT_NL», T.«_CPP_COMMENT_NL», T.«_CPP_COMMENT_NL», T.«_CPP_COMMENT_NL», T.«_CPP_COMMENT_NL», T.«_CPP_COMMENT_NL»], "decorator", false, [(1, false, 0), (4, false, 0)], 0⟩,
  ⟨N.«decorator», [T.«AT», T.«__ANON_2», T.«LPAR», T.«_CPP_COMMENT_NL», T.«_CPP_COMMENT_NL», T.«RPAR»], "decorator", false, [(1, false, 0)], 0⟩,
  ⟨N.«decorator», [T.«AT», T.«__ANON_2», T.«LPAR», T.«_CPP_COMMENT_NL», T.«_CPP_COMMENT_NL», T.«RPAR», T.«_CPP_COMMENT_NL», T.«_CPP_COMMENT_NL», T.«_CPP_COMMENT_NL», T.«_CPP_COMMENT_NL»], "decorator", false, [(1, false, 0)], 0⟩,
  ⟨N.«decorator», [T.«AT», T.«__ANON_2», T.«LPAR», T.«_CPP_COMMENT_NL», T.«_CPP_COMMENT_NL», T.«RPAR», T.«_CPP_COMMENT_NL», T.«_CPP_COMMENT_NL», T.«_CPP_COMMENT_NL», T.«_CPP_COMMENT_NL», T.«_CPP_COMMENT_NL», T.«_CPP_COMMENT_NL», T.«_CPP_COMMENT_NL», T.«_CPP_COMMENT_NL»], "decorator", false, [(1, false, 0)], 0⟩,
  ⟨N.«decorator», [T.«AT», T.«__ANON_2», T.«LPAR», T.«_CPP_COMMENT_NL», T.«RPAR», T.«_CPP_COMMENT_NL»], "decorator", false, [(1, false, 0)], 0⟩,
  ⟨N.«decorator», [T.«AT», T.«__ANON_2», T.«LPAR», T.«_CPP_COMMENT_NL», T.«RPAR», T.«_CPP_COMMENT_NL», T.«_CPP_COMMENT_NL», T.«_CPP_COMMENT_NL», T.«_CPP_COMMENT_NL», T.«_CPP_COMMENT_NL»], "decorator", false, [(1, false, 0)], 0⟩,
  ⟨N.«decorator», [T.«AT», T.«__ANON_2», T.«LPAR», T.«_CPP_COMMENT_NL», T.«RPAR», T.«_CPP_COMMENT_NL», T.«_CPP_COMMENT_NL», T.«_CPP_COMMENT_NL», T.«_CPP_COMMENT_NL», T.«_CPP_COMMENT_NL», T.«_CPP_COMMENT_NL», T.«_CPP_COMMENT_NL», T.«_CPP_COMMENT_NL», T.«_CPP_COMMENT_NL»], "decorator", false, [(1, false, 0)], 0⟩,
  ⟨N.«decorator», [T.«AT», T.«__ANON_2», T.«LPAR», N.«value_brackets», T.«_CPP_COMMENT_NL», T.«RPAR», T.«_CPP_COMMENT_NL», T.«_CPP_COMMENT_NL»], "decorator", false, [(1, false, 0), (3, false, 0)], 0⟩,
  ⟨N.«decorator», [T.«AT», T.«__ANON_2», T.«LPAR», N.«value_brackets», T.«_CPP_COMMENT_NL», T.«RPAR», T.«_CPP_COMMENT_NL», T.«_CPP_COMMENT_NL», T.«_CPP_COMMENT_NL», T.«_CPP_COMMENT_NL», T.«_CPP_COMMENT_NL», T.«_CPP_COMMENT_NL»], "decorator", false, [(1, false, 0), (3, false, 0)], 0⟩,
  ⟨N.«decorator», [T.«AT», T.«__ANON_2», T.«LPAR», N.«value_brackets», T.«_CPP_COMMENT_NL», T.«RPAR», T.«_CPP_COMMENT_NL», T.«_CPP_COMMENT_NL», T.«_CPP_COMMENT_NL», T.«_CPP_COMMENT_NL», T.«_CPP_COMMENT_NL», T.«_CPP_COMMENT_NL», T.«_CPP_COMMENT_NL», T.«_CPP_COMMENT_NL», T.«_CPP_COMMENT_NL», T.«_CPP_COMMENT_NL»], "decorator", false, [(1, false, 0), (3, false, 0)], 0⟩,
  ⟨N.«decorator», [T.«AT», T.«__ANON_2», T.«LPAR», N.«value_brackets», T.«RPAR», T.«_CPP_COMMENT_NL», T.«_CPP_COMMENT_NL», T.«_CPP_COMMENT_NL»], "decorator", false, [(1, false, 0), (3, false, 0)], 0⟩,
  ⟨N.«decorator», [T.«AT», T.«__ANON_2», T.«LPAR», N.«value_brackets», T.«RPAR», T.«_CPP_COMMENT_NL», T.«_CPP_COMMENT_NL», T.«_CPP_COMMENT_NL», T.«_CPP_COMMENT_NL», T.«_CPP_COMMENT_NL», T.«_CPP_COMMENT_NL», T.«_CPP_COMMENT_NL»], "decorator", false, [(1, false, 0), (3, false, 0)], 0⟩,
  ⟨N.«decorator», [T.«AT», T.«__ANON_2», T.«LPAR», T.«RPAR»], "decorator", false, [(1, false, 0)], 0⟩,
  ⟨N.«decorator», [T.«AT», T.«__ANON_2», T.«LPAR», T.«RPAR», T.«_CPP_COMMENT_NL», T.«_CPP_COMMENT_NL», T.«_CPP_COMMENT_NL», T.«_CPP_COMMENT_NL»], "decorator", false, [(1, false, 0)], 0⟩,
  ⟨N.«decorator», [T.«AT», T.«__ANON_2», T.«LPAR», T.«RPAR», T.«_CPP_COMMENT_NL», T.«_CPP_COMMENT_NL», T.«_CPP_COMMENT_NL», T.«_CPP_COMMENT_NL», T.«_CPP_COMMENT_NL», T.«_CPP_COMMENT_NL», T.«_CPP_COMMENT_NL», T.«_CPP_COMMENT_NL»], "decorator", false, [(1, false, 0)], 0⟩,
  ⟨N.«function», [T.«FUNCTION», T.«_CPP_COMMENT_NL», N.«value_brackets», N.«__function_star_12», T.«_CPP_COMMENT_NL», T.«RPAR»], "function", false, [(0, false, 0), (2, false, 0), (3, true, 0)], 0⟩,
  ⟨N.«function», [T.«FUNCTION», T.«_CPP_COMMENT_NL», N.«__function_star_12», T.«_CPP_COMMENT_NL», T.«RPAR»], "function", false, [(0, false, 0), (2, true, 0)], 0⟩,
  ⟨N.«function», [T.«FUNCTION», N.«value_brackets», N.«__function_star_12», T.«_CPP_COMMENT_NL», T.«RPAR»], "function", false, [(0, false, 0), (1, false, 0), (2, true, 0)], 0⟩,
  ⟨N.«function», [T.«FUNCTION», N.«__function_star_12», T.«_CPP_COMMENT_NL», T.«RPAR»], "function", false, [(0, false, 0), (1, true, 0)], 0⟩,
  ⟨N.«operator», [N.«operator_logical»], "operator", false, [(0, false, 0)], 0⟩,
  ⟨N.«operator_comparison», [N.«greater_than»], "operator_comparison", true, [(0, false, 0)], 0⟩,
  ⟨N.«operator_comparison», [N.«not_equals»], "operator_comparison", true, [(0, false, 0)], 0⟩,
  ⟨N.«greater_than», [N.«value_brackets», T.«MORETHAN», N.«value_brackets»], "greater_than", false, [(0, false, 0), (2, false, 0)], 0⟩,
  ⟨N.«not_equals», [N.«value_brackets», T.«__ANON_6», N.«value_brackets»], "not_equals", false, [(0, false, 0), (2, false, 0)], 0⟩,
  ⟨N.«operator_logical», [N.«or_op»], "operator_logical", true, [(0, false, 0)], 0⟩,
  ⟨N.«and_op», [N.«value_brackets», T.«__ANON_9», N.«value_brackets»], "and_op", false, [(0, false, 0), (2, false, 0)], 0⟩,
  ⟨N.«conditional», [N.«value_brackets», T.«QMARK», N.«value_brackets», T.«COLON», N.«value_brackets»], "conditional", false, [(0, false, 0), (2, false, 0), (4, false, 0)], 0⟩,
  ⟨N.«operator_numeric», [N.«modulo»], "operator_numeric", true, [(0, false, 0)], 0⟩,
  ⟨N.«divide», [N.«value_brackets», T.«SLASH», N.«value_brackets»], "divide", false, [(0, false, 0), (2, false, 0)], 0⟩,
  ⟨N.«substract», [N.«value_brackets», T.«MINUS», N.«value_brackets»], "substract", false, [(0, false, 0), (2, false, 0)], 0⟩,
  ⟨N.«operator_accessor», [N.«property_accessor»], "operator_accessor", true, [(0, false, 0)], 0⟩,
  ⟨N.«function_accessor», [N.«value_brackets», T.«DOT», T.«LIST_FUNC_NAME», T.«LPAR», N.«__function_accessor_plus_13», T.«RPAR»], "function_accessor", false, [(0, false, 0), (2, false, 0), (4, true, 0)], 0⟩,
  ⟨N.«__start_star_0», [N.«element», T.«_CPP_COMMENT_NL»], "__start_star_0", false, [(0, false, 0)], 0⟩,
  ⟨N.«__start_star_0», [N.«__start_star_0», N.«element»], "__start_star_0", false, [(0, true, 0), (1, false, 0)], 0⟩,
  ⟨N.«___func_statement_star_2», [T.«COMMA», T.«STRING», N.«data_type»], "___func_statement_star_2", false, [(1, false, 0), (2, false, 0)], 0⟩,
  ⟨N.«__type_value_star_4», [T.«VBAR», N.«value_brackets»], "__type_value_star_4", false, [(1, false, 0)], 0⟩,
  ⟨N.«__union_type_plus_6», [T.«VBAR», N.«data_type»], "__union_type_plus_6", false, [(1, false, 0)], 0⟩,
  ⟨N.«__array_star_8», [N.«value_brackets», N.«__array_star_7», N.«__child_resource_plus_3»], "__array_star_8", false, [(0, false, 0), (1, true, 0), (2, true, 0)], 0⟩,
  ⟨N.«__array_star_8», [N.«__array_star_8», N.«value_brackets», N.«__array_star_7», N.«__child_resource_plus_3»], "__array_star_8", false, [(0, true, 0), (1, false, 0), (2, true, 0), (3, true, 0)], 0⟩,
  ⟨N.«__object_star_9», [T.«COMMA», N.«pair»], "__object_star_9", false, [(1, false, 0)], 0⟩,
  ⟨N.«__object_star_10», [N.«pair», N.«__child_resource_plus_3»], "__object_star_10", false, [(0, false, 0), (1, true, 0)], 0⟩,
  ⟨N.«__object_star_10», [N.«__object_star_10», N.«pair», N.«__object_star_9», N.«__child_resource_plus_3»], "__object_star_10", false, [(0, true, 0), (1, false, 0), (2, true, 0), (3, true, 0)], 0⟩,
  ⟨N.«__object_star_10», [N.«__object_star_10», N.«child_resource», N.«__child_resource_plus_3»], "__object_star_10", false, [(0, true, 0), (1, false, 0), (2, true, 0)], 0⟩,
  ⟨N.«__function_star_12», [T.«COMMA», T.«_CPP_COMMENT_NL», N.«value_brackets»], "__function_star_12", false, [(2, false, 0)], 0⟩,
  ⟨N.«__function_accessor_plus_13», [T.«COMMA», N.«value_brackets»], "__function_accessor_plus_13", false, [(1, false, 0)], 0⟩]

theorem ok0 : ∀ r ∈ list0, RuleOK r := by
  simp only [list0, List.forall_mem_cons]
  exact ⟨r_0, r_4, r_8, r_12, r_16, r_20, r_24, r_28, r_32, r_36, r_40, r_44, r_48, r_52, r_56, r_60, r_64, r_68, r_72, r_76, r_80, r_84, r_88, r_92, r_96, r_100, r_104, r_108, r_112, r_116, r_120, r_124, r_128, r_132, r_136, r_140, r_144, r_148, r_152, r_156, r_160, r_164, r_168, r_172, r_176, r_180, r_184, r_188, r_192, r_196, r_200, r_204, r_208, r_212, r_216, r_220, r_224, r_228, r_232, r_236, r_240, r_244, r_248, r_252, r_256, r_260, r_264, r_268, r_272, r_276, r_280, r_284, r_288, r_292, r_296, r_300, r_304, r_308, r_312, r_316, r_320, r_324, r_328, r_332, r_336, r_340, fun _ h => nomatch h⟩

end Pycep.SynRules
