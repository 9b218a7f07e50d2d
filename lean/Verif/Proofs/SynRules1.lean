import Verif.Proofs.SynBase
/-
GENERATED by tools/gen_syntax_proofs.py.
The trees and tokens of derivations are those of syntax: one case per grammar rule.
-/
set_option linter.all false
namespace Pycep.SynRules
theorem r_1 : RuleOK ⟨N.«start», [], "start", false, [], 0⟩ := by
  refine ruleOK_node ?_
  intro cs w n l h hc hl
  obtain ⟨rfl, rfl⟩ := fitsW_nil.mp h
  exact ⟨[], rfl, .nil⟩

theorem r_5 : RuleOK ⟨N.«element», [T.«EXTENSION», T.«STRING», T.«WITH», N.«object»], "extension", false, [(1, false, 0), (3, false, 0)], 1⟩ := by
  refine ruleOK_node ?_
  intro cs w n l h hc hl
  obtain ⟨c0, cs, w0, w, rfl, rfl, h0, h⟩ := fitsW_cons.mp h
  obtain ⟨c1, cs, w1, w, rfl, rfl, h1, h⟩ := fitsW_cons.mp h
  obtain ⟨c2, cs, w2, w, rfl, rfl, h2, h⟩ := fitsW_cons.mp h
  obtain ⟨c3, rfl, h3⟩ := fitsW_one.mp h
  rename' w => w3
  obtain ⟨u0, rfl, rfl, k0⟩ := shw_EXTENSION h0
  obtain ⟨x1, u1, rfl, rfl, k1⟩ := shw_STRING h1
  obtain ⟨u2, rfl, rfl, k2⟩ := shw_WITH h2
  obtain ⟨x3, rfl, k3⟩ := h3
  exact ⟨l, .extension x1 (some x3) .none, rfl, (by have := DeclSyn.extension (w1 := (u2 :: w3)) (w2 := []) (n := n) k0 k1 (.yes k2 k3) .no; simpa only [List.append_assoc, List.nil_append, List.append_nil, List.cons_append, nextT_append, nextT_cons, nextT_nil] using this), hl rfl⟩

theorem r_9 : RuleOK ⟨N.«element», [N.«decorators», T.«PARAM», T.«STRING», N.«data_type», T.«QMARK», T.«EQUAL», N.«value_brackets»], "param", false, [(0, false, 0), (2, false, 0), (3, false, 0), (6, false, 0)], 0⟩ := by
  refine ruleOK_node ?_
  intro cs w n l h hc hl
  obtain ⟨c0, cs, w0, w, rfl, rfl, h0, h⟩ := fitsW_cons.mp h
  obtain ⟨c1, cs, w1, w, rfl, rfl, h1, h⟩ := fitsW_cons.mp h
  obtain ⟨c2, cs, w2, w, rfl, rfl, h2, h⟩ := fitsW_cons.mp h
  obtain ⟨c3, cs, w3, w, rfl, rfl, h3, h⟩ := fitsW_cons.mp h
  obtain ⟨c4, cs, w4, w, rfl, rfl, h4, h⟩ := fitsW_cons.mp h
  obtain ⟨c5, cs, w5, w, rfl, rfl, h5, h⟩ := fitsW_cons.mp h
  obtain ⟨c6, rfl, h6⟩ := fitsW_one.mp h
  rename' w => w6
  obtain ⟨x0, y0, rfl, k0⟩ := h0
  obtain ⟨u1, rfl, rfl, k1⟩ := shw_PARAM h1
  obtain ⟨x2, u2, rfl, rfl, k2⟩ := shw_STRING h2
  obtain ⟨x3, rfl, k3⟩ := h3
  obtain ⟨u4, rfl, rfl, k4⟩ := shw_QMARK h4
  obtain ⟨u5, rfl, rfl, k5⟩ := shw_EQUAL h5
  obtain ⟨x6, rfl, k6⟩ := h6
  exact ⟨l, .param (x0 :: y0) x2 x3 (some x6), rfl, (by have := DeclSyn.param (ds := (x0 :: y0)) (w0 := w0) (w2 := [u4]) (w3 := (u5 :: w6)) (n := n) k0 k1 k2 k3 (optMark_some k4) (.yes k5 k6 (hc.noInfix rfl)); simpa only [List.append_assoc, List.nil_append, List.append_nil, List.cons_append, nextT_append, nextT_cons, nextT_nil] using this), hl rfl⟩

theorem r_13 : RuleOK ⟨N.«element», [T.«PARAM», T.«STRING», N.«data_type», T.«QMARK», T.«EQUAL», N.«value_brackets»], "param", false, [(1, false, 1), (2, false, 0), (5, false, 0)], 0⟩ := by
  refine ruleOK_node ?_
  intro cs w n l h hc hl
  obtain ⟨c0, cs, w0, w, rfl, rfl, h0, h⟩ := fitsW_cons.mp h
  obtain ⟨c1, cs, w1, w, rfl, rfl, h1, h⟩ := fitsW_cons.mp h
  obtain ⟨c2, cs, w2, w, rfl, rfl, h2, h⟩ := fitsW_cons.mp h
  obtain ⟨c3, cs, w3, w, rfl, rfl, h3, h⟩ := fitsW_cons.mp h
  obtain ⟨c4, cs, w4, w, rfl, rfl, h4, h⟩ := fitsW_cons.mp h
  obtain ⟨c5, rfl, h5⟩ := fitsW_one.mp h
  rename' w => w5
  obtain ⟨u0, rfl, rfl, k0⟩ := shw_PARAM h0
  obtain ⟨x1, u1, rfl, rfl, k1⟩ := shw_STRING h1
  obtain ⟨x2, rfl, k2⟩ := h2
  obtain ⟨u3, rfl, rfl, k3⟩ := shw_QMARK h3
  obtain ⟨u4, rfl, rfl, k4⟩ := shw_EQUAL h4
  obtain ⟨x5, rfl, k5⟩ := h5
  exact ⟨l, .param [] x1 x2 (some x5), rfl, (by have := DeclSyn.param (ds := []) (w0 := []) (w2 := [u3]) (w3 := (u4 :: w5)) (n := n) .nil k0 k1 k2 (optMark_some k3) (.yes k4 k5 (hc.noInfix rfl)); simpa only [List.append_assoc, List.nil_append, List.append_nil, List.cons_append, nextT_append, nextT_cons, nextT_nil] using this), hl rfl⟩

theorem r_17 : RuleOK ⟨N.«element», [N.«decorators», T.«VAR», T.«STRING», N.«data_type», T.«QMARK», T.«EQUAL», N.«var_value»], "var", false, [(0, false, 0), (2, false, 0), (3, false, 0), (6, false, 0)], 0⟩ := by
  refine ruleOK_node ?_
  intro cs w n l h hc hl
  obtain ⟨c0, cs, w0, w, rfl, rfl, h0, h⟩ := fitsW_cons.mp h
  obtain ⟨c1, cs, w1, w, rfl, rfl, h1, h⟩ := fitsW_cons.mp h
  obtain ⟨c2, cs, w2, w, rfl, rfl, h2, h⟩ := fitsW_cons.mp h
  obtain ⟨c3, cs, w3, w, rfl, rfl, h3, h⟩ := fitsW_cons.mp h
  obtain ⟨c4, cs, w4, w, rfl, rfl, h4, h⟩ := fitsW_cons.mp h
  obtain ⟨c5, cs, w5, w, rfl, rfl, h5, h⟩ := fitsW_cons.mp h
  obtain ⟨c6, rfl, h6⟩ := fitsW_one.mp h
  rename' w => w6
  obtain ⟨x0, y0, rfl, k0⟩ := h0
  obtain ⟨u1, rfl, rfl, k1⟩ := shw_VAR h1
  obtain ⟨x2, u2, rfl, rfl, k2⟩ := shw_STRING h2
  obtain ⟨x3, rfl, k3⟩ := h3
  obtain ⟨u4, rfl, rfl, k4⟩ := shw_QMARK h4
  obtain ⟨u5, rfl, rfl, k5⟩ := shw_EQUAL h5
  obtain ⟨x6, rfl, k6⟩ := h6
  exact ⟨l, .var (x0 :: y0) x2 (some x3) x6, rfl, (by have := DeclSyn.var (ds := (x0 :: y0)) (w0 := w0) (w1 := (w3 ++ [u4])) k0 k1 k2 (.yes k3 (optMark_some k4)) k5 k6; simpa only [List.append_assoc, List.nil_append, List.append_nil, List.cons_append, nextT_append, nextT_cons, nextT_nil] using this), hl rfl⟩

theorem r_21 : RuleOK ⟨N.«element», [T.«VAR», T.«STRING», N.«data_type», T.«EQUAL», N.«var_value»], "var", false, [(1, false, 1), (2, false, 0), (4, false, 0)], 0⟩ := by
  refine ruleOK_node ?_
  intro cs w n l h hc hl
  obtain ⟨c0, cs, w0, w, rfl, rfl, h0, h⟩ := fitsW_cons.mp h
  obtain ⟨c1, cs, w1, w, rfl, rfl, h1, h⟩ := fitsW_cons.mp h
  obtain ⟨c2, cs, w2, w, rfl, rfl, h2, h⟩ := fitsW_cons.mp h
  obtain ⟨c3, cs, w3, w, rfl, rfl, h3, h⟩ := fitsW_cons.mp h
  obtain ⟨c4, rfl, h4⟩ := fitsW_one.mp h
  rename' w => w4
  obtain ⟨u0, rfl, rfl, k0⟩ := shw_VAR h0
  obtain ⟨x1, u1, rfl, rfl, k1⟩ := shw_STRING h1
  obtain ⟨x2, rfl, k2⟩ := h2
  obtain ⟨u3, rfl, rfl, k3⟩ := shw_EQUAL h3
  obtain ⟨x4, rfl, k4⟩ := h4
  exact ⟨l, .var [] x1 (some x2) x4, rfl, (by have := DeclSyn.var (ds := []) (w0 := []) (w1 := (w2 ++ [])) .nil k0 k1 (.yes k2 optMark_none) k3 k4; simpa only [List.append_assoc, List.nil_append, List.append_nil, List.cons_append, nextT_append, nextT_cons, nextT_nil] using this), hl rfl⟩

theorem r_25 : RuleOK ⟨N.«element», [T.«OUTPUT», T.«STRING», N.«data_type», T.«QMARK», T.«EQUAL», N.«output_value»], "output", false, [(1, false, 1), (2, false, 0), (5, false, 0)], 0⟩ := by
  refine ruleOK_node ?_
  intro cs w n l h hc hl
  obtain ⟨c0, cs, w0, w, rfl, rfl, h0, h⟩ := fitsW_cons.mp h
  obtain ⟨c1, cs, w1, w, rfl, rfl, h1, h⟩ := fitsW_cons.mp h
  obtain ⟨c2, cs, w2, w, rfl, rfl, h2, h⟩ := fitsW_cons.mp h
  obtain ⟨c3, cs, w3, w, rfl, rfl, h3, h⟩ := fitsW_cons.mp h
  obtain ⟨c4, cs, w4, w, rfl, rfl, h4, h⟩ := fitsW_cons.mp h
  obtain ⟨c5, rfl, h5⟩ := fitsW_one.mp h
  rename' w => w5
  obtain ⟨u0, rfl, rfl, k0⟩ := shw_OUTPUT h0
  obtain ⟨x1, u1, rfl, rfl, k1⟩ := shw_STRING h1
  obtain ⟨x2, rfl, k2⟩ := h2
  obtain ⟨u3, rfl, rfl, k3⟩ := shw_QMARK h3
  obtain ⟨u4, rfl, rfl, k4⟩ := shw_EQUAL h4
  obtain ⟨x5, rfl, k5⟩ := h5
  exact ⟨l, .output [] x1 x2 x5, rfl, .output (w0 := []) (w2 := [u3]) .nil k0 k1 k2 (optMark_some k3) k4 k5, hl rfl⟩

theorem r_29 : RuleOK ⟨N.«element», [T.«RESOURCE», T.«STRING», N.«type_api_pair», T.«EXISTING», T.«EQUAL», N.«resource_value»], "resource", false, [(1, false, 1), (2, false, 0), (3, false, 0), (5, false, 0)], 0⟩ := by
  refine ruleOK_node ?_
  intro cs w n l h hc hl
  obtain ⟨c0, cs, w0, w, rfl, rfl, h0, h⟩ := fitsW_cons.mp h
  obtain ⟨c1, cs, w1, w, rfl, rfl, h1, h⟩ := fitsW_cons.mp h
  obtain ⟨c2, cs, w2, w, rfl, rfl, h2, h⟩ := fitsW_cons.mp h
  obtain ⟨c3, cs, w3, w, rfl, rfl, h3, h⟩ := fitsW_cons.mp h
  obtain ⟨c4, cs, w4, w, rfl, rfl, h4, h⟩ := fitsW_cons.mp h
  obtain ⟨c5, rfl, h5⟩ := fitsW_one.mp h
  rename' w => w5
  obtain ⟨u0, rfl, rfl, k0⟩ := shw_RESOURCE h0
  obtain ⟨x1, u1, rfl, rfl, k1⟩ := shw_STRING h1
  obtain ⟨x2, u2, rfl, rfl, k2⟩ := h2
  obtain ⟨u3, rfl, rfl, k3⟩ := shw_EXISTING h3
  obtain ⟨u4, rfl, rfl, k4⟩ := shw_EQUAL h4
  obtain ⟨x5, rfl, k5⟩ := h5
  exact ⟨l, .resource [] x1 x2 true x5, rfl, .resource (w0 := []) (w1 := [u3]) .nil k0 k1 k2 (.yes k3) k4 k5, hl rfl⟩

theorem r_33 : RuleOK ⟨N.«element», [N.«decorators», T.«TYPE», T.«STRING», T.«EQUAL», N.«type_value»], "custom_type", false, [(0, false, 0), (2, false, 0), (4, false, 0)], 0⟩ := by
  refine ruleOK_node ?_
  intro cs w n l h hc hl
  obtain ⟨c0, cs, w0, w, rfl, rfl, h0, h⟩ := fitsW_cons.mp h
  obtain ⟨c1, cs, w1, w, rfl, rfl, h1, h⟩ := fitsW_cons.mp h
  obtain ⟨c2, cs, w2, w, rfl, rfl, h2, h⟩ := fitsW_cons.mp h
  obtain ⟨c3, cs, w3, w, rfl, rfl, h3, h⟩ := fitsW_cons.mp h
  obtain ⟨c4, rfl, h4⟩ := fitsW_one.mp h
  rename' w => w4
  obtain ⟨x0, y0, rfl, k0⟩ := h0
  obtain ⟨u1, rfl, rfl, k1⟩ := shw_TYPE h1
  obtain ⟨x2, u2, rfl, rfl, k2⟩ := shw_STRING h2
  obtain ⟨u3, rfl, rfl, k3⟩ := shw_EQUAL h3
  obtain ⟨x4, y4, a4, b4, rfl, rfl, k4, m4, o4⟩ := h4
  exact ⟨l, .typ (x0 :: y0) x2 x4 y4, rfl, .typ (w0 := w0) (w1 := a4) (w2 := b4) k0 k1 k2 k3 k4 m4 o4, hl rfl⟩

theorem r_37 : RuleOK ⟨N.«value», [T.«_NEWLINE», T.«NULL»], "null", false, [], 0⟩ := by
  refine ruleOK_node ?_
  intro cs w n l h hc hl
  obtain ⟨c0, cs, w0, w, rfl, rfl, h0, h⟩ := fitsW_cons.mp h
  obtain ⟨c1, rfl, h1⟩ := fitsW_one.mp h
  rename' w => w1
  obtain ⟨u0, rfl, k0⟩ := shw__NEWLINE h0
  obtain ⟨u1, rfl, rfl, k1⟩ := shw_NULL h1
  exact ⟨.null, rfl, .null (w := [u0]) (optNewline_some k0) k1⟩

theorem r_41 : RuleOK ⟨N.«value», [T.«_NEWLINE», T.«FALSE»], "false", false, [], 0⟩ := by
  refine ruleOK_node ?_
  intro cs w n l h hc hl
  obtain ⟨c0, cs, w0, w, rfl, rfl, h0, h⟩ := fitsW_cons.mp h
  obtain ⟨c1, rfl, h1⟩ := fitsW_one.mp h
  rename' w => w1
  obtain ⟨u0, rfl, k0⟩ := shw__NEWLINE h0
  obtain ⟨u1, rfl, rfl, k1⟩ := shw_FALSE h1
  exact ⟨.fls, rfl, .fls (w := [u0]) (optNewline_some k0) k1⟩

theorem r_45 : RuleOK ⟨N.«value», [T.«_NEWLINE», T.«STRING»], "string", false, [(1, false, 0)], 0⟩ := by
  refine ruleOK_node ?_
  intro cs w n l h hc hl
  obtain ⟨c0, cs, w0, w, rfl, rfl, h0, h⟩ := fitsW_cons.mp h
  obtain ⟨c1, rfl, h1⟩ := fitsW_one.mp h
  rename' w => w1
  obtain ⟨u0, rfl, k0⟩ := shw__NEWLINE h0
  obtain ⟨x1, u1, rfl, rfl, k1⟩ := shw_STRING h1
  exact ⟨.ident x1, rfl, .ident (w := [u0]) (optNewline_some k0) k1⟩

theorem r_49 : RuleOK ⟨N.«value», [T.«MULTI_LINE_STRING»], "multi_line_string", false, [(0, false, 0)], 0⟩ := by
  refine ruleOK_node ?_
  intro cs w n l h hc hl
  obtain ⟨c0, rfl, h0⟩ := fitsW_one.mp h
  rename' w => w0
  obtain ⟨x0, u0, rfl, rfl, k0⟩ := shw_MULTI_LINE_STRING h0
  exact ⟨.multi x0, rfl, .multi k0⟩

theorem r_53 : RuleOK ⟨N.«value», [N.«function»], "value", true, [(0, false, 0)], 0⟩ := by
  refine ruleOK_ex ?_
  intro cs w n h hc
  obtain ⟨c0, rfl, h0⟩ := fitsW_one.mp h
  rename' w => w0
  obtain ⟨x0, y0, rfl, k0⟩ := h0
  exact ⟨_, rfl, w_expr_nometa (.call x0 y0), .call x0 y0, rfl, .call (w1 := []) optNewline_none k0⟩

theorem r_57 : RuleOK ⟨N.«value_brackets», [N.«value»], "value_brackets", true, [(0, false, 0)], 0⟩ := by
  refine ruleOK_ex ?_
  intro cs w n h hc
  obtain ⟨c0, rfl, h0⟩ := fitsW_one.mp h
  rename' w => w0
  obtain ⟨x0, rfl, k0⟩ := h0
  exact ⟨_, rfl, w_expr_nometa x0, x0, rfl, .plain k0 (hc.noBang rfl (by decide))⟩

theorem r_61 : RuleOK ⟨N.«_import_statement», [T.«LBRACE», N.«import_alias», T.«RBRACE», T.«FROM», T.«QUOTED_INTERPOLATION»], "_import_statement", false, [(1, false, 0), (4, false, 0)], 0⟩ := by
  refine ruleOK_node ?_
  intro cs w n l h hc hl
  obtain ⟨c0, cs, w0, w, rfl, rfl, h0, h⟩ := fitsW_cons.mp h
  obtain ⟨c1, cs, w1, w, rfl, rfl, h1, h⟩ := fitsW_cons.mp h
  obtain ⟨c2, cs, w2, w, rfl, rfl, h2, h⟩ := fitsW_cons.mp h
  obtain ⟨c3, cs, w3, w, rfl, rfl, h3, h⟩ := fitsW_cons.mp h
  obtain ⟨c4, rfl, h4⟩ := fitsW_one.mp h
  rename' w => w4
  obtain ⟨u0, rfl, rfl, k0⟩ := shw_LBRACE h0
  obtain ⟨x1, rfl, k1⟩ := h1
  obtain ⟨u2, rfl, rfl, k2⟩ := shw_RBRACE h2
  obtain ⟨u3, rfl, rfl, k3⟩ := shw_FROM h3
  obtain ⟨x4, u4, rfl, rfl, k4⟩ := shw_QUOTED_INTERPOLATION h4
  exact .inr (.inr ⟨x1, [], x4, u0, _, [], u2, u3, u4, rfl, rfl, k0, k1, .nil, k2, k3, k4⟩)

theorem r_65 : RuleOK ⟨N.«_func_statement», [T.«STRING», T.«LPAR», T.«STRING», N.«data_type», T.«RPAR», N.«data_type», T.«__ANON_0», N.«value_brackets»], "_func_statement", false, [(0, false, 0), (2, false, 0), (3, false, 0), (5, false, 0), (7, false, 0)], 0⟩ := by
  refine ruleOK_node ?_
  intro cs w n l h hc hl
  obtain ⟨c0, cs, w0, w, rfl, rfl, h0, h⟩ := fitsW_cons.mp h
  obtain ⟨c1, cs, w1, w, rfl, rfl, h1, h⟩ := fitsW_cons.mp h
  obtain ⟨c2, cs, w2, w, rfl, rfl, h2, h⟩ := fitsW_cons.mp h
  obtain ⟨c3, cs, w3, w, rfl, rfl, h3, h⟩ := fitsW_cons.mp h
  obtain ⟨c4, cs, w4, w, rfl, rfl, h4, h⟩ := fitsW_cons.mp h
  obtain ⟨c5, cs, w5, w, rfl, rfl, h5, h⟩ := fitsW_cons.mp h
  obtain ⟨c6, cs, w6, w, rfl, rfl, h6, h⟩ := fitsW_cons.mp h
  obtain ⟨c7, rfl, h7⟩ := fitsW_one.mp h
  rename' w => w7
  obtain ⟨x0, u0, rfl, rfl, k0⟩ := shw_STRING h0
  obtain ⟨u1, rfl, rfl, k1⟩ := shw_LPAR h1
  obtain ⟨x2, u2, rfl, rfl, k2⟩ := shw_STRING h2
  obtain ⟨x3, rfl, k3⟩ := h3
  obtain ⟨u4, rfl, rfl, k4⟩ := shw_RPAR h4
  obtain ⟨x5, rfl, k5⟩ := h5
  obtain ⟨u6, rfl, rfl, k6⟩ := shw___ANON_0 h6
  obtain ⟨x7, rfl, k7⟩ := h7
  exact ⟨x0, [(x2, x3)], x5, x7, u0, u1, (u2 :: (w3 ++ [])), u4, w5, u6, w7, rfl, (by simp), k0, k1, (.mk (w2 := []) k2 k3 .nil), k4, k5, k6, k7, (hc.noInfix rfl)⟩

theorem r_69 : RuleOK ⟨N.«metadata_value», [T.«QUOTED_INTERPOLATION»], "string", false, [(0, false, 0)], 0⟩ := by
  refine ruleOK_node ?_
  intro cs w n l h hc hl
  obtain ⟨c0, rfl, h0⟩ := fitsW_one.mp h
  rename' w => w0
  obtain ⟨x0, u0, rfl, rfl, k0⟩ := shw_QUOTED_INTERPOLATION h0
  exact ⟨x0, u0, rfl, rfl, k0⟩

theorem r_73 : RuleOK ⟨N.«resource_value», [N.«loop»], "resource_value", true, [(0, false, 0)], 0⟩ := by
  refine ruleOK_ex ?_
  intro cs w n h hc
  obtain ⟨c0, rfl, h0⟩ := fitsW_one.mp h
  rename' w => w0
  obtain ⟨x0, rfl, k0⟩ := h0
  exact ⟨_, rfl, w_loop_nometa x0, .loop x0, rfl, .loop k0⟩

theorem r_77 : RuleOK ⟨N.«module_value», [N.«deploy_condition»], "module_value", true, [(0, false, 0)], 0⟩ := by
  refine ruleOK_ex ?_
  intro cs w n h hc
  obtain ⟨c0, rfl, h0⟩ := fitsW_one.mp h
  rename' w => w0
  obtain ⟨x0, y0, rfl, k0⟩ := h0
  exact ⟨_, rfl, w_config_nometa (.cond x0 y0), .cond x0 y0, rfl, k0⟩

theorem r_81 : RuleOK ⟨N.«child_resource», [T.«RESOURCE», T.«STRING», T.«QUOTED_INTERPOLATION», T.«EQUAL», N.«object», N.«__child_resource_plus_3»], "child_resource", false, [(1, false, 0), (2, false, 0), (4, false, 1), (5, true, 0)], 0⟩ := by
  refine ruleOK_node ?_
  intro cs w n l h hc hl
  obtain ⟨c0, cs, w0, w, rfl, rfl, h0, h⟩ := fitsW_cons.mp h
  obtain ⟨c1, cs, w1, w, rfl, rfl, h1, h⟩ := fitsW_cons.mp h
  obtain ⟨c2, cs, w2, w, rfl, rfl, h2, h⟩ := fitsW_cons.mp h
  obtain ⟨c3, cs, w3, w, rfl, rfl, h3, h⟩ := fitsW_cons.mp h
  obtain ⟨c4, cs, w4, w, rfl, rfl, h4, h⟩ := fitsW_cons.mp h
  obtain ⟨c5, rfl, h5⟩ := fitsW_one.mp h
  rename' w => w5
  obtain ⟨u0, rfl, rfl, k0⟩ := shw_RESOURCE h0
  obtain ⟨x1, u1, rfl, rfl, k1⟩ := shw_STRING h1
  obtain ⟨x2, u2, rfl, rfl, k2⟩ := shw_QUOTED_INTERPOLATION h2
  obtain ⟨u3, rfl, rfl, k3⟩ := shw_EQUAL h3
  obtain ⟨x4, rfl, k4⟩ := h4
  obtain ⟨q5, k5, m5⟩ := h5
  exact ⟨.child l x1 x2 false (.obj x4), (by simp only [keepKids', List.flatMap_cons, List.flatMap_nil, List.replicate_zero, List.replicate_succ, List.getElem?_cons_zero, List.getElem?_cons_succ, Bool.false_eq_true, if_true, if_false, List.append_nil, List.nil_append, List.cons_append, List.append_assoc, w_kids_mkCore, q5] <;> rfl), .mk (w1 := []) (w2 := w4) (w3 := w5) k0 k1 k2 .no k3 (.obj k4) k5 m5 (hc.childNL rfl) (hl rfl)⟩

theorem r_85 : RuleOK ⟨N.«type_value», [N.«value_brackets»], "type_value", true, [(0, false, 0)], 0⟩ := by
  refine ruleOK_ex ?_
  intro cs w n h hc
  obtain ⟨c0, rfl, h0⟩ := fitsW_one.mp h
  rename' w => w0
  obtain ⟨x0, rfl, k0⟩ := h0
  exact ⟨_, rfl, w_expr_nometa x0, x0, [], _, [], rfl, (List.append_nil _).symm, k0, .nil, (hc.noInfix rfl)⟩

theorem r_89 : RuleOK ⟨N.«base_type», [N.«union_type»], "base_type", false, [(0, false, 0)], 0⟩ := by
  refine ruleOK_node ?_
  intro cs w n l h hc hl
  obtain ⟨c0, rfl, h0⟩ := fitsW_one.mp h
  rename' w => w0
  obtain ⟨x0, y0, z0, rfl, k0⟩ := h0
  exact ⟨.union x0 y0 z0, rfl, k0⟩

theorem r_93 : RuleOK ⟨N.«module_path», [T.«QUOTED_INTERPOLATION»], "module_path", false, [(0, false, 0)], 0⟩ := by
  refine ruleOK_node ?_
  intro cs w n l h hc hl
  obtain ⟨c0, rfl, h0⟩ := fitsW_one.mp h
  rename' w => w0
  obtain ⟨x0, u0, rfl, rfl, k0⟩ := shw_QUOTED_INTERPOLATION h0
  exact ⟨x0, u0, rfl, rfl, k0⟩

theorem r_97 : RuleOK ⟨N.«import_alias», [T.«__ANON_1»], "import_alias", false, [(0, false, 0)], 1⟩ := by
  refine ruleOK_node ?_
  intro cs w n l h hc hl
  obtain ⟨c0, rfl, h0⟩ := fitsW_one.mp h
  rename' w => w0
  obtain ⟨u0, rfl, rfl, k0⟩ := shw___ANON_1 h0
  exact ⟨⟨.star, .none⟩, rfl, .star k0⟩

theorem r_101 : RuleOK ⟨N.«loop», [T.«LSQB», T.«_CPP_COMMENT_NL», T.«FOR», N.«loop_array», T.«COLON», N.«value_brackets», T.«RSQB»], "loop", false, [(3, false, 0), (5, false, 1)], 0⟩ := by
  refine ruleOK_node ?_
  intro cs w n l h hc hl
  obtain ⟨c0, cs, w0, w, rfl, rfl, h0, h⟩ := fitsW_cons.mp h
  obtain ⟨c1, cs, w1, w, rfl, rfl, h1, h⟩ := fitsW_cons.mp h
  obtain ⟨c2, cs, w2, w, rfl, rfl, h2, h⟩ := fitsW_cons.mp h
  obtain ⟨c3, cs, w3, w, rfl, rfl, h3, h⟩ := fitsW_cons.mp h
  obtain ⟨c4, cs, w4, w, rfl, rfl, h4, h⟩ := fitsW_cons.mp h
  obtain ⟨c5, cs, w5, w, rfl, rfl, h5, h⟩ := fitsW_cons.mp h
  obtain ⟨c6, rfl, h6⟩ := fitsW_one.mp h
  rename' w => w6
  obtain ⟨u0, rfl, rfl, k0⟩ := shw_LSQB h0
  obtain ⟨u1, rfl, k1⟩ := shw__CPP_COMMENT_NL h1
  obtain ⟨u2, rfl, rfl, k2⟩ := shw_FOR h2
  obtain ⟨x3, rfl, k3⟩ := h3
  obtain ⟨u4, rfl, rfl, k4⟩ := shw_COLON h4
  obtain ⟨x5, rfl, k5⟩ := h5
  obtain ⟨u6, rfl, rfl, k6⟩ := shw_RSQB h6
  exact ⟨.mk x3 .none x5, rfl, .plain (w1 := [u1]) (w4 := []) k0 (optBreak_some k1) k2 k3 k4 k5 optBreak_none k6⟩

theorem r_105 : RuleOK ⟨N.«loop», [T.«LSQB», T.«_CPP_COMMENT_NL», T.«FOR», N.«loop_array_index», T.«COLON», N.«value_brackets», T.«RSQB»], "loop", false, [(3, false, 0), (5, false, 1)], 0⟩ := by
  refine ruleOK_node ?_
  intro cs w n l h hc hl
  obtain ⟨c0, cs, w0, w, rfl, rfl, h0, h⟩ := fitsW_cons.mp h
  obtain ⟨c1, cs, w1, w, rfl, rfl, h1, h⟩ := fitsW_cons.mp h
  obtain ⟨c2, cs, w2, w, rfl, rfl, h2, h⟩ := fitsW_cons.mp h
  obtain ⟨c3, cs, w3, w, rfl, rfl, h3, h⟩ := fitsW_cons.mp h
  obtain ⟨c4, cs, w4, w, rfl, rfl, h4, h⟩ := fitsW_cons.mp h
  obtain ⟨c5, cs, w5, w, rfl, rfl, h5, h⟩ := fitsW_cons.mp h
  obtain ⟨c6, rfl, h6⟩ := fitsW_one.mp h
  rename' w => w6
  obtain ⟨u0, rfl, rfl, k0⟩ := shw_LSQB h0
  obtain ⟨u1, rfl, k1⟩ := shw__CPP_COMMENT_NL h1
  obtain ⟨u2, rfl, rfl, k2⟩ := shw_FOR h2
  obtain ⟨x3, rfl, k3⟩ := h3
  obtain ⟨u4, rfl, rfl, k4⟩ := shw_COLON h4
  obtain ⟨x5, rfl, k5⟩ := h5
  obtain ⟨u6, rfl, rfl, k6⟩ := shw_RSQB h6
  exact ⟨.mk x3 .none x5, rfl, .plain (w1 := [u1]) (w4 := []) k0 (optBreak_some k1) k2 k3 k4 k5 optBreak_none k6⟩

theorem r_109 : RuleOK ⟨N.«loop», [T.«LSQB», T.«_CPP_COMMENT_NL», T.«FOR», N.«loop_object», T.«COLON», N.«value_brackets», T.«RSQB»], "loop", false, [(3, false, 0), (5, false, 1)], 0⟩ := by
  refine ruleOK_node ?_
  intro cs w n l h hc hl
  obtain ⟨c0, cs, w0, w, rfl, rfl, h0, h⟩ := fitsW_cons.mp h
  obtain ⟨c1, cs, w1, w, rfl, rfl, h1, h⟩ := fitsW_cons.mp h
  obtain ⟨c2, cs, w2, w, rfl, rfl, h2, h⟩ := fitsW_cons.mp h
  obtain ⟨c3, cs, w3, w, rfl, rfl, h3, h⟩ := fitsW_cons.mp h
  obtain ⟨c4, cs, w4, w, rfl, rfl, h4, h⟩ := fitsW_cons.mp h
  obtain ⟨c5, cs, w5, w, rfl, rfl, h5, h⟩ := fitsW_cons.mp h
  obtain ⟨c6, rfl, h6⟩ := fitsW_one.mp h
  rename' w => w6
  obtain ⟨u0, rfl, rfl, k0⟩ := shw_LSQB h0
  obtain ⟨u1, rfl, k1⟩ := shw__CPP_COMMENT_NL h1
  obtain ⟨u2, rfl, rfl, k2⟩ := shw_FOR h2
  obtain ⟨x3, rfl, k3⟩ := h3
  obtain ⟨u4, rfl, rfl, k4⟩ := shw_COLON h4
  obtain ⟨x5, rfl, k5⟩ := h5
  obtain ⟨u6, rfl, rfl, k6⟩ := shw_RSQB h6
  exact ⟨.mk x3 .none x5, rfl, .plain (w1 := [u1]) (w4 := []) k0 (optBreak_some k1) k2 k3 k4 k5 optBreak_none k6⟩

theorem r_113 : RuleOK ⟨N.«loop», [T.«LSQB», T.«FOR», N.«loop_array», T.«COLON», N.«value_brackets», T.«RSQB»], "loop", false, [(2, false, 0), (4, false, 1)], 0⟩ := by
  refine ruleOK_node ?_
  intro cs w n l h hc hl
  obtain ⟨c0, cs, w0, w, rfl, rfl, h0, h⟩ := fitsW_cons.mp h
  obtain ⟨c1, cs, w1, w, rfl, rfl, h1, h⟩ := fitsW_cons.mp h
  obtain ⟨c2, cs, w2, w, rfl, rfl, h2, h⟩ := fitsW_cons.mp h
  obtain ⟨c3, cs, w3, w, rfl, rfl, h3, h⟩ := fitsW_cons.mp h
  obtain ⟨c4, cs, w4, w, rfl, rfl, h4, h⟩ := fitsW_cons.mp h
  obtain ⟨c5, rfl, h5⟩ := fitsW_one.mp h
  rename' w => w5
  obtain ⟨u0, rfl, rfl, k0⟩ := shw_LSQB h0
  obtain ⟨u1, rfl, rfl, k1⟩ := shw_FOR h1
  obtain ⟨x2, rfl, k2⟩ := h2
  obtain ⟨u3, rfl, rfl, k3⟩ := shw_COLON h3
  obtain ⟨x4, rfl, k4⟩ := h4
  obtain ⟨u5, rfl, rfl, k5⟩ := shw_RSQB h5
  exact ⟨.mk x2 .none x4, rfl, .plain (w1 := []) (w4 := []) k0 optBreak_none k1 k2 k3 k4 optBreak_none k5⟩

theorem r_117 : RuleOK ⟨N.«loop», [T.«LSQB», T.«FOR», N.«loop_array_index», T.«COLON», N.«value_brackets», T.«RSQB»], "loop", false, [(2, false, 0), (4, false, 1)], 0⟩ := by
  refine ruleOK_node ?_
  intro cs w n l h hc hl
  obtain ⟨c0, cs, w0, w, rfl, rfl, h0, h⟩ := fitsW_cons.mp h
  obtain ⟨c1, cs, w1, w, rfl, rfl, h1, h⟩ := fitsW_cons.mp h
  obtain ⟨c2, cs, w2, w, rfl, rfl, h2, h⟩ := fitsW_cons.mp h
  obtain ⟨c3, cs, w3, w, rfl, rfl, h3, h⟩ := fitsW_cons.mp h
  obtain ⟨c4, cs, w4, w, rfl, rfl, h4, h⟩ := fitsW_cons.mp h
  obtain ⟨c5, rfl, h5⟩ := fitsW_one.mp h
  rename' w => w5
  obtain ⟨u0, rfl, rfl, k0⟩ := shw_LSQB h0
  obtain ⟨u1, rfl, rfl, k1⟩ := shw_FOR h1
  obtain ⟨x2, rfl, k2⟩ := h2
  obtain ⟨u3, rfl, rfl, k3⟩ := shw_COLON h3
  obtain ⟨x4, rfl, k4⟩ := h4
  obtain ⟨u5, rfl, rfl, k5⟩ := shw_RSQB h5
  exact ⟨.mk x2 .none x4, rfl, .plain (w1 := []) (w4 := []) k0 optBreak_none k1 k2 k3 k4 optBreak_none k5⟩

theorem r_121 : RuleOK ⟨N.«loop», [T.«LSQB», T.«FOR», N.«loop_object», T.«COLON», N.«value_brackets», T.«RSQB»], "loop", false, [(2, false, 0), (4, false, 1)], 0⟩ := by
  refine ruleOK_node ?_
  intro cs w n l h hc hl
  obtain ⟨c0, cs, w0, w, rfl, rfl, h0, h⟩ := fitsW_cons.mp h
  obtain ⟨c1, cs, w1, w, rfl, rfl, h1, h⟩ := fitsW_cons.mp h
  obtain ⟨c2, cs, w2, w, rfl, rfl, h2, h⟩ := fitsW_cons.mp h
  obtain ⟨c3, cs, w3, w, rfl, rfl, h3, h⟩ := fitsW_cons.mp h
  obtain ⟨c4, cs, w4, w, rfl, rfl, h4, h⟩ := fitsW_cons.mp h
  obtain ⟨c5, rfl, h5⟩ := fitsW_one.mp h
  rename' w => w5
  obtain ⟨u0, rfl, rfl, k0⟩ := shw_LSQB h0
  obtain ⟨u1, rfl, rfl, k1⟩ := shw_FOR h1
  obtain ⟨x2, rfl, k2⟩ := h2
  obtain ⟨u3, rfl, rfl, k3⟩ := shw_COLON h3
  obtain ⟨x4, rfl, k4⟩ := h4
  obtain ⟨u5, rfl, rfl, k5⟩ := shw_RSQB h5
  exact ⟨.mk x2 .none x4, rfl, .plain (w1 := []) (w4 := []) k0 optBreak_none k1 k2 k3 k4 optBreak_none k5⟩

theorem r_125 : RuleOK ⟨N.«deploy_condition», [T.«_CPP_COMMENT_NL», T.«IF», T.«LPAR», N.«value_brackets», T.«RPAR», N.«value_brackets»], "deploy_condition", false, [(3, false, 0), (5, false, 0)], 0⟩ := by
  refine ruleOK_node ?_
  intro cs w n l h hc hl
  obtain ⟨c0, cs, w0, w, rfl, rfl, h0, h⟩ := fitsW_cons.mp h
  obtain ⟨c1, cs, w1, w, rfl, rfl, h1, h⟩ := fitsW_cons.mp h
  obtain ⟨c2, cs, w2, w, rfl, rfl, h2, h⟩ := fitsW_cons.mp h
  obtain ⟨c3, cs, w3, w, rfl, rfl, h3, h⟩ := fitsW_cons.mp h
  obtain ⟨c4, cs, w4, w, rfl, rfl, h4, h⟩ := fitsW_cons.mp h
  obtain ⟨c5, rfl, h5⟩ := fitsW_one.mp h
  rename' w => w5
  obtain ⟨u0, rfl, k0⟩ := shw__CPP_COMMENT_NL h0
  obtain ⟨u1, rfl, rfl, k1⟩ := shw_IF h1
  obtain ⟨u2, rfl, rfl, k2⟩ := shw_LPAR h2
  obtain ⟨x3, rfl, k3⟩ := h3
  obtain ⟨u4, rfl, rfl, k4⟩ := shw_RPAR h4
  obtain ⟨x5, rfl, k5⟩ := h5
  exact ⟨x3, x5, rfl, .cond (w1 := [u0]) (optBreak_some k0) k1 k2 k3 k4 k5 (hc.noInfix rfl)⟩

theorem r_129 : RuleOK ⟨N.«quoted_string», [T.«QUOTED_INTERPOLATION»], "quoted_string", true, [(0, false, 0)], 0⟩ := by
  refine ruleOK_ex ?_
  intro cs w n h hc
  obtain ⟨c0, rfl, h0⟩ := fitsW_one.mp h
  rename' w => w0
  obtain ⟨x0, u0, rfl, rfl, k0⟩ := shw_QUOTED_INTERPOLATION h0
  exact ⟨_, rfl, rfl, rfl, .quoted false x0, u0, rfl, rfl, .quoted k0⟩

theorem r_133 : RuleOK ⟨N.«array», [T.«LSQB», T.«RSQB»], "array", false, [], 0⟩ := by
  refine ruleOK_node ?_
  intro cs w n l h hc hl
  obtain ⟨c0, cs, w0, w, rfl, rfl, h0, h⟩ := fitsW_cons.mp h
  obtain ⟨c1, rfl, h1⟩ := fitsW_one.mp h
  rename' w => w1
  obtain ⟨u0, rfl, rfl, k0⟩ := shw_LSQB h0
  obtain ⟨u1, rfl, rfl, k1⟩ := shw_RSQB h1
  exact ⟨[], rfl, .array (w1 := []) (w2 := []) k0 breaks_nil .nil k1⟩

theorem r_137 : RuleOK ⟨N.«object», [T.«LBRACE», T.«RBRACE»], "object", false, [], 0⟩ := by
  refine ruleOK_node ?_
  intro cs w n l h hc hl
  obtain ⟨c0, cs, w0, w, rfl, rfl, h0, h⟩ := fitsW_cons.mp h
  obtain ⟨c1, rfl, h1⟩ := fitsW_one.mp h
  rename' w => w1
  obtain ⟨u0, rfl, rfl, k0⟩ := shw_LBRACE h0
  obtain ⟨u1, rfl, rfl, k1⟩ := shw_RBRACE h1
  exact ⟨[], rfl, .mk (w1 := []) (w2 := []) k0 breaks_nil .nil k1⟩

theorem r_141 : RuleOK ⟨N.«pair», [N.«key», T.«COLON», N.«loop»], "pair", false, [(0, false, 0), (2, false, 0)], 0⟩ := by
  refine ruleOK_node ?_
  intro cs w n l h hc hl
  obtain ⟨c0, cs, w0, w, rfl, rfl, h0, h⟩ := fitsW_cons.mp h
  obtain ⟨c1, cs, w1, w, rfl, rfl, h1, h⟩ := fitsW_cons.mp h
  obtain ⟨c2, rfl, h2⟩ := fitsW_one.mp h
  rename' w => w2
  obtain ⟨x0, u0, rfl, rfl, k0⟩ := h0
  obtain ⟨u1, rfl, rfl, k1⟩ := shw_COLON h1
  obtain ⟨x2, rfl, k2⟩ := h2
  exact ⟨.pairLoop x0 x2, rfl, .loop k0 k1 k2⟩

theorem r_145 : RuleOK ⟨N.«lambda_expression», [T.«LPAR», N.«value_brackets», T.«COMMA», N.«value_brackets», N.«__array_star_7», T.«RPAR», T.«__ANON_0», N.«value_brackets»], "lambda_expression", false, [(1, false, 0), (3, false, 0), (4, true, 0), (7, false, 0)], 0⟩ := by
  refine ruleOK_node ?_
  intro cs w n l h hc hl
  obtain ⟨c0, cs, w0, w, rfl, rfl, h0, h⟩ := fitsW_cons.mp h
  obtain ⟨c1, cs, w1, w, rfl, rfl, h1, h⟩ := fitsW_cons.mp h
  obtain ⟨c2, cs, w2, w, rfl, rfl, h2, h⟩ := fitsW_cons.mp h
  obtain ⟨c3, cs, w3, w, rfl, rfl, h3, h⟩ := fitsW_cons.mp h
  obtain ⟨c4, cs, w4, w, rfl, rfl, h4, h⟩ := fitsW_cons.mp h
  obtain ⟨c5, cs, w5, w, rfl, rfl, h5, h⟩ := fitsW_cons.mp h
  obtain ⟨c6, cs, w6, w, rfl, rfl, h6, h⟩ := fitsW_cons.mp h
  obtain ⟨c7, rfl, h7⟩ := fitsW_one.mp h
  rename' w => w7
  obtain ⟨u0, rfl, rfl, k0⟩ := shw_LPAR h0
  obtain ⟨x1, rfl, k1⟩ := h1
  obtain ⟨u2, rfl, rfl, k2⟩ := shw_COMMA h2
  obtain ⟨x3, rfl, k3⟩ := h3
  obtain ⟨x4, y4, q4, k4, m4⟩ := h4
  obtain ⟨u5, rfl, rfl, k5⟩ := shw_RPAR h5
  obtain ⟨u6, rfl, rfl, k6⟩ := shw___ANON_0 h6
  obtain ⟨x7, rfl, k7⟩ := h7
  exact ⟨.lambdaN x1 x3 x4 y4 x7, (by simp only [keepKids', List.flatMap_cons, List.flatMap_nil, List.replicate_zero, List.replicate_succ, List.getElem?_cons_zero, List.getElem?_cons_succ, Bool.false_eq_true, if_true, if_false, List.append_nil, List.nil_append, List.cons_append, List.append_assoc, w_kids_mkCore, q4] <;> rfl), .lambdaN k0 k1 k2 (by have := k3; simpa only [List.append_assoc, List.nil_append, List.append_nil, List.cons_append, nextT_append, nextT_cons, nextT_nil] using this) k4 k5 k6 k7 (hc.noInfix rfl)⟩

theorem r_149 : RuleOK ⟨N.«decorator», [T.«AT», T.«__ANON_2», T.«LPAR», T.«_CPP_COMMENT_NL», N.«value_brackets», T.«_CPP_COMMENT_NL», T.«RPAR», T.«_CPP_COMMENT_NL», T.«_CPP_COMMENT_NL», T.«_CPP_COMMENT_NL»], "decorator", false, [(1, false, 0), (4, false, 0)], 0⟩ := by
  refine ruleOK_node ?_
  intro cs w n l h hc hl
  obtain ⟨c0, cs, w0, w, rfl, rfl, h0, h⟩ := fitsW_cons.mp h
  obtain ⟨c1, cs, w1, w, rfl, rfl, h1, h⟩ := fitsW_cons.mp h
  obtain ⟨c2, cs, w2, w, rfl, rfl, h2, h⟩ := fitsW_cons.mp h
  obtain ⟨c3, cs, w3, w, rfl, rfl, h3, h⟩ := fitsW_cons.mp h
  obtain ⟨c4, cs, w4, w, rfl, rfl, h4, h⟩ := fitsW_cons.mp h
  obtain ⟨c5, cs, w5, w, rfl, rfl, h5, h⟩ := fitsW_cons.mp h
  obtain ⟨c6, cs, w6, w, rfl, rfl, h6, h⟩ := fitsW_cons.mp h
  obtain ⟨c7, cs, w7, w, rfl, rfl, h7, h⟩ := fitsW_cons.mp h
  obtain ⟨c8, cs, w8, w, rfl, rfl, h8, h⟩ := fitsW_cons.mp h
  obtain ⟨c9, rfl, h9⟩ := fitsW_one.mp h
  rename' w => w9
  obtain ⟨u0, rfl, rfl, k0⟩ := shw_AT h0
  obtain ⟨x1, u1, rfl, rfl, k1⟩ := shw___ANON_2 h1
  obtain ⟨u2, rfl, rfl, k2⟩ := shw_LPAR h2
  obtain ⟨u3, rfl, k3⟩ := shw__CPP_COMMENT_NL h3
  obtain ⟨x4, rfl, k4⟩ := h4
  obtain ⟨u5, rfl, k5⟩ := shw__CPP_COMMENT_NL h5
  obtain ⟨u6, rfl, rfl, k6⟩ := shw_RPAR h6
  obtain ⟨u7, rfl, k7⟩ := shw__CPP_COMMENT_NL h7
  obtain ⟨u8, rfl, k8⟩ := shw__CPP_COMMENT_NL h8
  obtain ⟨u9, rfl, k9⟩ := shw__CPP_COMMENT_NL h9
  exact ⟨⟨x1, some x4⟩, rfl, .arg (w1 := [u3]) (w3 := [u5]) (w4 := [u7, u8, u9]) k0 k1 k2 (optBreak_some k3) k4 (optBreak_some k5) k6 (breaks_cons k7 (breaks_cons k8 (breaks_cons k9 breaks_nil))) (by simp)⟩

theorem r_153 : RuleOK ⟨N.«decorator», [T.«AT», T.«__ANON_2», T.«LPAR», T.«_CPP_COMMENT_NL», N.«value_brackets», T.«_CPP_COMMENT_NL», T.«RPAR», T.«_CPP_COMMENT_NL», T.«_CPP_COMMENT_NL», T.«_CPP_COMMENT_NL», T.«_CPP_COMMENT_NL», T.«_CPP_COMMENT_NL», T.«_CPP_COMMENT_NL», T.«_CPP_COMMENT_NL»], "decorator", false, [(1, false, 0), (4, false, 0)], 0⟩ := by
  refine ruleOK_node ?_
  intro cs w n l h hc hl
  obtain ⟨c0, cs, w0, w, rfl, rfl, h0, h⟩ := fitsW_cons.mp h
  obtain ⟨c1, cs, w1, w, rfl, rfl, h1, h⟩ := fitsW_cons.mp h
  obtain ⟨c2, cs, w2, w, rfl, rfl, h2, h⟩ := fitsW_cons.mp h
  obtain ⟨c3, cs, w3, w, rfl, rfl, h3, h⟩ := fitsW_cons.mp h
  obtain ⟨c4, cs, w4, w, rfl, rfl, h4, h⟩ := fitsW_cons.mp h
  obtain ⟨c5, cs, w5, w, rfl, rfl, h5, h⟩ := fitsW_cons.mp h
  obtain ⟨c6, cs, w6, w, rfl, rfl, h6, h⟩ := fitsW_cons.mp h
  obtain ⟨c7, cs, w7, w, rfl, rfl, h7, h⟩ := fitsW_cons.mp h
  obtain ⟨c8, cs, w8, w, rfl, rfl, h8, h⟩ := fitsW_cons.mp h
  obtain ⟨c9, cs, w9, w, rfl, rfl, h9, h⟩ := fitsW_cons.mp h
  obtain ⟨c10, cs, w10, w, rfl, rfl, h10, h⟩ := fitsW_cons.mp h
  obtain ⟨c11, cs, w11, w, rfl, rfl, h11, h⟩ := fitsW_cons.mp h
  obtain ⟨c12, cs, w12, w, rfl, rfl, h12, h⟩ := fitsW_cons.mp h
  obtain ⟨c13, rfl, h13⟩ := fitsW_one.mp h
  rename' w => w13
  obtain ⟨u0, rfl, rfl, k0⟩ := shw_AT h0
  obtain ⟨x1, u1, rfl, rfl, k1⟩ := shw___ANON_2 h1
  obtain ⟨u2, rfl, rfl, k2⟩ := shw_LPAR h2
  obtain ⟨u3, rfl, k3⟩ := shw__CPP_COMMENT_NL h3
  obtain ⟨x4, rfl, k4⟩ := h4
  obtain ⟨u5, rfl, k5⟩ := shw__CPP_COMMENT_NL h5
  obtain ⟨u6, rfl, rfl, k6⟩ := shw_RPAR h6
  obtain ⟨u7, rfl, k7⟩ := shw__CPP_COMMENT_NL h7
  obtain ⟨u8, rfl, k8⟩ := shw__CPP_COMMENT_NL h8
  obtain ⟨u9, rfl, k9⟩ := shw__CPP_COMMENT_NL h9
  obtain ⟨u10, rfl, k10⟩ := shw__CPP_COMMENT_NL h10
  obtain ⟨u11, rfl, k11⟩ := shw__CPP_COMMENT_NL h11
  obtain ⟨u12, rfl, k12⟩ := shw__CPP_COMMENT_NL h12
  obtain ⟨u13, rfl, k13⟩ := shw__CPP_COMMENT_NL h13
  exact ⟨⟨x1, some x4⟩, rfl, .arg (w1 := [u3]) (w3 := [u5]) (w4 := [u7, u8, u9, u10, u11, u12, u13]) k0 k1 k2 (optBreak_some k3) k4 (optBreak_some k5) k6 (breaks_cons k7 (breaks_cons k8 (breaks_cons k9 (breaks_cons k10 (breaks_cons k11 (breaks_cons k12 (breaks_cons k13 breaks_nil))))))) (by simp)⟩

theorem r_157 : RuleOK ⟨N.«decorator», [T.«AT», T.«__ANON_2», T.«LPAR», T.«_CPP_COMMENT_NL», N.«value_brackets», T.«RPAR»], "decorator", false, [(1, false, 0), (4, false, 0)], 0⟩ := by
  refine ruleOK_node ?_
  intro cs w n l h hc hl
  obtain ⟨c0, cs, w0, w, rfl, rfl, h0, h⟩ := fitsW_cons.mp h
  obtain ⟨c1, cs, w1, w, rfl, rfl, h1, h⟩ := fitsW_cons.mp h
  obtain ⟨c2, cs, w2, w, rfl, rfl, h2, h⟩ := fitsW_cons.mp h
  obtain ⟨c3, cs, w3, w, rfl, rfl, h3, h⟩ := fitsW_cons.mp h
  obtain ⟨c4, cs, w4, w, rfl, rfl, h4, h⟩ := fitsW_cons.mp h
  obtain ⟨c5, rfl, h5⟩ := fitsW_one.mp h
  rename' w => w5
  obtain ⟨u0, rfl, rfl, k0⟩ := shw_AT h0
  obtain ⟨x1, u1, rfl, rfl, k1⟩ := shw___ANON_2 h1
  obtain ⟨u2, rfl, rfl, k2⟩ := shw_LPAR h2
  obtain ⟨u3, rfl, k3⟩ := shw__CPP_COMMENT_NL h3
  obtain ⟨x4, rfl, k4⟩ := h4
  obtain ⟨u5, rfl, rfl, k5⟩ := shw_RPAR h5
  exact ⟨⟨x1, some x4⟩, rfl, .arg (w1 := [u3]) (w3 := []) (w4 := []) k0 k1 k2 (optBreak_some k3) k4 optBreak_none k5 breaks_nil (by simp)⟩

theorem r_161 : RuleOK ⟨N.«decorator», [T.«AT», T.«__ANON_2», T.«LPAR», T.«_CPP_COMMENT_NL», N.«value_brackets», T.«RPAR», T.«_CPP_COMMENT_NL», T.«_CPP_COMMENT_NL», T.«_CPP_COMMENT_NL», T.«_CPP_COMMENT_NL»], "decorator", false, [(1, false, 0), (4, false, 0)], 0⟩ := by
  refine ruleOK_node ?_
  intro cs w n l h hc hl
  obtain ⟨c0, cs, w0, w, rfl, rfl, h0, h⟩ := fitsW_cons.mp h
  obtain ⟨c1, cs, w1, w, rfl, rfl, h1, h⟩ := fitsW_cons.mp h
  obtain ⟨c2, cs, w2, w, rfl, rfl, h2, h⟩ := fitsW_cons.mp h
  obtain ⟨c3, cs, w3, w, rfl, rfl, h3, h⟩ := fitsW_cons.mp h
  obtain ⟨c4, cs, w4, w, rfl, rfl, h4, h⟩ := fitsW_cons.mp h
  obtain ⟨c5, cs, w5, w, rfl, rfl, h5, h⟩ := fitsW_cons.mp h
  obtain ⟨c6, cs, w6, w, rfl, rfl, h6, h⟩ := fitsW_cons.mp h
  obtain ⟨c7, cs, w7, w, rfl, rfl, h7, h⟩ := fitsW_cons.mp h
  obtain ⟨c8, cs, w8, w, rfl, rfl, h8, h⟩ := fitsW_cons.mp h
  obtain ⟨c9, rfl, h9⟩ := fitsW_one.mp h
  rename' w => w9
  obtain ⟨u0, rfl, rfl, k0⟩ := shw_AT h0
  obtain ⟨x1, u1, rfl, rfl, k1⟩ := shw___ANON_2 h1
  obtain ⟨u2, rfl, rfl, k2⟩ := shw_LPAR h2
  obtain ⟨u3, rfl, k3⟩ := shw__CPP_COMMENT_NL h3
  obtain ⟨x4, rfl, k4⟩ := h4
  obtain ⟨u5, rfl, rfl, k5⟩ := shw_RPAR h5
  obtain ⟨u6, rfl, k6⟩ := shw__CPP_COMMENT_NL h6
  obtain ⟨u7, rfl, k7⟩ := shw__CPP_COMMENT_NL h7
  obtain ⟨u8, rfl, k8⟩ := shw__CPP_COMMENT_NL h8
  obtain ⟨u9, rfl, k9⟩ := shw__CPP_COMMENT_NL h9
  exact ⟨⟨x1, some x4⟩, rfl, .arg (w1 := [u3]) (w3 := []) (w4 := [u6, u7, u8, u9]) k0 k1 k2 (optBreak_some k3) k4 optBreak_none k5 (breaks_cons k6 (breaks_cons k7 (breaks_cons k8 (breaks_cons k9 breaks_nil)))) (by simp)⟩

theorem r_165 : RuleOK ⟨N.«decorator», [T.«AT», T.«__ANON_2», T.«LPAR», T.«_CPP_COMMENT_NL», N.«value_brackets», T.«RPAR», T.«_CPP_COMMENT_NL», T.«_CPP_COMMENT_NL», T.«_CPP_COMMENT_NL», T.«_CPP_COMMENT_NL», T.«_CPP_COMMENT_NL», T.«_CPP_COMMENT_NL», T.«_CPP_COMMENT_NL», T.«_CPP_COMMENT_NL»], "decorator", false, [(1, false, 0), (4, false, 0)], 0⟩ := by
  refine ruleOK_node ?_
  intro cs w n l h hc hl
  obtain ⟨c0, cs, w0, w, rfl, rfl, h0, h⟩ := fitsW_cons.mp h
  obtain ⟨c1, cs, w1, w, rfl, rfl, h1, h⟩ := fitsW_cons.mp h
  obtain ⟨c2, cs, w2, w, rfl, rfl, h2, h⟩ := fitsW_cons.mp h
  obtain ⟨c3, cs, w3, w, rfl, rfl, h3, h⟩ := fitsW_cons.mp h
  obtain ⟨c4, cs, w4, w, rfl, rfl, h4, h⟩ := fitsW_cons.mp h
  obtain ⟨c5, cs, w5, w, rfl, rfl, h5, h⟩ := fitsW_cons.mp h
  obtain ⟨c6, cs, w6, w, rfl, rfl, h6, h⟩ := fitsW_cons.mp h
  obtain ⟨c7, cs, w7, w, rfl, rfl, h7, h⟩ := fitsW_cons.mp h
  obtain ⟨c8, cs, w8, w, rfl, rfl, h8, h⟩ := fitsW_cons.mp h
  obtain ⟨c9, cs, w9, w, rfl, rfl, h9, h⟩ := fitsW_cons.mp h
  obtain ⟨c10, cs, w10, w, rfl, rfl, h10, h⟩ := fitsW_cons.mp h
  obtain ⟨c11, cs, w11, w, rfl, rfl, h11, h⟩ := fitsW_cons.mp h
  obtain ⟨c12, cs, w12, w, rfl, rfl, h12, h⟩ := fitsW_cons.mp h
  obtain ⟨c13, rfl, h13⟩ := fitsW_one.mp h
  rename' w => w13
  obtain ⟨u0, rfl, rfl, k0⟩ := shw_AT h0
  obtain ⟨x1, u1, rfl, rfl, k1⟩ := shw___ANON_2 h1
  obtain ⟨u2, rfl, rfl, k2⟩ := shw_LPAR h2
  obtain ⟨u3, rfl, k3⟩ := shw__CPP_COMMENT_NL h3
  obtain ⟨x4, rfl, k4⟩ := h4
  obtain ⟨u5, rfl, rfl, k5⟩ := shw_RPAR h5
  obtain ⟨u6, rfl, k6⟩ := shw__CPP_COMMENT_NL h6
  obtain ⟨u7, rfl, k7⟩ := shw__CPP_COMMENT_NL h7
  obtain ⟨u8, rfl, k8⟩ := shw__CPP_COMMENT_NL h8
  obtain ⟨u9, rfl, k9⟩ := shw__CPP_COMMENT_NL h9
  obtain ⟨u10, rfl, k10⟩ := shw__CPP_COMMENT_NL h10
  obtain ⟨u11, rfl, k11⟩ := shw__CPP_COMMENT_NL h11
  obtain ⟨u12, rfl, k12⟩ := shw__CPP_COMMENT_NL h12
  obtain ⟨u13, rfl, k13⟩ := shw__CPP_COMMENT_NL h13
  exact ⟨⟨x1, some x4⟩, rfl, .arg (w1 := [u3]) (w3 := []) (w4 := [u6, u7, u8, u9, u10, u11, u12, u13]) k0 k1 k2 (optBreak_some k3) k4 optBreak_none k5 (breaks_cons k6 (breaks_cons k7 (breaks_cons k8 (breaks_cons k9 (breaks_cons k10 (breaks_cons k11 (breaks_cons k12 (breaks_cons k13 breaks_nil)))))))) (by simp)⟩

theorem r_169 : RuleOK ⟨N.«decorator», [T.«AT», T.«__ANON_2», T.«LPAR», T.«_CPP_COMMENT_NL», T.«_CPP_COMMENT_NL», T.«RPAR», T.«_CPP_COMMENT_NL»], "decorator", false, [(1, false, 0)], 0⟩ := by
  refine ruleOK_node ?_
  intro cs w n l h hc hl
  obtain ⟨c0, cs, w0, w, rfl, rfl, h0, h⟩ := fitsW_cons.mp h
  obtain ⟨c1, cs, w1, w, rfl, rfl, h1, h⟩ := fitsW_cons.mp h
  obtain ⟨c2, cs, w2, w, rfl, rfl, h2, h⟩ := fitsW_cons.mp h
  obtain ⟨c3, cs, w3, w, rfl, rfl, h3, h⟩ := fitsW_cons.mp h
  obtain ⟨c4, cs, w4, w, rfl, rfl, h4, h⟩ := fitsW_cons.mp h
  obtain ⟨c5, cs, w5, w, rfl, rfl, h5, h⟩ := fitsW_cons.mp h
  obtain ⟨c6, rfl, h6⟩ := fitsW_one.mp h
  rename' w => w6
  obtain ⟨u0, rfl, rfl, k0⟩ := shw_AT h0
  obtain ⟨x1, u1, rfl, rfl, k1⟩ := shw___ANON_2 h1
  obtain ⟨u2, rfl, rfl, k2⟩ := shw_LPAR h2
  obtain ⟨u3, rfl, k3⟩ := shw__CPP_COMMENT_NL h3
  obtain ⟨u4, rfl, k4⟩ := shw__CPP_COMMENT_NL h4
  obtain ⟨u5, rfl, rfl, k5⟩ := shw_RPAR h5
  obtain ⟨u6, rfl, k6⟩ := shw__CPP_COMMENT_NL h6
  exact ⟨⟨x1, .none⟩, rfl, .noArg (w1 := [u3, u4]) (w2 := [u6]) k0 k1 k2 (breaks_cons k3 (breaks_cons k4 breaks_nil)) (by simp) k5 (breaks_cons k6 breaks_nil) (by simp)⟩

theorem r_173 : RuleOK ⟨N.«decorator», [T.«AT», T.«__ANON_2», T.«LPAR», T.«_CPP_COMMENT_NL», T.«_CPP_COMMENT_NL», T.«RPAR», T.«_CPP_COMMENT_NL», T.«_CPP_COMMENT_NL», T.«_CPP_COMMENT_NL», T.«_CPP_COMMENT_NL», T.«_CPP_COMMENT_NL»], "decorator", false, [(1, false, 0)], 0⟩ := by
  refine ruleOK_node ?_
  intro cs w n l h hc hl
  obtain ⟨c0, cs, w0, w, rfl, rfl, h0, h⟩ := fitsW_cons.mp h
  obtain ⟨c1, cs, w1, w, rfl, rfl, h1, h⟩ := fitsW_cons.mp h
  obtain ⟨c2, cs, w2, w, rfl, rfl, h2, h⟩ := fitsW_cons.mp h
  obtain ⟨c3, cs, w3, w, rfl, rfl, h3, h⟩ := fitsW_cons.mp h
  obtain ⟨c4, cs, w4, w, rfl, rfl, h4, h⟩ := fitsW_cons.mp h
  obtain ⟨c5, cs, w5, w, rfl, rfl, h5, h⟩ := fitsW_cons.mp h
  obtain ⟨c6, cs, w6, w, rfl, rfl, h6, h⟩ := fitsW_cons.mp h
  obtain ⟨c7, cs, w7, w, rfl, rfl, h7, h⟩ := fitsW_cons.mp h
  obtain ⟨c8, cs, w8, w, rfl, rfl, h8, h⟩ := fitsW_cons.mp h
  obtain ⟨c9, cs, w9, w, rfl, rfl, h9, h⟩ := fitsW_cons.mp h
  obtain ⟨c10, rfl, h10⟩ := fitsW_one.mp h
  rename' w => w10
  obtain ⟨u0, rfl, rfl, k0⟩ := shw_AT h0
  obtain ⟨x1, u1, rfl, rfl, k1⟩ := shw___ANON_2 h1
  obtain ⟨u2, rfl, rfl, k2⟩ := shw_LPAR h2
  obtain ⟨u3, rfl, k3⟩ := shw__CPP_COMMENT_NL h3
  obtain ⟨u4, rfl, k4⟩ := shw__CPP_COMMENT_NL h4
  obtain ⟨u5, rfl, rfl, k5⟩ := shw_RPAR h5
  obtain ⟨u6, rfl, k6⟩ := shw__CPP_COMMENT_NL h6
  obtain ⟨u7, rfl, k7⟩ := shw__CPP_COMMENT_NL h7
  obtain ⟨u8, rfl, k8⟩ := shw__CPP_COMMENT_NL h8
  obtain ⟨u9, rfl, k9⟩ := shw__CPP_COMMENT_NL h9
  obtain ⟨u10, rfl, k10⟩ := shw__CPP_COMMENT_NL h10
  exact ⟨⟨x1, .none⟩, rfl, .noArg (w1 := [u3, u4]) (w2 := [u6, u7, u8, u9, u10]) k0 k1 k2 (breaks_cons k3 (breaks_cons k4 breaks_nil)) (by simp) k5 (breaks_cons k6 (breaks_cons k7 (breaks_cons k8 (breaks_cons k9 (breaks_cons k10 breaks_nil))))) (by simp)⟩

theorem r_177 : RuleOK ⟨N.«decorator», [T.«AT», T.«__ANON_2», T.«LPAR», T.«_CPP_COMMENT_NL», T.«_CPP_COMMENT_NL», T.«RPAR», T.«_CPP_COMMENT_NL», T.«_CPP_COMMENT_NL», T.«_CPP_COMMENT_NL», T.«_CPP_COMMENT_NL», T.«_CPP_COMMENT_NL», T.«_CPP_COMMENT_NL», T.«_CPP_COMMENT_NL», T.«_CPP_COMMENT_NL», T.«_CPP_COMMENT_NL»], "decorator", false, [(1, false, 0)], 0⟩ := by
  refine ruleOK_node ?_
  intro cs w n l h hc hl
  obtain ⟨c0, cs, w0, w, rfl, rfl, h0, h⟩ := fitsW_cons.mp h
  obtain ⟨c1, cs, w1, w, rfl, rfl, h1, h⟩ := fitsW_cons.mp h
  obtain ⟨c2, cs, w2, w, rfl, rfl, h2, h⟩ := fitsW_cons.mp h
  obtain ⟨c3, cs, w3, w, rfl, rfl, h3, h⟩ := fitsW_cons.mp h
  obtain ⟨c4, cs, w4, w, rfl, rfl, h4, h⟩ := fitsW_cons.mp h
  obtain ⟨c5, cs, w5, w, rfl, rfl, h5, h⟩ := fitsW_cons.mp h
  obtain ⟨c6, cs, w6, w, rfl, rfl, h6, h⟩ := fitsW_cons.mp h
  obtain ⟨c7, cs, w7, w, rfl, rfl, h7, h⟩ := fitsW_cons.mp h
  obtain ⟨c8, cs, w8, w, rfl, rfl, h8, h⟩ := fitsW_cons.mp h
  obtain ⟨c9, cs, w9, w, rfl, rfl, h9, h⟩ := fitsW_cons.mp h
  obtain ⟨c10, cs, w10, w, rfl, rfl, h10, h⟩ := fitsW_cons.mp h
  obtain ⟨c11, cs, w11, w, rfl, rfl, h11, h⟩ := fitsW_cons.mp h
  obtain ⟨c12, cs, w12, w, rfl, rfl, h12, h⟩ := fitsW_cons.mp h
  obtain ⟨c13, cs, w13, w, rfl, rfl, h13, h⟩ := fitsW_cons.mp h
  obtain ⟨c14, rfl, h14⟩ := fitsW_one.mp h
  rename' w => w14
  obtain ⟨u0, rfl, rfl, k0⟩ := shw_AT h0
  obtain ⟨x1, u1, rfl, rfl, k1⟩ := shw___ANON_2 h1
  obtain ⟨u2, rfl, rfl, k2⟩ := shw_LPAR h2
  obtain ⟨u3, rfl, k3⟩ := shw__CPP_COMMENT_NL h3
  obtain ⟨u4, rfl, k4⟩ := shw__CPP_COMMENT_NL h4
  obtain ⟨u5, rfl, rfl, k5⟩ := shw_RPAR h5
  obtain ⟨u6, rfl, k6⟩ := shw__CPP_COMMENT_NL h6
  obtain ⟨u7, rfl, k7⟩ := shw__CPP_COMMENT_NL h7
  obtain ⟨u8, rfl, k8⟩ := shw__CPP_COMMENT_NL h8
  obtain ⟨u9, rfl, k9⟩ := shw__CPP_COMMENT_NL h9
  obtain ⟨u10, rfl, k10⟩ := shw__CPP_COMMENT_NL h10
  obtain ⟨u11, rfl, k11⟩ := shw__CPP_COMMENT_NL h11
  obtain ⟨u12, rfl, k12⟩ := shw__CPP_COMMENT_NL h12
  obtain ⟨u13, rfl, k13⟩ := shw__CPP_COMMENT_NL h13
  obtain ⟨u14, rfl, k14⟩ := shw__CPP_COMMENT_NL h14
  exact ⟨⟨x1, .none⟩, rfl, .noArg (w1 := [u3, u4]) (w2 := [u6, u7, u8, u9, u10, u11, u12, u13, u14]) k0 k1 k2 (breaks_cons k3 (breaks_cons k4 breaks_nil)) (by simp) k5 (breaks_cons k6 (breaks_cons k7 (breaks_cons k8 (breaks_cons k9 (breaks_cons k10 (breaks_cons k11 (breaks_cons k12 (breaks_cons k13 (breaks_cons k14 breaks_nil))))))))) (by simp)⟩

theorem r_181 : RuleOK ⟨N.«decorator», [T.«AT», T.«__ANON_2», T.«LPAR», T.«_CPP_COMMENT_NL», T.«RPAR», T.«_CPP_COMMENT_NL», T.«_CPP_COMMENT_NL»], "decorator", false, [(1, false, 0)], 0⟩ := by
  refine ruleOK_node ?_
  intro cs w n l h hc hl
  obtain ⟨c0, cs, w0, w, rfl, rfl, h0, h⟩ := fitsW_cons.mp h
  obtain ⟨c1, cs, w1, w, rfl, rfl, h1, h⟩ := fitsW_cons.mp h
  obtain ⟨c2, cs, w2, w, rfl, rfl, h2, h⟩ := fitsW_cons.mp h
  obtain ⟨c3, cs, w3, w, rfl, rfl, h3, h⟩ := fitsW_cons.mp h
  obtain ⟨c4, cs, w4, w, rfl, rfl, h4, h⟩ := fitsW_cons.mp h
  obtain ⟨c5, cs, w5, w, rfl, rfl, h5, h⟩ := fitsW_cons.mp h
  obtain ⟨c6, rfl, h6⟩ := fitsW_one.mp h
  rename' w => w6
  obtain ⟨u0, rfl, rfl, k0⟩ := shw_AT h0
  obtain ⟨x1, u1, rfl, rfl, k1⟩ := shw___ANON_2 h1
  obtain ⟨u2, rfl, rfl, k2⟩ := shw_LPAR h2
  obtain ⟨u3, rfl, k3⟩ := shw__CPP_COMMENT_NL h3
  obtain ⟨u4, rfl, rfl, k4⟩ := shw_RPAR h4
  obtain ⟨u5, rfl, k5⟩ := shw__CPP_COMMENT_NL h5
  obtain ⟨u6, rfl, k6⟩ := shw__CPP_COMMENT_NL h6
  exact ⟨⟨x1, .none⟩, rfl, .noArg (w1 := [u3]) (w2 := [u5, u6]) k0 k1 k2 (breaks_cons k3 breaks_nil) (by simp) k4 (breaks_cons k5 (breaks_cons k6 breaks_nil)) (by simp)⟩

theorem r_185 : RuleOK ⟨N.«decorator», [T.«AT», T.«__ANON_2», T.«LPAR», T.«_CPP_COMMENT_NL», T.«RPAR», T.«_CPP_COMMENT_NL», T.«_CPP_COMMENT_NL», T.«_CPP_COMMENT_NL», T.«_CPP_COMMENT_NL», T.«_CPP_COMMENT_NL», T.«_CPP_COMMENT_NL»], "decorator", false, [(1, false, 0)], 0⟩ := by
  refine ruleOK_node ?_
  intro cs w n l h hc hl
  obtain ⟨c0, cs, w0, w, rfl, rfl, h0, h⟩ := fitsW_cons.mp h
  obtain ⟨c1, cs, w1, w, rfl, rfl, h1, h⟩ := fitsW_cons.mp h
  obtain ⟨c2, cs, w2, w, rfl, rfl, h2, h⟩ := fitsW_cons.mp h
  obtain ⟨c3, cs, w3, w, rfl, rfl, h3, h⟩ := fitsW_cons.mp h
  obtain ⟨c4, cs, w4, w, rfl, rfl, h4, h⟩ := fitsW_cons.mp h
  obtain ⟨c5, cs, w5, w, rfl, rfl, h5, h⟩ := fitsW_cons.mp h
  obtain ⟨c6, cs, w6, w, rfl, rfl, h6, h⟩ := fitsW_cons.mp h
  obtain ⟨c7, cs, w7, w, rfl, rfl, h7, h⟩ := fitsW_cons.mp h
  obtain ⟨c8, cs, w8, w, rfl, rfl, h8, h⟩ := fitsW_cons.mp h
  obtain ⟨c9, cs, w9, w, rfl, rfl, h9, h⟩ := fitsW_cons.mp h
  obtain ⟨c10, rfl, h10⟩ := fitsW_one.mp h
  rename' w => w10
  obtain ⟨u0, rfl, rfl, k0⟩ := shw_AT h0
  obtain ⟨x1, u1, rfl, rfl, k1⟩ := shw___ANON_2 h1
  obtain ⟨u2, rfl, rfl, k2⟩ := shw_LPAR h2
  obtain ⟨u3, rfl, k3⟩ := shw__CPP_COMMENT_NL h3
  obtain ⟨u4, rfl, rfl, k4⟩ := shw_RPAR h4
  obtain ⟨u5, rfl, k5⟩ := shw__CPP_COMMENT_NL h5
  obtain ⟨u6, rfl, k6⟩ := shw__CPP_COMMENT_NL h6
  obtain ⟨u7, rfl, k7⟩ := shw__CPP_COMMENT_NL h7
  obtain ⟨u8, rfl, k8⟩ := shw__CPP_COMMENT_NL h8
  obtain ⟨u9, rfl, k9⟩ := shw__CPP_COMMENT_NL h9
  obtain ⟨u10, rfl, k10⟩ := shw__CPP_COMMENT_NL h10
  exact ⟨⟨x1, .none⟩, rfl, .noArg (w1 := [u3]) (w2 := [u5, u6, u7, u8, u9, u10]) k0 k1 k2 (breaks_cons k3 breaks_nil) (by simp) k4 (breaks_cons k5 (breaks_cons k6 (breaks_cons k7 (breaks_cons k8 (breaks_cons k9 (breaks_cons k10 breaks_nil)))))) (by simp)⟩

theorem r_189 : RuleOK ⟨N.«decorator», [T.«AT», T.«__ANON_2», T.«LPAR», T.«_CPP_COMMENT_NL», T.«RPAR», T.«_CPP_COMMENT_NL», T.«_CPP_COMMENT_NL», T.«_CPP_COMMENT_NL», T.«_CPP_COMMENT_NL», T.«_CPP_COMMENT_NL», T.«_CPP_COMMENT_NL», T.«_CPP_COMMENT_NL», T.«_CPP_COMMENT_NL», T.«_CPP_COMMENT_NL», T.«_CPP_COMMENT_NL»], "decorator", false, [(1, false, 0)], 0⟩ := by
  refine ruleOK_node ?_
  intro cs w n l h hc hl
  obtain ⟨c0, cs, w0, w, rfl, rfl, h0, h⟩ := fitsW_cons.mp h
  obtain ⟨c1, cs, w1, w, rfl, rfl, h1, h⟩ := fitsW_cons.mp h
  obtain ⟨c2, cs, w2, w, rfl, rfl, h2, h⟩ := fitsW_cons.mp h
  obtain ⟨c3, cs, w3, w, rfl, rfl, h3, h⟩ := fitsW_cons.mp h
  obtain ⟨c4, cs, w4, w, rfl, rfl, h4, h⟩ := fitsW_cons.mp h
  obtain ⟨c5, cs, w5, w, rfl, rfl, h5, h⟩ := fitsW_cons.mp h
  obtain ⟨c6, cs, w6, w, rfl, rfl, h6, h⟩ := fitsW_cons.mp h
  obtain ⟨c7, cs, w7, w, rfl, rfl, h7, h⟩ := fitsW_cons.mp h
  obtain ⟨c8, cs, w8, w, rfl, rfl, h8, h⟩ := fitsW_cons.mp h
  obtain ⟨c9, cs, w9, w, rfl, rfl, h9, h⟩ := fitsW_cons.mp h
  obtain ⟨c10, cs, w10, w, rfl, rfl, h10, h⟩ := fitsW_cons.mp h
  obtain ⟨c11, cs, w11, w, rfl, rfl, h11, h⟩ := fitsW_cons.mp h
  obtain ⟨c12, cs, w12, w, rfl, rfl, h12, h⟩ := fitsW_cons.mp h
  obtain ⟨c13, cs, w13, w, rfl, rfl, h13, h⟩ := fitsW_cons.mp h
  obtain ⟨c14, rfl, h14⟩ := fitsW_one.mp h
  rename' w => w14
  obtain ⟨u0, rfl, rfl, k0⟩ := shw_AT h0
  obtain ⟨x1, u1, rfl, rfl, k1⟩ := shw___ANON_2 h1
  obtain ⟨u2, rfl, rfl, k2⟩ := shw_LPAR h2
  obtain ⟨u3, rfl, k3⟩ := shw__CPP_COMMENT_NL h3
  obtain ⟨u4, rfl, rfl, k4⟩ := shw_RPAR h4
  obtain ⟨u5, rfl, k5⟩ := shw__CPP_COMMENT_NL h5
  obtain ⟨u6, rfl, k6⟩ := shw__CPP_COMMENT_NL h6
  obtain ⟨u7, rfl, k7⟩ := shw__CPP_COMMENT_NL h7
  obtain ⟨u8, rfl, k8⟩ := shw__CPP_COMMENT_NL h8
  obtain ⟨u9, rfl, k9⟩ := shw__CPP_COMMENT_NL h9
  obtain ⟨u10, rfl, k10⟩ := shw__CPP_COMMENT_NL h10
  obtain ⟨u11, rfl, k11⟩ := shw__CPP_COMMENT_NL h11
  obtain ⟨u12, rfl, k12⟩ := shw__CPP_COMMENT_NL h12
  obtain ⟨u13, rfl, k13⟩ := shw__CPP_COMMENT_NL h13
  obtain ⟨u14, rfl, k14⟩ := shw__CPP_COMMENT_NL h14
  exact ⟨⟨x1, .none⟩, rfl, .noArg (w1 := [u3]) (w2 := [u5, u6, u7, u8, u9, u10, u11, u12, u13, u14]) k0 k1 k2 (breaks_cons k3 breaks_nil) (by simp) k4 (breaks_cons k5 (breaks_cons k6 (breaks_cons k7 (breaks_cons k8 (breaks_cons k9 (breaks_cons k10 (breaks_cons k11 (breaks_cons k12 (breaks_cons k13 (breaks_cons k14 breaks_nil)))))))))) (by simp)⟩

theorem r_193 : RuleOK ⟨N.«decorator», [T.«AT», T.«__ANON_2», T.«LPAR», N.«value_brackets», T.«_CPP_COMMENT_NL», T.«RPAR», T.«_CPP_COMMENT_NL», T.«_CPP_COMMENT_NL», T.«_CPP_COMMENT_NL»], "decorator", false, [(1, false, 0), (3, false, 0)], 0⟩ := by
  refine ruleOK_node ?_
  intro cs w n l h hc hl
  obtain ⟨c0, cs, w0, w, rfl, rfl, h0, h⟩ := fitsW_cons.mp h
  obtain ⟨c1, cs, w1, w, rfl, rfl, h1, h⟩ := fitsW_cons.mp h
  obtain ⟨c2, cs, w2, w, rfl, rfl, h2, h⟩ := fitsW_cons.mp h
  obtain ⟨c3, cs, w3, w, rfl, rfl, h3, h⟩ := fitsW_cons.mp h
  obtain ⟨c4, cs, w4, w, rfl, rfl, h4, h⟩ := fitsW_cons.mp h
  obtain ⟨c5, cs, w5, w, rfl, rfl, h5, h⟩ := fitsW_cons.mp h
  obtain ⟨c6, cs, w6, w, rfl, rfl, h6, h⟩ := fitsW_cons.mp h
  obtain ⟨c7, cs, w7, w, rfl, rfl, h7, h⟩ := fitsW_cons.mp h
  obtain ⟨c8, rfl, h8⟩ := fitsW_one.mp h
  rename' w => w8
  obtain ⟨u0, rfl, rfl, k0⟩ := shw_AT h0
  obtain ⟨x1, u1, rfl, rfl, k1⟩ := shw___ANON_2 h1
  obtain ⟨u2, rfl, rfl, k2⟩ := shw_LPAR h2
  obtain ⟨x3, rfl, k3⟩ := h3
  obtain ⟨u4, rfl, k4⟩ := shw__CPP_COMMENT_NL h4
  obtain ⟨u5, rfl, rfl, k5⟩ := shw_RPAR h5
  obtain ⟨u6, rfl, k6⟩ := shw__CPP_COMMENT_NL h6
  obtain ⟨u7, rfl, k7⟩ := shw__CPP_COMMENT_NL h7
  obtain ⟨u8, rfl, k8⟩ := shw__CPP_COMMENT_NL h8
  exact ⟨⟨x1, some x3⟩, rfl, .arg (w1 := []) (w3 := [u4]) (w4 := [u6, u7, u8]) k0 k1 k2 optBreak_none k3 (optBreak_some k4) k5 (breaks_cons k6 (breaks_cons k7 (breaks_cons k8 breaks_nil))) (by simp)⟩

theorem r_197 : RuleOK ⟨N.«decorator», [T.«AT», T.«__ANON_2», T.«LPAR», N.«value_brackets», T.«_CPP_COMMENT_NL», T.«RPAR», T.«_CPP_COMMENT_NL», T.«_CPP_COMMENT_NL», T.«_CPP_COMMENT_NL», T.«_CPP_COMMENT_NL», T.«_CPP_COMMENT_NL», T.«_CPP_COMMENT_NL», T.«_CPP_COMMENT_NL»], "decorator", false, [(1, false, 0), (3, false, 0)], 0⟩ := by
  refine ruleOK_node ?_
  intro cs w n l h hc hl
  obtain ⟨c0, cs, w0, w, rfl, rfl, h0, h⟩ := fitsW_cons.mp h
  obtain ⟨c1, cs, w1, w, rfl, rfl, h1, h⟩ := fitsW_cons.mp h
  obtain ⟨c2, cs, w2, w, rfl, rfl, h2, h⟩ := fitsW_cons.mp h
  obtain ⟨c3, cs, w3, w, rfl, rfl, h3, h⟩ := fitsW_cons.mp h
  obtain ⟨c4, cs, w4, w, rfl, rfl, h4, h⟩ := fitsW_cons.mp h
  obtain ⟨c5, cs, w5, w, rfl, rfl, h5, h⟩ := fitsW_cons.mp h
  obtain ⟨c6, cs, w6, w, rfl, rfl, h6, h⟩ := fitsW_cons.mp h
  obtain ⟨c7, cs, w7, w, rfl, rfl, h7, h⟩ := fitsW_cons.mp h
  obtain ⟨c8, cs, w8, w, rfl, rfl, h8, h⟩ := fitsW_cons.mp h
  obtain ⟨c9, cs, w9, w, rfl, rfl, h9, h⟩ := fitsW_cons.mp h
  obtain ⟨c10, cs, w10, w, rfl, rfl, h10, h⟩ := fitsW_cons.mp h
  obtain ⟨c11, cs, w11, w, rfl, rfl, h11, h⟩ := fitsW_cons.mp h
  obtain ⟨c12, rfl, h12⟩ := fitsW_one.mp h
  rename' w => w12
  obtain ⟨u0, rfl, rfl, k0⟩ := shw_AT h0
  obtain ⟨x1, u1, rfl, rfl, k1⟩ := shw___ANON_2 h1
  obtain ⟨u2, rfl, rfl, k2⟩ := shw_LPAR h2
  obtain ⟨x3, rfl, k3⟩ := h3
  obtain ⟨u4, rfl, k4⟩ := shw__CPP_COMMENT_NL h4
  obtain ⟨u5, rfl, rfl, k5⟩ := shw_RPAR h5
  obtain ⟨u6, rfl, k6⟩ := shw__CPP_COMMENT_NL h6
  obtain ⟨u7, rfl, k7⟩ := shw__CPP_COMMENT_NL h7
  obtain ⟨u8, rfl, k8⟩ := shw__CPP_COMMENT_NL h8
  obtain ⟨u9, rfl, k9⟩ := shw__CPP_COMMENT_NL h9
  obtain ⟨u10, rfl, k10⟩ := shw__CPP_COMMENT_NL h10
  obtain ⟨u11, rfl, k11⟩ := shw__CPP_COMMENT_NL h11
  obtain ⟨u12, rfl, k12⟩ := shw__CPP_COMMENT_NL h12
  exact ⟨⟨x1, some x3⟩, rfl, .arg (w1 := []) (w3 := [u4]) (w4 := [u6, u7, u8, u9, u10, u11, u12]) k0 k1 k2 optBreak_none k3 (optBreak_some k4) k5 (breaks_cons k6 (breaks_cons k7 (breaks_cons k8 (breaks_cons k9 (breaks_cons k10 (breaks_cons k11 (breaks_cons k12 breaks_nil))))))) (by simp)⟩

theorem r_201 : RuleOK ⟨N.«decorator», [T.«AT», T.«__ANON_2», T.«LPAR», N.«value_brackets», T.«RPAR»], "decorator", false, [(1, false, 0), (3, false, 0)], 0⟩ := by
  refine ruleOK_node ?_
  intro cs w n l h hc hl
  obtain ⟨c0, cs, w0, w, rfl, rfl, h0, h⟩ := fitsW_cons.mp h
  obtain ⟨c1, cs, w1, w, rfl, rfl, h1, h⟩ := fitsW_cons.mp h
  obtain ⟨c2, cs, w2, w, rfl, rfl, h2, h⟩ := fitsW_cons.mp h
  obtain ⟨c3, cs, w3, w, rfl, rfl, h3, h⟩ := fitsW_cons.mp h
  obtain ⟨c4, rfl, h4⟩ := fitsW_one.mp h
  rename' w => w4
  obtain ⟨u0, rfl, rfl, k0⟩ := shw_AT h0
  obtain ⟨x1, u1, rfl, rfl, k1⟩ := shw___ANON_2 h1
  obtain ⟨u2, rfl, rfl, k2⟩ := shw_LPAR h2
  obtain ⟨x3, rfl, k3⟩ := h3
  obtain ⟨u4, rfl, rfl, k4⟩ := shw_RPAR h4
  exact ⟨⟨x1, some x3⟩, rfl, .arg (w1 := []) (w3 := []) (w4 := []) k0 k1 k2 optBreak_none k3 optBreak_none k4 breaks_nil (by simp)⟩

theorem r_205 : RuleOK ⟨N.«decorator», [T.«AT», T.«__ANON_2», T.«LPAR», N.«value_brackets», T.«RPAR», T.«_CPP_COMMENT_NL», T.«_CPP_COMMENT_NL», T.«_CPP_COMMENT_NL», T.«_CPP_COMMENT_NL»], "decorator", false, [(1, false, 0), (3, false, 0)], 0⟩ := by
  refine ruleOK_node ?_
  intro cs w n l h hc hl
  obtain ⟨c0, cs, w0, w, rfl, rfl, h0, h⟩ := fitsW_cons.mp h
  obtain ⟨c1, cs, w1, w, rfl, rfl, h1, h⟩ := fitsW_cons.mp h
  obtain ⟨c2, cs, w2, w, rfl, rfl, h2, h⟩ := fitsW_cons.mp h
  obtain ⟨c3, cs, w3, w, rfl, rfl, h3, h⟩ := fitsW_cons.mp h
  obtain ⟨c4, cs, w4, w, rfl, rfl, h4, h⟩ := fitsW_cons.mp h
  obtain ⟨c5, cs, w5, w, rfl, rfl, h5, h⟩ := fitsW_cons.mp h
  obtain ⟨c6, cs, w6, w, rfl, rfl, h6, h⟩ := fitsW_cons.mp h
  obtain ⟨c7, cs, w7, w, rfl, rfl, h7, h⟩ := fitsW_cons.mp h
  obtain ⟨c8, rfl, h8⟩ := fitsW_one.mp h
  rename' w => w8
  obtain ⟨u0, rfl, rfl, k0⟩ := shw_AT h0
  obtain ⟨x1, u1, rfl, rfl, k1⟩ := shw___ANON_2 h1
  obtain ⟨u2, rfl, rfl, k2⟩ := shw_LPAR h2
  obtain ⟨x3, rfl, k3⟩ := h3
  obtain ⟨u4, rfl, rfl, k4⟩ := shw_RPAR h4
  obtain ⟨u5, rfl, k5⟩ := shw__CPP_COMMENT_NL h5
  obtain ⟨u6, rfl, k6⟩ := shw__CPP_COMMENT_NL h6
  obtain ⟨u7, rfl, k7⟩ := shw__CPP_COMMENT_NL h7
  obtain ⟨u8, rfl, k8⟩ := shw__CPP_COMMENT_NL h8
  exact ⟨⟨x1, some x3⟩, rfl, .arg (w1 := []) (w3 := []) (w4 := [u5, u6, u7, u8]) k0 k1 k2 optBreak_none k3 optBreak_none k4 (breaks_cons k5 (breaks_cons k6 (breaks_cons k7 (breaks_cons k8 breaks_nil)))) (by simp)⟩

theorem r_209 : RuleOK ⟨N.«decorator», [T.«AT», T.«__ANON_2», T.«LPAR», N.«value_brackets», T.«RPAR», T.«_CPP_COMMENT_NL», T.«_CPP_COMMENT_NL», T.«_CPP_COMMENT_NL», T.«_CPP_COMMENT_NL», T.«_CPP_COMMENT_NL», T.«_CPP_COMMENT_NL», T.«_CPP_COMMENT_NL», T.«_CPP_COMMENT_NL»], "decorator", false, [(1, false, 0), (3, false, 0)], 0⟩ := by
  refine ruleOK_node ?_
  intro cs w n l h hc hl
  obtain ⟨c0, cs, w0, w, rfl, rfl, h0, h⟩ := fitsW_cons.mp h
  obtain ⟨c1, cs, w1, w, rfl, rfl, h1, h⟩ := fitsW_cons.mp h
  obtain ⟨c2, cs, w2, w, rfl, rfl, h2, h⟩ := fitsW_cons.mp h
  obtain ⟨c3, cs, w3, w, rfl, rfl, h3, h⟩ := fitsW_cons.mp h
  obtain ⟨c4, cs, w4, w, rfl, rfl, h4, h⟩ := fitsW_cons.mp h
  obtain ⟨c5, cs, w5, w, rfl, rfl, h5, h⟩ := fitsW_cons.mp h
  obtain ⟨c6, cs, w6, w, rfl, rfl, h6, h⟩ := fitsW_cons.mp h
  obtain ⟨c7, cs, w7, w, rfl, rfl, h7, h⟩ := fitsW_cons.mp h
  obtain ⟨c8, cs, w8, w, rfl, rfl, h8, h⟩ := fitsW_cons.mp h
  obtain ⟨c9, cs, w9, w, rfl, rfl, h9, h⟩ := fitsW_cons.mp h
  obtain ⟨c10, cs, w10, w, rfl, rfl, h10, h⟩ := fitsW_cons.mp h
  obtain ⟨c11, cs, w11, w, rfl, rfl, h11, h⟩ := fitsW_cons.mp h
  obtain ⟨c12, rfl, h12⟩ := fitsW_one.mp h
  rename' w => w12
  obtain ⟨u0, rfl, rfl, k0⟩ := shw_AT h0
  obtain ⟨x1, u1, rfl, rfl, k1⟩ := shw___ANON_2 h1
  obtain ⟨u2, rfl, rfl, k2⟩ := shw_LPAR h2
  obtain ⟨x3, rfl, k3⟩ := h3
  obtain ⟨u4, rfl, rfl, k4⟩ := shw_RPAR h4
  obtain ⟨u5, rfl, k5⟩ := shw__CPP_COMMENT_NL h5
  obtain ⟨u6, rfl, k6⟩ := shw__CPP_COMMENT_NL h6
  obtain ⟨u7, rfl, k7⟩ := shw__CPP_COMMENT_NL h7
  obtain ⟨u8, rfl, k8⟩ := shw__CPP_COMMENT_NL h8
  obtain ⟨u9, rfl, k9⟩ := shw__CPP_COMMENT_NL h9
  obtain ⟨u10, rfl, k10⟩ := shw__CPP_COMMENT_NL h10
  obtain ⟨u11, rfl, k11⟩ := shw__CPP_COMMENT_NL h11
  obtain ⟨u12, rfl, k12⟩ := shw__CPP_COMMENT_NL h12
  exact ⟨⟨x1, some x3⟩, rfl, .arg (w1 := []) (w3 := []) (w4 := [u5, u6, u7, u8, u9, u10, u11, u12]) k0 k1 k2 optBreak_none k3 optBreak_none k4 (breaks_cons k5 (breaks_cons k6 (breaks_cons k7 (breaks_cons k8 (breaks_cons k9 (breaks_cons k10 (breaks_cons k11 (breaks_cons k12 breaks_nil)))))))) (by simp)⟩

theorem r_213 : RuleOK ⟨N.«decorator», [T.«AT», T.«__ANON_2», T.«LPAR», T.«RPAR», T.«_CPP_COMMENT_NL»], "decorator", false, [(1, false, 0)], 0⟩ := by
  refine ruleOK_node ?_
  intro cs w n l h hc hl
  obtain ⟨c0, cs, w0, w, rfl, rfl, h0, h⟩ := fitsW_cons.mp h
  obtain ⟨c1, cs, w1, w, rfl, rfl, h1, h⟩ := fitsW_cons.mp h
  obtain ⟨c2, cs, w2, w, rfl, rfl, h2, h⟩ := fitsW_cons.mp h
  obtain ⟨c3, cs, w3, w, rfl, rfl, h3, h⟩ := fitsW_cons.mp h
  obtain ⟨c4, rfl, h4⟩ := fitsW_one.mp h
  rename' w => w4
  obtain ⟨u0, rfl, rfl, k0⟩ := shw_AT h0
  obtain ⟨x1, u1, rfl, rfl, k1⟩ := shw___ANON_2 h1
  obtain ⟨u2, rfl, rfl, k2⟩ := shw_LPAR h2
  obtain ⟨u3, rfl, rfl, k3⟩ := shw_RPAR h3
  obtain ⟨u4, rfl, k4⟩ := shw__CPP_COMMENT_NL h4
  exact ⟨⟨x1, .none⟩, rfl, .noArg (w1 := []) (w2 := [u4]) k0 k1 k2 breaks_nil (by simp) k3 (breaks_cons k4 breaks_nil) (by simp)⟩

theorem r_217 : RuleOK ⟨N.«decorator», [T.«AT», T.«__ANON_2», T.«LPAR», T.«RPAR», T.«_CPP_COMMENT_NL», T.«_CPP_COMMENT_NL», T.«_CPP_COMMENT_NL», T.«_CPP_COMMENT_NL», T.«_CPP_COMMENT_NL»], "decorator", false, [(1, false, 0)], 0⟩ := by
  refine ruleOK_node ?_
  intro cs w n l h hc hl
  obtain ⟨c0, cs, w0, w, rfl, rfl, h0, h⟩ := fitsW_cons.mp h
  obtain ⟨c1, cs, w1, w, rfl, rfl, h1, h⟩ := fitsW_cons.mp h
  obtain ⟨c2, cs, w2, w, rfl, rfl, h2, h⟩ := fitsW_cons.mp h
  obtain ⟨c3, cs, w3, w, rfl, rfl, h3, h⟩ := fitsW_cons.mp h
  obtain ⟨c4, cs, w4, w, rfl, rfl, h4, h⟩ := fitsW_cons.mp h
  obtain ⟨c5, cs, w5, w, rfl, rfl, h5, h⟩ := fitsW_cons.mp h
  obtain ⟨c6, cs, w6, w, rfl, rfl, h6, h⟩ := fitsW_cons.mp h
  obtain ⟨c7, cs, w7, w, rfl, rfl, h7, h⟩ := fitsW_cons.mp h
  obtain ⟨c8, rfl, h8⟩ := fitsW_one.mp h
  rename' w => w8
  obtain ⟨u0, rfl, rfl, k0⟩ := shw_AT h0
  obtain ⟨x1, u1, rfl, rfl, k1⟩ := shw___ANON_2 h1
  obtain ⟨u2, rfl, rfl, k2⟩ := shw_LPAR h2
  obtain ⟨u3, rfl, rfl, k3⟩ := shw_RPAR h3
  obtain ⟨u4, rfl, k4⟩ := shw__CPP_COMMENT_NL h4
  obtain ⟨u5, rfl, k5⟩ := shw__CPP_COMMENT_NL h5
  obtain ⟨u6, rfl, k6⟩ := shw__CPP_COMMENT_NL h6
  obtain ⟨u7, rfl, k7⟩ := shw__CPP_COMMENT_NL h7
  obtain ⟨u8, rfl, k8⟩ := shw__CPP_COMMENT_NL h8
  exact ⟨⟨x1, .none⟩, rfl, .noArg (w1 := []) (w2 := [u4, u5, u6, u7, u8]) k0 k1 k2 breaks_nil (by simp) k3 (breaks_cons k4 (breaks_cons k5 (breaks_cons k6 (breaks_cons k7 (breaks_cons k8 breaks_nil))))) (by simp)⟩

theorem r_221 : RuleOK ⟨N.«decorator», [T.«AT», T.«__ANON_2», T.«LPAR», T.«RPAR», T.«_CPP_COMMENT_NL», T.«_CPP_COMMENT_NL», T.«_CPP_COMMENT_NL», T.«_CPP_COMMENT_NL», T.«_CPP_COMMENT_NL», T.«_CPP_COMMENT_NL», T.«_CPP_COMMENT_NL», T.«_CPP_COMMENT_NL», T.«_CPP_COMMENT_NL»], "decorator", false, [(1, false, 0)], 0⟩ := by
  refine ruleOK_node ?_
  intro cs w n l h hc hl
  obtain ⟨c0, cs, w0, w, rfl, rfl, h0, h⟩ := fitsW_cons.mp h
  obtain ⟨c1, cs, w1, w, rfl, rfl, h1, h⟩ := fitsW_cons.mp h
  obtain ⟨c2, cs, w2, w, rfl, rfl, h2, h⟩ := fitsW_cons.mp h
  obtain ⟨c3, cs, w3, w, rfl, rfl, h3, h⟩ := fitsW_cons.mp h
  obtain ⟨c4, cs, w4, w, rfl, rfl, h4, h⟩ := fitsW_cons.mp h
  obtain ⟨c5, cs, w5, w, rfl, rfl, h5, h⟩ := fitsW_cons.mp h
  obtain ⟨c6, cs, w6, w, rfl, rfl, h6, h⟩ := fitsW_cons.mp h
  obtain ⟨c7, cs, w7, w, rfl, rfl, h7, h⟩ := fitsW_cons.mp h
  obtain ⟨c8, cs, w8, w, rfl, rfl, h8, h⟩ := fitsW_cons.mp h
  obtain ⟨c9, cs, w9, w, rfl, rfl, h9, h⟩ := fitsW_cons.mp h
  obtain ⟨c10, cs, w10, w, rfl, rfl, h10, h⟩ := fitsW_cons.mp h
  obtain ⟨c11, cs, w11, w, rfl, rfl, h11, h⟩ := fitsW_cons.mp h
  obtain ⟨c12, rfl, h12⟩ := fitsW_one.mp h
  rename' w => w12
  obtain ⟨u0, rfl, rfl, k0⟩ := shw_AT h0
  obtain ⟨x1, u1, rfl, rfl, k1⟩ := shw___ANON_2 h1
  obtain ⟨u2, rfl, rfl, k2⟩ := shw_LPAR h2
  obtain ⟨u3, rfl, rfl, k3⟩ := shw_RPAR h3
  obtain ⟨u4, rfl, k4⟩ := shw__CPP_COMMENT_NL h4
  obtain ⟨u5, rfl, k5⟩ := shw__CPP_COMMENT_NL h5
  obtain ⟨u6, rfl, k6⟩ := shw__CPP_COMMENT_NL h6
  obtain ⟨u7, rfl, k7⟩ := shw__CPP_COMMENT_NL h7
  obtain ⟨u8, rfl, k8⟩ := shw__CPP_COMMENT_NL h8
  obtain ⟨u9, rfl, k9⟩ := shw__CPP_COMMENT_NL h9
  obtain ⟨u10, rfl, k10⟩ := shw__CPP_COMMENT_NL h10
  obtain ⟨u11, rfl, k11⟩ := shw__CPP_COMMENT_NL h11
  obtain ⟨u12, rfl, k12⟩ := shw__CPP_COMMENT_NL h12
  exact ⟨⟨x1, .none⟩, rfl, .noArg (w1 := []) (w2 := [u4, u5, u6, u7, u8, u9, u10, u11, u12]) k0 k1 k2 breaks_nil (by simp) k3 (breaks_cons k4 (breaks_cons k5 (breaks_cons k6 (breaks_cons k7 (breaks_cons k8 (breaks_cons k9 (breaks_cons k10 (breaks_cons k11 (breaks_cons k12 breaks_nil))))))))) (by simp)⟩

theorem r_225 : RuleOK ⟨N.«function», [T.«FUNCTION», T.«_CPP_COMMENT_NL», N.«value_brackets», N.«__function_star_12», T.«RPAR»], "function", false, [(0, false, 0), (2, false, 0), (3, true, 0)], 0⟩ := by
  refine ruleOK_node ?_
  intro cs w n l h hc hl
  obtain ⟨c0, cs, w0, w, rfl, rfl, h0, h⟩ := fitsW_cons.mp h
  obtain ⟨c1, cs, w1, w, rfl, rfl, h1, h⟩ := fitsW_cons.mp h
  obtain ⟨c2, cs, w2, w, rfl, rfl, h2, h⟩ := fitsW_cons.mp h
  obtain ⟨c3, cs, w3, w, rfl, rfl, h3, h⟩ := fitsW_cons.mp h
  obtain ⟨c4, rfl, h4⟩ := fitsW_one.mp h
  rename' w => w4
  obtain ⟨x0, u0, rfl, rfl, k0⟩ := shw_FUNCTION h0
  obtain ⟨u1, rfl, k1⟩ := shw__CPP_COMMENT_NL h1
  obtain ⟨x2, rfl, k2⟩ := h2
  obtain ⟨x3, q3, k3⟩ := h3
  obtain ⟨u4, rfl, rfl, k4⟩ := shw_RPAR h4
  exact ⟨x0, x2 :: x3, (by simp only [keepKids', List.flatMap_cons, List.flatMap_nil, List.replicate_zero, List.replicate_succ, List.getElem?_cons_zero, List.getElem?_cons_succ, Bool.false_eq_true, if_true, if_false, List.append_nil, List.nil_append, List.cons_append, List.append_assoc, w_kids_mkCore, q3, Expr.tree, Expr.trees] <;> rfl), .args (w1 := [u1]) (w2 := w2) (w3 := w3) (w4 := []) k0 (optBreak_some k1) (by have := k2; simpa only [List.append_assoc, List.nil_append, List.append_nil, List.cons_append, nextT_append, nextT_cons, nextT_nil] using this) k3 optBreak_none k4⟩

theorem r_229 : RuleOK ⟨N.«function», [T.«FUNCTION», T.«_CPP_COMMENT_NL», N.«__function_star_12», T.«RPAR»], "function", false, [(0, false, 0), (2, true, 0)], 0⟩ := by
  refine ruleOK_node ?_
  intro cs w n l h hc hl
  obtain ⟨c0, cs, w0, w, rfl, rfl, h0, h⟩ := fitsW_cons.mp h
  obtain ⟨c1, cs, w1, w, rfl, rfl, h1, h⟩ := fitsW_cons.mp h
  obtain ⟨c2, cs, w2, w, rfl, rfl, h2, h⟩ := fitsW_cons.mp h
  obtain ⟨c3, rfl, h3⟩ := fitsW_one.mp h
  rename' w => w3
  obtain ⟨x0, u0, rfl, rfl, k0⟩ := shw_FUNCTION h0
  obtain ⟨u1, rfl, k1⟩ := shw__CPP_COMMENT_NL h1
  obtain ⟨x2, q2, k2⟩ := h2
  obtain ⟨u3, rfl, rfl, k3⟩ := shw_RPAR h3
  exact ⟨x0, x2, (by simp only [keepKids', List.flatMap_cons, List.flatMap_nil, List.replicate_zero, List.replicate_succ, List.getElem?_cons_zero, List.getElem?_cons_succ, Bool.false_eq_true, if_true, if_false, List.append_nil, List.nil_append, List.cons_append, List.append_assoc, w_kids_mkCore, q2] <;> rfl), .noArg (w1 := [u1]) (w3 := w2) (w4 := []) k0 (optBreak_some k1) k2 optBreak_none k3⟩

theorem r_233 : RuleOK ⟨N.«function», [T.«FUNCTION», N.«value_brackets», N.«__function_star_12», T.«RPAR»], "function", false, [(0, false, 0), (1, false, 0), (2, true, 0)], 0⟩ := by
  refine ruleOK_node ?_
  intro cs w n l h hc hl
  obtain ⟨c0, cs, w0, w, rfl, rfl, h0, h⟩ := fitsW_cons.mp h
  obtain ⟨c1, cs, w1, w, rfl, rfl, h1, h⟩ := fitsW_cons.mp h
  obtain ⟨c2, cs, w2, w, rfl, rfl, h2, h⟩ := fitsW_cons.mp h
  obtain ⟨c3, rfl, h3⟩ := fitsW_one.mp h
  rename' w => w3
  obtain ⟨x0, u0, rfl, rfl, k0⟩ := shw_FUNCTION h0
  obtain ⟨x1, rfl, k1⟩ := h1
  obtain ⟨x2, q2, k2⟩ := h2
  obtain ⟨u3, rfl, rfl, k3⟩ := shw_RPAR h3
  exact ⟨x0, x1 :: x2, (by simp only [keepKids', List.flatMap_cons, List.flatMap_nil, List.replicate_zero, List.replicate_succ, List.getElem?_cons_zero, List.getElem?_cons_succ, Bool.false_eq_true, if_true, if_false, List.append_nil, List.nil_append, List.cons_append, List.append_assoc, w_kids_mkCore, q2, Expr.tree, Expr.trees] <;> rfl), .args (w1 := []) (w2 := w1) (w3 := w2) (w4 := []) k0 optBreak_none (by have := k1; simpa only [List.append_assoc, List.nil_append, List.append_nil, List.cons_append, nextT_append, nextT_cons, nextT_nil] using this) k2 optBreak_none k3⟩

theorem r_237 : RuleOK ⟨N.«function», [T.«FUNCTION», N.«__function_star_12», T.«RPAR»], "function", false, [(0, false, 0), (1, true, 0)], 0⟩ := by
  refine ruleOK_node ?_
  intro cs w n l h hc hl
  obtain ⟨c0, cs, w0, w, rfl, rfl, h0, h⟩ := fitsW_cons.mp h
  obtain ⟨c1, cs, w1, w, rfl, rfl, h1, h⟩ := fitsW_cons.mp h
  obtain ⟨c2, rfl, h2⟩ := fitsW_one.mp h
  rename' w => w2
  obtain ⟨x0, u0, rfl, rfl, k0⟩ := shw_FUNCTION h0
  obtain ⟨x1, q1, k1⟩ := h1
  obtain ⟨u2, rfl, rfl, k2⟩ := shw_RPAR h2
  exact ⟨x0, x1, (by simp only [keepKids', List.flatMap_cons, List.flatMap_nil, List.replicate_zero, List.replicate_succ, List.getElem?_cons_zero, List.getElem?_cons_succ, Bool.false_eq_true, if_true, if_false, List.append_nil, List.nil_append, List.cons_append, List.append_assoc, w_kids_mkCore, q1] <;> rfl), .noArg (w1 := []) (w3 := w1) (w4 := []) k0 optBreak_none k1 optBreak_none k2⟩

theorem r_241 : RuleOK ⟨N.«operator», [N.«operator_numeric»], "operator", false, [(0, false, 0)], 0⟩ := by
  refine ruleOK_node ?_
  intro cs w n l h hc hl
  obtain ⟨c0, rfl, h0⟩ := fitsW_one.mp h
  rename' w => w0
  obtain ⟨x0, q0, k0⟩ := h0
  exact ⟨x0, q0, k0⟩

theorem r_245 : RuleOK ⟨N.«operator_comparison», [N.«less_than_or_equals»], "operator_comparison", true, [(0, false, 0)], 0⟩ := by
  refine ruleOK_ex ?_
  intro cs w n h hc
  obtain ⟨c0, rfl, h0⟩ := fitsW_one.mp h
  rename' w => w0
  obtain ⟨x0, q0, k0⟩ := h0
  exact ⟨_, rfl, w_op_nometa q0, x0, q0, k0⟩

theorem r_249 : RuleOK ⟨N.«operator_comparison», [N.«equals_case_insens»], "operator_comparison", true, [(0, false, 0)], 0⟩ := by
  refine ruleOK_ex ?_
  intro cs w n h hc
  obtain ⟨c0, rfl, h0⟩ := fitsW_one.mp h
  rename' w => w0
  obtain ⟨x0, q0, k0⟩ := h0
  exact ⟨_, rfl, w_op_nometa q0, x0, q0, k0⟩

theorem r_253 : RuleOK ⟨N.«less_than_or_equals», [N.«value_brackets», T.«__ANON_4», N.«value_brackets»], "less_than_or_equals", false, [(0, false, 0), (2, false, 0)], 0⟩ := by
  refine ruleOK_node ?_
  intro cs w n l h hc hl
  obtain ⟨c0, cs, w0, w, rfl, rfl, h0, h⟩ := fitsW_cons.mp h
  obtain ⟨c1, cs, w1, w, rfl, rfl, h1, h⟩ := fitsW_cons.mp h
  obtain ⟨c2, rfl, h2⟩ := fitsW_one.mp h
  rename' w => w2
  obtain ⟨x0, rfl, k0⟩ := h0
  obtain ⟨u1, rfl, rfl, k1⟩ := shw___ANON_4 h1
  obtain ⟨x2, rfl, k2⟩ := h2
  exact ⟨.bin .le x0 x2, rfl, .bin rfl k0 k1 k2 (hc.noInfix rfl)⟩

theorem r_257 : RuleOK ⟨N.«equals_case_insens», [N.«value_brackets», T.«__ANON_7», N.«value_brackets»], "equals_case_insens", false, [(0, false, 0), (2, false, 0)], 0⟩ := by
  refine ruleOK_node ?_
  intro cs w n l h hc hl
  obtain ⟨c0, cs, w0, w, rfl, rfl, h0, h⟩ := fitsW_cons.mp h
  obtain ⟨c1, cs, w1, w, rfl, rfl, h1, h⟩ := fitsW_cons.mp h
  obtain ⟨c2, rfl, h2⟩ := fitsW_one.mp h
  rename' w => w2
  obtain ⟨x0, rfl, k0⟩ := h0
  obtain ⟨u1, rfl, rfl, k1⟩ := shw___ANON_7 h1
  obtain ⟨x2, rfl, k2⟩ := h2
  exact ⟨.bin .eqi x0 x2, rfl, .bin rfl k0 k1 k2 (hc.noInfix rfl)⟩

theorem r_261 : RuleOK ⟨N.«operator_logical», [N.«not_op»], "operator_logical", true, [(0, false, 0)], 0⟩ := by
  refine ruleOK_ex ?_
  intro cs w n h hc
  obtain ⟨c0, rfl, h0⟩ := fitsW_one.mp h
  rename' w => w0
  obtain ⟨x0, q0, k0⟩ := h0
  exact ⟨_, rfl, w_op_nometa q0, x0, q0, k0⟩

theorem r_265 : RuleOK ⟨N.«or_op», [N.«value_brackets», T.«__ANON_10», N.«value_brackets»], "or_op", false, [(0, false, 0), (2, false, 0)], 0⟩ := by
  refine ruleOK_node ?_
  intro cs w n l h hc hl
  obtain ⟨c0, cs, w0, w, rfl, rfl, h0, h⟩ := fitsW_cons.mp h
  obtain ⟨c1, cs, w1, w, rfl, rfl, h1, h⟩ := fitsW_cons.mp h
  obtain ⟨c2, rfl, h2⟩ := fitsW_one.mp h
  rename' w => w2
  obtain ⟨x0, rfl, k0⟩ := h0
  obtain ⟨u1, rfl, rfl, k1⟩ := shw___ANON_10 h1
  obtain ⟨x2, rfl, k2⟩ := h2
  exact ⟨.bin .or x0 x2, rfl, .bin rfl k0 k1 k2 (hc.noInfix rfl)⟩

theorem r_269 : RuleOK ⟨N.«operator_numeric», [N.«add»], "operator_numeric", true, [(0, false, 0)], 0⟩ := by
  refine ruleOK_ex ?_
  intro cs w n h hc
  obtain ⟨c0, rfl, h0⟩ := fitsW_one.mp h
  rename' w => w0
  obtain ⟨x0, q0, k0⟩ := h0
  exact ⟨_, rfl, w_op_nometa q0, x0, q0, k0⟩

theorem r_273 : RuleOK ⟨N.«operator_numeric», [N.«multiply»], "operator_numeric", true, [(0, false, 0)], 0⟩ := by
  refine ruleOK_ex ?_
  intro cs w n h hc
  obtain ⟨c0, rfl, h0⟩ := fitsW_one.mp h
  rename' w => w0
  obtain ⟨x0, q0, k0⟩ := h0
  exact ⟨_, rfl, w_op_nometa q0, x0, q0, k0⟩

theorem r_277 : RuleOK ⟨N.«minus», [T.«MINUS», N.«value_brackets»], "minus", false, [(1, false, 0)], 0⟩ := by
  refine ruleOK_node ?_
  intro cs w n l h hc hl
  obtain ⟨c0, cs, w0, w, rfl, rfl, h0, h⟩ := fitsW_cons.mp h
  obtain ⟨c1, rfl, h1⟩ := fitsW_one.mp h
  rename' w => w1
  obtain ⟨u0, rfl, rfl, k0⟩ := shw_MINUS h0
  obtain ⟨x1, rfl, k1⟩ := h1
  exact ⟨.minus x1, rfl, .minus k0 k1 (hc.noInfix rfl)⟩

theorem r_281 : RuleOK ⟨N.«operator_accessor», [N.«index_accessor»], "operator_accessor", true, [(0, false, 0)], 0⟩ := by
  refine ruleOK_ex ?_
  intro cs w n h hc
  obtain ⟨c0, rfl, h0⟩ := fitsW_one.mp h
  rename' w => w0
  obtain ⟨x0, q0, k0⟩ := h0
  exact ⟨_, rfl, w_op_nometa q0, x0, q0, k0⟩

theorem r_285 : RuleOK ⟨N.«index_accessor», [N.«value_brackets», T.«LSQB», T.«QMARK», N.«value_brackets», T.«RSQB»], "index_accessor", false, [(0, false, 0), (3, false, 0)], 0⟩ := by
  refine ruleOK_node ?_
  intro cs w n l h hc hl
  obtain ⟨c0, cs, w0, w, rfl, rfl, h0, h⟩ := fitsW_cons.mp h
  obtain ⟨c1, cs, w1, w, rfl, rfl, h1, h⟩ := fitsW_cons.mp h
  obtain ⟨c2, cs, w2, w, rfl, rfl, h2, h⟩ := fitsW_cons.mp h
  obtain ⟨c3, cs, w3, w, rfl, rfl, h3, h⟩ := fitsW_cons.mp h
  obtain ⟨c4, rfl, h4⟩ := fitsW_one.mp h
  rename' w => w4
  obtain ⟨x0, rfl, k0⟩ := h0
  obtain ⟨u1, rfl, rfl, k1⟩ := shw_LSQB h1
  obtain ⟨u2, rfl, rfl, k2⟩ := shw_QMARK h2
  obtain ⟨x3, rfl, k3⟩ := h3
  obtain ⟨u4, rfl, rfl, k4⟩ := shw_RSQB h4
  exact ⟨.bin .index x0 x3, rfl, .safeIndex k0 k1 k2 k3 k4⟩

theorem r_289 : RuleOK ⟨N.«nested_resource_accessor», [N.«value_brackets», T.«__ANON_12», N.«value_brackets»], "nested_resource_accessor", false, [(0, false, 0), (2, false, 0)], 0⟩ := by
  refine ruleOK_node ?_
  intro cs w n l h hc hl
  obtain ⟨c0, cs, w0, w, rfl, rfl, h0, h⟩ := fitsW_cons.mp h
  obtain ⟨c1, cs, w1, w, rfl, rfl, h1, h⟩ := fitsW_cons.mp h
  obtain ⟨c2, rfl, h2⟩ := fitsW_one.mp h
  rename' w => w2
  obtain ⟨x0, rfl, k0⟩ := h0
  obtain ⟨u1, rfl, rfl, k1⟩ := shw___ANON_12 h1
  obtain ⟨x2, rfl, k2⟩ := h2
  exact ⟨.bin .nested x0 x2, rfl, .bin rfl k0 k1 k2 (hc.noInfix rfl)⟩

theorem r_293 : RuleOK ⟨N.«__start_star_0», [N.«element»], "__start_star_0", false, [(0, false, 0)], 0⟩ := by
  refine ruleOK_node ?_
  intro cs w n l h hc hl
  obtain ⟨c0, rfl, h0⟩ := fitsW_one.mp h
  rename' w => w0
  obtain ⟨l0, x0, rfl, k0, m0⟩ := h0
  exact ⟨[] ++ [(l0, x0)], (by simp only [keepKids', List.flatMap_cons, List.flatMap_nil, List.replicate_zero, List.replicate_succ, List.getElem?_cons_zero, List.getElem?_cons_succ, Bool.false_eq_true, if_true, if_false, List.append_nil, List.nil_append, List.cons_append, List.append_assoc, w_kids_mkCore, List.map_append] <;> rfl), ProgSyn.decl (p := []) (w1 := []) .nil k0 m0⟩

theorem r_297 : RuleOK ⟨N.«__start_star_0», [N.«__start_star_0», T.«_CPP_COMMENT_NL»], "__start_star_0", false, [(0, true, 0)], 0⟩ := by
  refine ruleOK_node ?_
  intro cs w n l h hc hl
  obtain ⟨c0, cs, w0, w, rfl, rfl, h0, h⟩ := fitsW_cons.mp h
  obtain ⟨c1, rfl, h1⟩ := fitsW_one.mp h
  rename' w => w1
  obtain ⟨x0, q0, k0⟩ := h0
  obtain ⟨u1, rfl, k1⟩ := shw__CPP_COMMENT_NL h1
  exact ⟨x0, (by simp only [keepKids', List.flatMap_cons, List.flatMap_nil, List.replicate_zero, List.replicate_succ, List.getElem?_cons_zero, List.getElem?_cons_succ, Bool.false_eq_true, if_true, if_false, List.append_nil, List.nil_append, List.cons_append, List.append_assoc, w_kids_mkCore, q0, List.map_append] <;> rfl), ProgSyn.nl (p := x0) (w := w0) k0 k1⟩

theorem r_301 : RuleOK ⟨N.«___func_statement_star_2», [N.«___func_statement_star_2», T.«COMMA», T.«STRING», N.«data_type»], "___func_statement_star_2", false, [(0, true, 0), (2, false, 0), (3, false, 0)], 0⟩ := by
  refine ruleOK_node ?_
  intro cs w n l h hc hl
  obtain ⟨c0, cs, w0, w, rfl, rfl, h0, h⟩ := fitsW_cons.mp h
  obtain ⟨c1, cs, w1, w, rfl, rfl, h1, h⟩ := fitsW_cons.mp h
  obtain ⟨c2, cs, w2, w, rfl, rfl, h2, h⟩ := fitsW_cons.mp h
  obtain ⟨c3, rfl, h3⟩ := fitsW_one.mp h
  rename' w => w3
  obtain ⟨x0, q0, k0⟩ := h0
  obtain ⟨u1, rfl, rfl, k1⟩ := shw_COMMA h1
  obtain ⟨x2, u2, rfl, rfl, k2⟩ := shw_STRING h2
  obtain ⟨x3, rfl, k3⟩ := h3
  exact ⟨x0 ++ [(x2, x3)], (by simp only [keepKids', List.flatMap_cons, List.flatMap_nil, List.replicate_zero, List.replicate_succ, List.getElem?_cons_zero, List.getElem?_cons_succ, Bool.false_eq_true, if_true, if_false, List.append_nil, List.nil_append, List.cons_append, List.append_assoc, w_kids_mkCore, q0, w_params_append] <;> rfl), .snoc k0 k1 k2 k3⟩

theorem r_305 : RuleOK ⟨N.«__type_value_star_4», [N.«__type_value_star_4», T.«VBAR», N.«value_brackets»], "__type_value_star_4", false, [(0, true, 0), (2, false, 0)], 0⟩ := by
  refine ruleOK_node ?_
  intro cs w n l h hc hl
  obtain ⟨c0, cs, w0, w, rfl, rfl, h0, h⟩ := fitsW_cons.mp h
  obtain ⟨c1, cs, w1, w, rfl, rfl, h1, h⟩ := fitsW_cons.mp h
  obtain ⟨c2, rfl, h2⟩ := fitsW_one.mp h
  rename' w => w2
  obtain ⟨x0, y0, q0, k0, m0⟩ := h0
  obtain ⟨u1, rfl, rfl, k1⟩ := shw_VBAR h1
  obtain ⟨x2, rfl, k2⟩ := h2
  exact ⟨x0, y0 ++ [x2], (by simp only [keepKids', List.flatMap_cons, List.flatMap_nil, List.replicate_zero, List.replicate_succ, List.getElem?_cons_zero, List.getElem?_cons_succ, Bool.false_eq_true, if_true, if_false, List.append_nil, List.nil_append, List.cons_append, List.append_assoc, w_kids_mkCore, q0, ← w_exprs_append]; simp only [w_exprs_append, List.cons_append, Expr.trees]), by have := AltTail.snoc k0 k1 k2 (hc.noInfix rfl); exact this, (hc.noInfix rfl)⟩

theorem r_309 : RuleOK ⟨N.«__union_type_plus_6», [N.«__union_type_plus_6», T.«VBAR», N.«data_type»], "__union_type_plus_6", false, [(0, true, 0), (2, false, 0)], 0⟩ := by
  refine ruleOK_node ?_
  intro cs w n l h hc hl
  obtain ⟨c0, cs, w0, w, rfl, rfl, h0, h⟩ := fitsW_cons.mp h
  obtain ⟨c1, cs, w1, w, rfl, rfl, h1, h⟩ := fitsW_cons.mp h
  obtain ⟨c2, rfl, h2⟩ := fitsW_one.mp h
  rename' w => w2
  obtain ⟨x0, y0, q0, k0⟩ := h0
  obtain ⟨u1, rfl, rfl, k1⟩ := shw_VBAR h1
  obtain ⟨x2, rfl, k2⟩ := h2
  exact ⟨x0, y0 ++ [x2], (by simp only [keepKids', List.flatMap_cons, List.flatMap_nil, List.replicate_zero, List.replicate_succ, List.getElem?_cons_zero, List.getElem?_cons_succ, Bool.false_eq_true, if_true, if_false, List.append_nil, List.nil_append, List.cons_append, List.append_assoc, w_kids_mkCore, q0, DataType.trees, w_dts_append]), .snoc k0 k1 k2⟩

theorem r_313 : RuleOK ⟨N.«__array_star_8», [N.«value_brackets», N.«__array_star_7»], "__array_star_8", false, [(0, false, 0), (1, true, 0)], 0⟩ := by
  refine ruleOK_node ?_
  intro cs w n l h hc hl
  obtain ⟨c0, cs, w0, w, rfl, rfl, h0, h⟩ := fitsW_cons.mp h
  obtain ⟨c1, rfl, h1⟩ := fitsW_one.mp h
  rename' w => w1
  obtain ⟨x0, rfl, k0⟩ := h0
  obtain ⟨x1, y1, q1, k1, m1⟩ := h1
  exact ⟨[] ++ x0 :: (x1 :: y1), (by simp only [keepKids', List.flatMap_cons, List.flatMap_nil, List.replicate_zero, List.replicate_succ, List.getElem?_cons_zero, List.getElem?_cons_succ, Bool.false_eq_true, if_true, if_false, List.append_nil, List.nil_append, List.cons_append, List.append_assoc, w_kids_mkCore, q1, w_exprs_append, Expr.trees] <;> rfl), (by have := Elems.snoc (es := []) (w1 := []) (w2 := w0) (w3 := w1) (w4 := []) (es' := (x1 :: y1)) (n := n) .nil (by have := k0; simpa only [List.append_assoc, List.nil_append, List.append_nil, List.cons_append, nextT_append, nextT_cons, nextT_nil] using this) k1 breaks_nil m1; simpa only [List.append_assoc, List.nil_append, List.append_nil, List.cons_append, nextT_append, nextT_cons, nextT_nil] using this)⟩

theorem r_317 : RuleOK ⟨N.«__array_star_8», [N.«__array_star_8», N.«value_brackets», N.«__array_star_7»], "__array_star_8", false, [(0, true, 0), (1, false, 0), (2, true, 0)], 0⟩ := by
  refine ruleOK_node ?_
  intro cs w n l h hc hl
  obtain ⟨c0, cs, w0, w, rfl, rfl, h0, h⟩ := fitsW_cons.mp h
  obtain ⟨c1, cs, w1, w, rfl, rfl, h1, h⟩ := fitsW_cons.mp h
  obtain ⟨c2, rfl, h2⟩ := fitsW_one.mp h
  rename' w => w2
  obtain ⟨x0, q0, k0⟩ := h0
  obtain ⟨x1, rfl, k1⟩ := h1
  obtain ⟨x2, y2, q2, k2, m2⟩ := h2
  exact ⟨x0 ++ x1 :: (x2 :: y2), (by simp only [keepKids', List.flatMap_cons, List.flatMap_nil, List.replicate_zero, List.replicate_succ, List.getElem?_cons_zero, List.getElem?_cons_succ, Bool.false_eq_true, if_true, if_false, List.append_nil, List.nil_append, List.cons_append, List.append_assoc, w_kids_mkCore, q0, q2, w_exprs_append, Expr.trees] <;> rfl), (by have := Elems.snoc (es := x0) (w1 := w0) (w2 := w1) (w3 := w2) (w4 := []) (es' := (x2 :: y2)) (n := n) (by have := k0; simpa only [List.append_assoc, List.nil_append, List.append_nil, List.cons_append, nextT_append, nextT_cons, nextT_nil] using this) (by have := k1; simpa only [List.append_assoc, List.nil_append, List.append_nil, List.cons_append, nextT_append, nextT_cons, nextT_nil] using this) k2 breaks_nil m2; simpa only [List.append_assoc, List.nil_append, List.append_nil, List.cons_append, nextT_append, nextT_cons, nextT_nil] using this)⟩

theorem r_321 : RuleOK ⟨N.«__object_star_9», [N.«__object_star_9», T.«COMMA», N.«pair»], "__object_star_9", false, [(0, true, 0), (2, false, 0)], 0⟩ := by
  refine ruleOK_node ?_
  intro cs w n l h hc hl
  obtain ⟨c0, cs, w0, w, rfl, rfl, h0, h⟩ := fitsW_cons.mp h
  obtain ⟨c1, cs, w1, w, rfl, rfl, h1, h⟩ := fitsW_cons.mp h
  obtain ⟨c2, rfl, h2⟩ := fitsW_one.mp h
  rename' w => w2
  obtain ⟨x0, q0, k0⟩ := h0
  obtain ⟨u1, rfl, rfl, k1⟩ := shw_COMMA h1
  obtain ⟨x2, rfl, k2⟩ := h2
  exact ⟨x0 ++ [x2], (by simp only [keepKids', List.flatMap_cons, List.flatMap_nil, List.replicate_zero, List.replicate_succ, List.getElem?_cons_zero, List.getElem?_cons_succ, Bool.false_eq_true, if_true, if_false, List.append_nil, List.nil_append, List.cons_append, List.append_assoc, w_kids_mkCore, q0, w_items_append] <;> rfl), .snoc k0 k1 k2⟩

theorem r_325 : RuleOK ⟨N.«__object_star_10», [N.«pair»], "__object_star_10", false, [(0, false, 0)], 0⟩ := by
  refine ruleOK_node ?_
  intro cs w n l h hc hl
  obtain ⟨c0, rfl, h0⟩ := fitsW_one.mp h
  rename' w => w0
  obtain ⟨x0, rfl, k0⟩ := h0
  exact ⟨[] ++ x0 :: [], (by simp only [keepKids', List.flatMap_cons, List.flatMap_nil, List.replicate_zero, List.replicate_succ, List.getElem?_cons_zero, List.getElem?_cons_succ, Bool.false_eq_true, if_true, if_false, List.append_nil, List.nil_append, List.cons_append, List.append_assoc, w_kids_mkCore, w_items_append, Item.trees] <;> rfl), (by have := Items.pairs (is := []) (w1 := []) (w2 := w0) (w3 := []) (w4 := []) (is' := []) (n := n) .nil (by have := k0; simpa only [List.append_assoc, List.nil_append, List.append_nil, List.cons_append, nextT_append, nextT_cons, nextT_nil] using this) .nil breaks_nil; simpa only [List.append_assoc, List.nil_append, List.append_nil, List.cons_append, nextT_append, nextT_cons, nextT_nil] using this)⟩

theorem r_329 : RuleOK ⟨N.«__object_star_10», [N.«__object_star_10», N.«pair», N.«__object_star_9»], "__object_star_10", false, [(0, true, 0), (1, false, 0), (2, true, 0)], 0⟩ := by
  refine ruleOK_node ?_
  intro cs w n l h hc hl
  obtain ⟨c0, cs, w0, w, rfl, rfl, h0, h⟩ := fitsW_cons.mp h
  obtain ⟨c1, cs, w1, w, rfl, rfl, h1, h⟩ := fitsW_cons.mp h
  obtain ⟨c2, rfl, h2⟩ := fitsW_one.mp h
  rename' w => w2
  obtain ⟨x0, q0, k0⟩ := h0
  obtain ⟨x1, rfl, k1⟩ := h1
  obtain ⟨x2, q2, k2⟩ := h2
  exact ⟨x0 ++ x1 :: x2, (by simp only [keepKids', List.flatMap_cons, List.flatMap_nil, List.replicate_zero, List.replicate_succ, List.getElem?_cons_zero, List.getElem?_cons_succ, Bool.false_eq_true, if_true, if_false, List.append_nil, List.nil_append, List.cons_append, List.append_assoc, w_kids_mkCore, q0, q2, w_items_append, Item.trees] <;> rfl), (by have := Items.pairs (is := x0) (w1 := w0) (w2 := w1) (w3 := w2) (w4 := []) (is' := x2) (n := n) (by have := k0; simpa only [List.append_assoc, List.nil_append, List.append_nil, List.cons_append, nextT_append, nextT_cons, nextT_nil] using this) (by have := k1; simpa only [List.append_assoc, List.nil_append, List.append_nil, List.cons_append, nextT_append, nextT_cons, nextT_nil] using this) k2 breaks_nil; simpa only [List.append_assoc, List.nil_append, List.append_nil, List.cons_append, nextT_append, nextT_cons, nextT_nil] using this)⟩

theorem r_333 : RuleOK ⟨N.«__object_star_10», [N.«__object_star_10», N.«child_resource»], "__object_star_10", false, [(0, true, 0), (1, false, 0)], 0⟩ := by
  refine ruleOK_node ?_
  intro cs w n l h hc hl
  obtain ⟨c0, cs, w0, w, rfl, rfl, h0, h⟩ := fitsW_cons.mp h
  obtain ⟨c1, rfl, h1⟩ := fitsW_one.mp h
  rename' w => w1
  obtain ⟨x0, q0, k0⟩ := h0
  obtain ⟨x1, rfl, k1⟩ := h1
  exact ⟨x0 ++ [x1], (by simp only [keepKids', List.flatMap_cons, List.flatMap_nil, List.replicate_zero, List.replicate_succ, List.getElem?_cons_zero, List.getElem?_cons_succ, Bool.false_eq_true, if_true, if_false, List.append_nil, List.nil_append, List.cons_append, List.append_assoc, w_kids_mkCore, q0, w_items_append, Item.trees] <;> rfl), (by have := Items.child (is := x0) (w1 := w0) (w2 := w1) (w3 := []) (n := n) (by have := k0; simpa only [List.append_assoc, List.nil_append, List.append_nil, List.cons_append, nextT_append, nextT_cons, nextT_nil] using this) (by have := k1; simpa only [List.append_assoc, List.nil_append, List.append_nil, List.cons_append, nextT_append, nextT_cons, nextT_nil] using this) breaks_nil; simpa only [List.append_assoc, List.nil_append, List.append_nil, List.cons_append, nextT_append, nextT_cons, nextT_nil] using this)⟩

theorem r_337 : RuleOK ⟨N.«__function_star_12», [T.«COMMA», N.«value_brackets»], "__function_star_12", false, [(1, false, 0)], 0⟩ := by
  refine ruleOK_node ?_
  intro cs w n l h hc hl
  obtain ⟨c0, cs, w0, w, rfl, rfl, h0, h⟩ := fitsW_cons.mp h
  obtain ⟨c1, rfl, h1⟩ := fitsW_one.mp h
  rename' w => w1
  obtain ⟨u0, rfl, rfl, k0⟩ := shw_COMMA h0
  obtain ⟨x1, rfl, k1⟩ := h1
  exact ⟨[] ++ [x1], (by simp only [keepKids', List.flatMap_cons, List.flatMap_nil, List.replicate_zero, List.replicate_succ, List.getElem?_cons_zero, List.getElem?_cons_succ, Bool.false_eq_true, if_true, if_false, List.append_nil, List.nil_append, List.cons_append, List.append_assoc, w_kids_mkCore, w_exprs_append] <;> rfl), .snoc (es := []) (w1 := []) (w2 := []) .nil k0 optBreak_none k1 (hc.noInfix rfl)⟩

theorem r_341 : RuleOK ⟨N.«__function_accessor_plus_13», [], "__function_accessor_plus_13", false, [], 1⟩ := by
  refine ruleOK_node ?_
  intro cs w n l h hc hl
  obtain ⟨rfl, rfl⟩ := fitsW_nil.mp h
  exact .inl ⟨rfl, rfl, hc.empty13 rfl rfl⟩

/-- the rules of this file -/
def list1 : List Rule := [
  ⟨N.«start», [], "start", false, [], 0⟩,
  ⟨N.«element», [T.«EXTENSION», T.«STRING», T.«WITH», N.«object»], "extension", false, [(1, false, 0), (3, false, 0)], 1⟩,
  ⟨N.«element», [N.«decorators», T.«PARAM», T.«STRING», N.«data_type», T.«QMARK», T.«EQUAL», N.«value_brackets»], "param", false, [(0, false, 0), (2, false, 0), (3, false, 0), (6, false, 0)], 0⟩,
  ⟨N.«element», [T.«PARAM», T.«STRING», N.«data_type», T.«QMARK», T.«EQUAL», N.«value_brackets»], "param", false, [(1, false, 1), (2, false, 0), (5, false, 0)], 0⟩,
  ⟨N.«element», [N.«decorators», T.«VAR», T.«STRING», N.«data_type», T.«QMARK», T.«EQUAL», N.«var_value»], "var", false, [(0, false, 0), (2, false, 0), (3, false, 0), (6, false, 0)], 0⟩,
  ⟨N.«element», [T.«VAR», T.«STRING», N.«data_type», T.«EQUAL», N.«var_value»], "var", false, [(1, false, 1), (2, false, 0), (4, false, 0)], 0⟩,
  ⟨N.«element», [T.«OUTPUT», T.«STRING», N.«data_type», T.«QMARK», T.«EQUAL», N.«output_value»], "output", false, [(1, false, 1), (2, false, 0), (5, false, 0)], 0⟩,
  ⟨N.«element», [T.«RESOURCE», T.«STRING», N.«type_api_pair», T.«EXISTING», T.«EQUAL», N.«resource_value»], "resource", false, [(1, false, 1), (2, false, 0), (3, false, 0), (5, false, 0)], 0⟩,
  ⟨N.«element», [N.«decorators», T.«TYPE», T.«STRING», T.«EQUAL», N.«type_value»], "custom_type", false, [(0, false, 0), (2, false, 0), (4, false, 0)], 0⟩,
  ⟨N.«value», [T.«_NEWLINE», T.«NULL»], "null", false, [], 0⟩,
  ⟨N.«value», [T.«_NEWLINE», T.«FALSE»], "false", false, [], 0⟩,
  ⟨N.«value», [T.«_NEWLINE», T.«STRING»], "string", false, [(1, false, 0)], 0⟩,
  ⟨N.«value», [T.«MULTI_LINE_STRING»], "multi_line_string", false, [(0, false, 0)], 0⟩,
  ⟨N.«value», [N.«function»], "value", true, [(0, false, 0)], 0⟩,
  ⟨N.«value_brackets», [N.«value»], "value_brackets", true, [(0, false, 0)], 0⟩,
  ⟨N.«_import_statement», [T.«LBRACE», N.«import_alias», T.«RBRACE», T.«FROM», T.«QUOTED_INTERPOLATION»], "_import_statement", false, [(1, false, 0), (4, false, 0)], 0⟩,
  ⟨N.«_func_statement», [T.«STRING», T.«LPAR», T.«STRING», N.«data_type», T.«RPAR», N.«data_type», T.«__ANON_0», N.«value_brackets»], "_func_statement", false, [(0, false, 0), (2, false, 0), (3, false, 0), (5, false, 0), (7, false, 0)], 0⟩,
  ⟨N.«metadata_value», [T.«QUOTED_INTERPOLATION»], "string", false, [(0, false, 0)], 0⟩,
  ⟨N.«resource_value», [N.«loop»], "resource_value", true, [(0, false, 0)], 0⟩,
  ⟨N.«module_value», [N.«deploy_condition»], "module_value", true, [(0, false, 0)], 0⟩,
  ⟨N.«child_resource», [T.«RESOURCE», T.«STRING», T.«QUOTED_INTERPOLATION», T.«EQUAL», N.«object», N.«__child_resource_plus_3»], "child_resource", false, [(1, false, 0), (2, false, 0), (4, false, 1), (5, true, 0)], 0⟩,
  ⟨N.«type_value», [N.«value_brackets»], "type_value", true, [(0, false, 0)], 0⟩,
  ⟨N.«base_type», [N.«union_type»], "base_type", false, [(0, false, 0)], 0⟩,
  ⟨N.«module_path», [T.«QUOTED_INTERPOLATION»], "module_path", false, [(0, false, 0)], 0⟩,
  ⟨N.«import_alias», [T.«__ANON_1»], "import_alias", false, [(0, false, 0)], 1⟩,
  ⟨N.«loop», [T.«LSQB», T.«_CPP_COMMENT_NL», T.«FOR», N.«loop_array», T.«COLON», N.«value_brackets», T.«RSQB»], "loop", false, [(3, false, 0), (5, false, 1)], 0⟩,
  ⟨N.«loop», [T.«LSQB», T.«_CPP_COMMENT_NL», T.«FOR», N.«loop_array_index», T.«COLON», N.«value_brackets», T.«RSQB»], "loop", false, [(3, false, 0), (5, false, 1)], 0⟩,
  ⟨N.«loop», [T.«LSQB», T.«_CPP_COMMENT_NL», T.«FOR», N.«loop_object», T.«COLON», N.«value_brackets», T.«RSQB»], "loop", false, [(3, false, 0), (5, false, 1)], 0⟩,
  ⟨N.«loop», [T.«LSQB», T.«FOR», N.«loop_array», T.«COLON», N.«value_brackets», T.«RSQB»], "loop", false, [(2, false, 0), (4, false, 1)], 0⟩,
  ⟨N.«loop», [T.«LSQB», T.«FOR», N.«loop_array_index», T.«COLON», N.«value_brackets», T.«RSQB»], "loop", false, [(2, false, 0), (4, false, 1)], 0⟩,
  ⟨N.«loop», [T.«LSQB», T.«FOR», N.«loop_object», T.«COLON», N.«value_brackets», T.«RSQB»], "loop", false, [(2, false, 0), (4, false, 1)], 0⟩,
  ⟨N.«deploy_condition», [T.«_CPP_COMMENT_NL», T.«IF», T.«LPAR», N.«value_brackets», T.«RPAR», N.«value_brackets»], "deploy_condition", false, [(3, false, 0), (5, false, 0)], 0⟩,
  ⟨N.«quoted_string», [T.«QUOTED_INTERPOLATION»], "quoted_string", true, [(0, false, 0)], 0⟩,
  ⟨N.«array», [T.«LSQB», T.«RSQB»], "array", false, [], 0⟩,
  ⟨N.«object», [T.«LBRACE», T.«RBRACE»], "object", false, [], 0⟩,
  ⟨N.«pair», [N.«key», T.«COLON», N.«loop»], "pair", false, [(0, false, 0), (2, false, 0)], 0⟩,
  ⟨N.«lambda_expression», [T.«LPAR», N.«value_brackets», T.«COMMA», N.«value_brackets», N.«__array_star_7», T.«RPAR», T.«__ANON_0», N.«value_brackets»], "lambda_expression", false, [(1, false, 0), (3, false, 0), (4, true, 0), (7, false, 0)], 0⟩,
  ⟨N.«decorator», [T.«AT», T.«__ANON_2», T.«LPAR», T.«_CPP_COMMENT_NL», N.«value_brackets», T.«_CPP_COMMENT_NL», T.«RPAR», T.«_CPP_COMMENT_NL», T.«_CPP_COMMENT_NL», T.«_CPP_COMMENT_NL»], "decorator", false, [(1, false, 0), (4, false, 0)], 0⟩,
  ⟨N.«decorator», [T.«AT», T.«__ANON_2», T.«LPAR», T.«_CPP_COMMENT_NL», N.«value_brackets», T.«_CPP_COMMENT_NL», T.«RPAR», T.«_CPP_COMMENT_NL», T.«_CPP_COMMENT_NL», T.«_CPP_COMMENT_NL», T.«_CPP_COMMENT_NL», T.«_CPP_COMMENT_NL», T.«_CPP_COMMENT_NL», T.«_CPP_COMMENT_NL»], "decorator", false, [(1, false, 0), (4, false, 0)], 0⟩,
  ⟨N.«decorator», [T.«AT», T.«__ANON_2», T.«LPAR», T.«_CPP_COMMENT_NL», N.«value_brackets», T.«RPAR»], "decorator", false, [(1, false, 0), (4, false, 0)], 0⟩,
  ⟨N.«decorator», [T.«AT», T.«__ANON_2», T.«LPAR», T.«_CPP_COMMENT_NL», N.«value_brackets», T.«RPAR», T.«_CPP_COMMENT_NL», T.«_CPP_COMMENT_NL», T.«_CPP_COMMENT_NL», T.«_CPP_COMMENT_NL»], "decorator", false, [(1, false, 0), (4, false, 0)], 0⟩,
  ⟨N.«decorator», [T.«AT», T.«__ANON_2», T.«LPAR», T.«_CPP_COMMENT_NL», N.«value_brackets», T.«RPAR», T.«_CPP_COMMENT_NL», T.«_CPP_COMMENT_NL», T.«_CPP_COMMENT_NL», T.«_CPP_COMMENT_NL», T.«_CPP_COMMENT_NL», T.«_CPP_COMMENT_NL», T.«_CPP_COMMENT_NL», T.«_CPP_COMMENT_NL»], "decorator", false, [(1, false, 0), (4, false, 0)], 0⟩,
  ⟨N.«decorator», [T.«AT», T.«__ANON_2», T.«LPAR», T.«_CPP_COMMENT_NL», T.«_CPP_COMMENT_NL», T.«RPAR», T.«_CPP_COMMENT_NL»], "decorator", false, [(1, false, 0)], 0⟩,
  ⟨N.«decorator», [T.«AT», T.«__ANON_2», T.«LPAR», T.«_CPP_COMMENT_NL», T.«_CPP_COMMENT_NL», T.«RPAR», T.«_CPP_COMMENT_NL», T.«_CPP_COMMENT_NL», T.«_CPP_COMMENT_NL», T.«_CPP_COMMENT_NL», T.«_CPP_COMMENT_NL»], "decorator", false, [(1, false, 0)], 0⟩,
  ⟨N.«decorator», [T.«AT», T.«__ANON_2», T.«LPAR», T.«_CPP_COMMENT_NL», T.«_CPP_COMMENT_NL», T.«RPAR», T.«_CPP_COMMENT_NL», T.«_CPP_COMMENT_NL», T.«_CPP_COMMENT_NL», T.«_CPP_COMMENT_NL», T.«_CPP_COMMENT_NL», T.«_CPP_COMMENT_NL», T.«_CPP_COMMENT_NL», T.«_CPP_COMMENT_NL», T.«_CPP_COMMENT_NL»], "decorator", false, [(1, false, 0)], 0⟩,
  ⟨N.«decorator», [T.«AT», T.«__ANON_2», T.«LPAR», T.«_CPP_COMMENT_NL», T.«RPAR», T.«_CPP_COMMENT_NL», T.«_CPP_COMMENT_NL»], "decorator", false, [(1, false, 0)], 0⟩,
  ⟨N.«decorator», [T.«AT», T.«__ANON_2», T.«LPAR», T.«_CPP_COMMENT_NL», T.«RPAR», T.«_CPP_COMMENT_NL», T.«_CPP_COMMENT_NL», T.«_CPP_COMMENT_NL», T.«_CPP_COMMENT_NL», T.«_CPP_COMMENT_NL», T.«_CPP_COMMENT_NL»], "decorator", false, [(1, false, 0)], 0⟩,
  ⟨N.«decorator», [T.«AT», T.«__ANON_2», T.«LPAR», T.«_CPP_COMMENT_NL», T.«RPAR», T.«_CPP_COMMENT_NL», T.«_CPP_COMMENT_NL», T.«_CPP_COMMENT_NL», T.«_CPP_COMMENT_NL», T.«_CPP_COMMENT_NL», T.«_CPP_COMMENT_NL», T.«_CPP_COMMENT_NL», T.«_CPP_COMMENT_NL», T.«_CPP_COMMENT_NL», T.«_CPP_COMMENT_NL»], "decorator", false, [(1, false, 0)], 0⟩,
  ⟨N.«decorator», [T.«AT», T.«__ANON_2», T.«LPAR», N.«value_brackets», T.«_CPP_COMMENT_NL», T.«RPAR», T.«_CPP_COMMENT_NL», T.«_CPP_COMMENT_NL», T.«_CPP_COMMENT_NL»], "decorator", false, [(1, false, 0), (3, false, 0)], 0⟩,
  ⟨N.«decorator», [T.«AT», T.«__ANON_2», T.«LPAR», N.«value_brackets», T.«_CPP_COMMENT_NL», T.«RPAR», T.«_CPP_COMMENT_NL», T.«_CPP_COMMENT_NL», T.«_CPP_COMMENT_NL», T.«_CPP_COMMENT_NL», T.«_CPP_COMMENT_NL», T.«_CPP_COMMENT_NL», T.«_CPP_COMMENT_NL»], "decorator", false, [(1, false, 0), (3, false, 0)], 0⟩,
  ⟨N.«decorator», [T.«AT», T.«__ANON_2», T.«LPAR», N.«value_brackets», T.«RPAR»], "decorator", false, [(1, false, 0), (3, false, 0)], 0⟩,
  ⟨N.«decorator», [T.«AT», T.«__ANON_2», T.«LPAR», N.«value_brackets», T.«RPAR», T.«_CPP_COMMENT_NL», T.«_CPP_COMMENT_NL», T.«_CPP_COMMENT_NL», T.«_CPP_COMMENT_NL»], "decorator", false, [(1, false, 0), (3, false, 0)], 0⟩,
  ⟨N.«decorator», [T.«AT», T.«__ANON_2», T.«LPAR», N.«value_brackets», T.«RPAR», T.«_CPP_COMMENT_NL», T.«_CPP_COMMENT_NL», T.«_CPP_COMMENT_NL», T.«_CPP_COMMENT_NL», T.«_CPP_COMMENT_NL», T.«_CPP_COMMENT_NL», T.«_CPP_COMMENT_NL», T.«_CPP_COMMENT_NL»], "decorator", false, [(1, false, 0), (3, false, 0)], 0⟩,
  ⟨N.«decorator», [T.«AT», T.«__ANON_2», T.«LPAR», T.«RPAR», T.«_CPP_COMMENT_NL»], "decorator", false, [(1, false, 0)], 0⟩,
  ⟨N.«decorator», [T.«AT», T.«__ANON_2», T.«LPAR», T.«RPAR», T.«_CPP_COMMENT_NL», T.«_CPP_COMMENT_NL», T.«_CPP_COMMENT_NL», T.«_CPP_COMMENT_NL», T.«_CPP_COMMENT_NL»], "decorator", false, [(1, false, 0)], 0⟩,
  ⟨N.«decorator», [T.«AT», T.«__ANON_2», T.«LPAR», T.«RPAR», T.«_CPP_COMMENT_NL», T.«_CPP_COMMENT_NL», T.«_CPP_COMMENT_NL», T.«_CPP_COMMENT_NL», T.«_CPP_COMMENT_NL», T.«_CPP_COMMENT_NL», T.«_CPP_COMMENT_NL», T.«_CPP_COMMENT_NL», T.«_CPP_COMMENT_NL»], "decorator", false, [(1, false, 0)], 0⟩,
  ⟨N.«function», [T.«FUNCTION», T.«_CPP_COMMENT_NL», N.«value_brackets», N.«__function_star_12», T.«RPAR»], "function", false, [(0, false, 0), (2, false, 0), (3, true, 0)], 0⟩,
  ⟨N.«function», [T.«FUNCTION», T.«_CPP_COMMENT_NL», N.«__function_star_12», T.«RPAR»], "function", false, [(0, false, 0), (2, true, 0)], 0⟩,
  ⟨N.«function», [T.«FUNCTION», N.«value_brackets», N.«__function_star_12», T.«RPAR»], "function", false, [(0, false, 0), (1, false, 0), (2, true, 0)], 0⟩,
  ⟨N.«function», [T.«FUNCTION», N.«__function_star_12», T.«RPAR»], "function", false, [(0, false, 0), (1, true, 0)], 0⟩,
  ⟨N.«operator», [N.«operator_numeric»], "operator", false, [(0, false, 0)], 0⟩,
  ⟨N.«operator_comparison», [N.«less_than_or_equals»], "operator_comparison", true, [(0, false, 0)], 0⟩,
  ⟨N.«operator_comparison», [N.«equals_case_insens»], "operator_comparison", true, [(0, false, 0)], 0⟩,
  ⟨N.«less_than_or_equals», [N.«value_brackets», T.«__ANON_4», N.«value_brackets»], "less_than_or_equals", false, [(0, false, 0), (2, false, 0)], 0⟩,
  ⟨N.«equals_case_insens», [N.«value_brackets», T.«__ANON_7», N.«value_brackets»], "equals_case_insens", false, [(0, false, 0), (2, false, 0)], 0⟩,
  ⟨N.«operator_logical», [N.«not_op»], "operator_logical", true, [(0, false, 0)], 0⟩,
  ⟨N.«or_op», [N.«value_brackets», T.«__ANON_10», N.«value_brackets»], "or_op", false, [(0, false, 0), (2, false, 0)], 0⟩,
  ⟨N.«operator_numeric», [N.«add»], "operator_numeric", true, [(0, false, 0)], 0⟩,
  ⟨N.«operator_numeric», [N.«multiply»], "operator_numeric", true, [(0, false, 0)], 0⟩,
  ⟨N.«minus», [T.«MINUS», N.«value_brackets»], "minus", false, [(1, false, 0)], 0⟩,
  ⟨N.«operator_accessor», [N.«index_accessor»], "operator_accessor", true, [(0, false, 0)], 0⟩,
  ⟨N.«index_accessor», [N.«value_brackets», T.«LSQB», T.«QMARK», N.«value_brackets», T.«RSQB»], "index_accessor", false, [(0, false, 0), (3, false, 0)], 0⟩,
  ⟨N.«nested_resource_accessor», [N.«value_brackets», T.«__ANON_12», N.«value_brackets»], "nested_resource_accessor", false, [(0, false, 0), (2, false, 0)], 0⟩,
  ⟨N.«__start_star_0», [N.«element»], "__start_star_0", false, [(0, false, 0)], 0⟩,
  ⟨N.«__start_star_0», [N.«__start_star_0», T.«_CPP_COMMENT_NL»], "__start_star_0", false, [(0, true, 0)], 0⟩,
  ⟨N.«___func_statement_star_2», [N.«___func_statement_star_2», T.«COMMA», T.«STRING», N.«data_type»], "___func_statement_star_2", false, [(0, true, 0), (2, false, 0), (3, false, 0)], 0⟩,
  ⟨N.«__type_value_star_4», [N.«__type_value_star_4», T.«VBAR», N.«value_brackets»], "__type_value_star_4", false, [(0, true, 0), (2, false, 0)], 0⟩,
  ⟨N.«__union_type_plus_6», [N.«__union_type_plus_6», T.«VBAR», N.«data_type»], "__union_type_plus_6", false, [(0, true, 0), (2, false, 0)], 0⟩,
  ⟨N.«__array_star_8», [N.«value_brackets», N.«__array_star_7»], "__array_star_8", false, [(0, false, 0), (1, true, 0)], 0⟩,
  ⟨N.«__array_star_8», [N.«__array_star_8», N.«value_brackets», N.«__array_star_7»], "__array_star_8", false, [(0, true, 0), (1, false, 0), (2, true, 0)], 0⟩,
  ⟨N.«__object_star_9», [N.«__object_star_9», T.«COMMA», N.«pair»], "__object_star_9", false, [(0, true, 0), (2, false, 0)], 0⟩,
  ⟨N.«__object_star_10», [N.«pair»], "__object_star_10", false, [(0, false, 0)], 0⟩,
  ⟨N.«__object_star_10», [N.«__object_star_10», N.«pair», N.«__object_star_9»], "__object_star_10", false, [(0, true, 0), (1, false, 0), (2, true, 0)], 0⟩,
  ⟨N.«__object_star_10», [N.«__object_star_10», N.«child_resource»], "__object_star_10", false, [(0, true, 0), (1, false, 0)], 0⟩,
  ⟨N.«__function_star_12», [T.«COMMA», N.«value_brackets»], "__function_star_12", false, [(1, false, 0)], 0⟩,
  ⟨N.«__function_accessor_plus_13», [], "__function_accessor_plus_13", false, [], 1⟩]

theorem ok1 : ∀ r ∈ list1, RuleOK r := by
  simp only [list1, List.forall_mem_cons]
  exact ⟨r_1, r_5, r_9, r_13, r_17, r_21, r_25, r_29, r_33, r_37, r_41, r_45, r_49, r_53, r_57, r_61, r_65, r_69, r_73, r_77, r_81, r_85, r_89, r_93, r_97, r_101, r_105, r_109, r_113, r_117, r_121, r_125, r_129, r_133, r_137, r_141, r_145, r_149, r_153, r_157, r_161, r_165, r_169, r_173, r_177, r_181, r_185, r_189, r_193, r_197, r_201, r_205, r_209, r_213, r_217, r_221, r_225, r_229, r_233, r_237, r_241, r_245, r_249, r_253, r_257, r_261, r_265, r_269, r_273, r_277, r_281, r_285, r_289, r_293, r_297, r_301, r_305, r_309, r_313, r_317, r_321, r_325, r_329, r_333, r_337, r_341, fun _ h => nomatch h⟩

end Pycep.SynRules
