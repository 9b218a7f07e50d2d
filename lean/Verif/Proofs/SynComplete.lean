import Verif.Proofs.Yields0
import Verif.Proofs.Yields1
import Verif.Proofs.Yields2
import Verif.Spec.Clear
import Mathlib.Data.List.Induction
/-
Every piece of concrete syntax has an admissible derivation with its tree: expressions, objects,
loops and bodies of resources.
-/
set_option linter.style.nameCheck false
set_option linter.unusedSimpArgs false
namespace Pycep

/-! ### Types of keywords and punctuation -/

theorem kt_EXISTING {u : Tok} (h : Kw "existing" u) : u.type = T.EXISTING :=
  kw_type h _ _ rfl (by decide +kernel)
theorem kt_TARGETSCOPE {u : Tok} (h : Kw "targetScope" u) : u.type = T.TARGETSCOPE :=
  kw_type h _ _ rfl (by decide +kernel)
theorem kt_EQUAL {u : Tok} (h : Kw "=" u) : u.type = T.EQUAL :=
  kw_type h _ _ rfl (by decide +kernel)
theorem kt_IMPORT {u : Tok} (h : Kw "import" u) : u.type = T.IMPORT :=
  kw_type h _ _ rfl (by decide +kernel)
theorem kt_EXTENSION {u : Tok} (h : Kw "extension" u) : u.type = T.EXTENSION :=
  kw_type h _ _ rfl (by decide +kernel)
theorem kt_WITH {u : Tok} (h : Kw "with" u) : u.type = T.WITH :=
  kw_type h _ _ rfl (by decide +kernel)
theorem kt_AS {u : Tok} (h : Kw "as" u) : u.type = T.AS :=
  kw_type h _ _ rfl (by decide +kernel)
theorem kt_METADATA {u : Tok} (h : Kw "metadata" u) : u.type = T.METADATA :=
  kw_type h _ _ rfl (by decide +kernel)
theorem kt_PARAM {u : Tok} (h : Kw "param" u) : u.type = T.PARAM :=
  kw_type h _ _ rfl (by decide +kernel)
theorem kt_QMARK {u : Tok} (h : Kw "?" u) : u.type = T.QMARK :=
  kw_type h _ _ rfl (by decide +kernel)
theorem kt_VAR {u : Tok} (h : Kw "var" u) : u.type = T.VAR :=
  kw_type h _ _ rfl (by decide +kernel)
theorem kt_OUTPUT {u : Tok} (h : Kw "output" u) : u.type = T.OUTPUT :=
  kw_type h _ _ rfl (by decide +kernel)
theorem kt_RESOURCE {u : Tok} (h : Kw "resource" u) : u.type = T.RESOURCE :=
  kw_type h _ _ rfl (by decide +kernel)
theorem kt_MODULE {u : Tok} (h : Kw "module" u) : u.type = T.MODULE :=
  kw_type h _ _ rfl (by decide +kernel)
theorem kt_TYPE {u : Tok} (h : Kw "type" u) : u.type = T.TYPE :=
  kw_type h _ _ rfl (by decide +kernel)
theorem kt_FUNC {u : Tok} (h : Kw "func" u) : u.type = T.FUNC :=
  kw_type h _ _ rfl (by decide +kernel)
theorem kt_NULL {u : Tok} (h : Kw "null" u) : u.type = T.NULL :=
  kw_type h _ _ rfl (by decide +kernel)
theorem kt_TRUE {u : Tok} (h : Kw "true" u) : u.type = T.TRUE :=
  kw_type h _ _ rfl (by decide +kernel)
theorem kt_FALSE {u : Tok} (h : Kw "false" u) : u.type = T.FALSE :=
  kw_type h _ _ rfl (by decide +kernel)
theorem kt_LPAR {u : Tok} (h : Kw "(" u) : u.type = T.LPAR :=
  kw_type h _ _ rfl (by decide +kernel)
theorem kt_RPAR {u : Tok} (h : Kw ")" u) : u.type = T.RPAR :=
  kw_type h _ _ rfl (by decide +kernel)
theorem kt_BANG {u : Tok} (h : Kw "!" u) : u.type = T.BANG :=
  kw_type h _ _ rfl (by decide +kernel)
theorem kt_LBRACE {u : Tok} (h : Kw "{" u) : u.type = T.LBRACE :=
  kw_type h _ _ rfl (by decide +kernel)
theorem kt_COMMA {u : Tok} (h : Kw "," u) : u.type = T.COMMA :=
  kw_type h _ _ rfl (by decide +kernel)
theorem kt_RBRACE {u : Tok} (h : Kw "}" u) : u.type = T.RBRACE :=
  kw_type h _ _ rfl (by decide +kernel)
theorem kt_FROM {u : Tok} (h : Kw "from" u) : u.type = T.FROM :=
  kw_type h _ _ rfl (by decide +kernel)
theorem kt___ANON_0 {u : Tok} (h : Kw "=>" u) : u.type = T.__ANON_0 :=
  kw_type h _ _ rfl (by decide +kernel)
theorem kt_VBAR {u : Tok} (h : Kw "|" u) : u.type = T.VBAR :=
  kw_type h _ _ rfl (by decide +kernel)
theorem kt_LSQB {u : Tok} (h : Kw "[" u) : u.type = T.LSQB :=
  kw_type h _ _ rfl (by decide +kernel)
theorem kt_RSQB {u : Tok} (h : Kw "]" u) : u.type = T.RSQB :=
  kw_type h _ _ rfl (by decide +kernel)
theorem kt_FOR {u : Tok} (h : Kw "for" u) : u.type = T.FOR :=
  kw_type h _ _ rfl (by decide +kernel)
theorem kt_COLON {u : Tok} (h : Kw ":" u) : u.type = T.COLON :=
  kw_type h _ _ rfl (by decide +kernel)
theorem kt_IN {u : Tok} (h : Kw "in" u) : u.type = T.IN :=
  kw_type h _ _ rfl (by decide +kernel)
theorem kt_ITEMS {u : Tok} (h : Kw "items" u) : u.type = T.ITEMS :=
  kw_type h _ _ rfl (by decide +kernel)
theorem kt_IF {u : Tok} (h : Kw "if" u) : u.type = T.IF :=
  kw_type h _ _ rfl (by decide +kernel)
theorem kt_AT {u : Tok} (h : Kw "@" u) : u.type = T.AT :=
  kw_type h _ _ rfl (by decide +kernel)
theorem kt___ANON_3 {u : Tok} (h : Kw ">=" u) : u.type = T.__ANON_3 :=
  kw_type h _ _ rfl (by decide +kernel)
theorem kt_MORETHAN {u : Tok} (h : Kw ">" u) : u.type = T.MORETHAN :=
  kw_type h _ _ rfl (by decide +kernel)
theorem kt___ANON_4 {u : Tok} (h : Kw "<=" u) : u.type = T.__ANON_4 :=
  kw_type h _ _ rfl (by decide +kernel)
theorem kt_LESSTHAN {u : Tok} (h : Kw "<" u) : u.type = T.LESSTHAN :=
  kw_type h _ _ rfl (by decide +kernel)
theorem kt___ANON_5 {u : Tok} (h : Kw "==" u) : u.type = T.__ANON_5 :=
  kw_type h _ _ rfl (by decide +kernel)
theorem kt___ANON_6 {u : Tok} (h : Kw "!=" u) : u.type = T.__ANON_6 :=
  kw_type h _ _ rfl (by decide +kernel)
theorem kt___ANON_7 {u : Tok} (h : Kw "=~" u) : u.type = T.__ANON_7 :=
  kw_type h _ _ rfl (by decide +kernel)
theorem kt___ANON_8 {u : Tok} (h : Kw "!~" u) : u.type = T.__ANON_8 :=
  kw_type h _ _ rfl (by decide +kernel)
theorem kt___ANON_9 {u : Tok} (h : Kw "&&" u) : u.type = T.__ANON_9 :=
  kw_type h _ _ rfl (by decide +kernel)
theorem kt___ANON_10 {u : Tok} (h : Kw "||" u) : u.type = T.__ANON_10 :=
  kw_type h _ _ rfl (by decide +kernel)
theorem kt___ANON_11 {u : Tok} (h : Kw "??" u) : u.type = T.__ANON_11 :=
  kw_type h _ _ rfl (by decide +kernel)
theorem kt_PLUS {u : Tok} (h : Kw "+" u) : u.type = T.PLUS :=
  kw_type h _ _ rfl (by decide +kernel)
theorem kt_SLASH {u : Tok} (h : Kw "/" u) : u.type = T.SLASH :=
  kw_type h _ _ rfl (by decide +kernel)
theorem kt_MINUS {u : Tok} (h : Kw "-" u) : u.type = T.MINUS :=
  kw_type h _ _ rfl (by decide +kernel)
theorem kt_PERCENT {u : Tok} (h : Kw "%" u) : u.type = T.PERCENT :=
  kw_type h _ _ rfl (by decide +kernel)
theorem kt_STAR {u : Tok} (h : Kw "*" u) : u.type = T.STAR :=
  kw_type h _ _ rfl (by decide +kernel)
theorem kt_DOT {u : Tok} (h : Kw "." u) : u.type = T.DOT :=
  kw_type h _ _ rfl (by decide +kernel)
theorem kt___ANON_12 {u : Tok} (h : Kw "::" u) : u.type = T.__ANON_12 :=
  kw_type h _ _ rfl (by decide +kernel)

theorem Y.congr {X c c' w w' n n'} (hc : c = c') (hw : w = w') (hn : n = n') (h : Y X c w n) :
    Y X c' w' n' := by
  subst hc hw hn; exact h

/-- words and look-ahead in normal form -/
macro "wn" : tactic => `(tactic| first
  | rfl
  | (simp only [List.append_assoc, List.nil_append, List.append_nil, List.cons_append,
      nextT_append, nextT_cons, nextT_nil]; done))
/-- trees in normal form -/
macro "tn" : tactic => `(tactic| first
  | rfl
  | (simp only [w_exprs_append, w_opts_append, w_items_append, Expr.trees, Item.trees,
      Expr.optTrees, Expr.optTree, Expr.tree, Item.tree, List.append_nil, List.nil_append, List.cons_append,
      List.append_assoc, List.map_append, List.map_cons, List.map_nil]; done))

/-- use a term up to normal forms -/
macro "yy " t:term : tactic => `(tactic| exact Y.congr (by tn) (by wn) (by wn) $t)

/-- hypotheses in normal form -/
macro "nh" : tactic => `(tactic| try simp only [List.append_assoc, List.nil_append,
  List.append_nil, List.cons_append, nextT_append, nextT_cons, nextT_nil] at *)

/-- the first token is neither `-` nor `[` -/
def Fst (w : List Tok) : Prop := ∀ m, nextT w m ≠ T.MINUS ∧ nextT w m ≠ T.LSQB

theorem Fst.append {a b} (h : Fst a) : Fst (a ++ b) := by
  intro m; rw [nextT_append]; exact h _

theorem Fst.cons {u : Tok} {w t} (k : u.type = t) (h : t ≠ T.MINUS ∧ t ≠ T.LSQB) : Fst (u :: w) := by
  intro m; rw [nextT_cons, k]; exact h

/-! ### What is shown for each kind of syntax -/

/-- expressions -/
def M1 (b : Bool) (e : Expr) (w : List Tok) (n : Nat) : Prop := e.clear = true →
  Y (if b then N.value_brackets else N.value) e.tree w n ∧ (e.lead = true → Fst w)
/-- `, e1, e2, ...` -/
def M2 (es : List Expr) (w : List Tok) (n : Nat) : Prop := Expr.clearL es = true →
  (es = [] ∧ w = []) ∨ (es ≠ [] ∧
    Y N.__array_star_7 (nd "__array_star_7" (Expr.trees es)) w n ∧
    Y N.__function_accessor_plus_13
      (nd "__function_accessor_plus_13" (Expr.optTrees (es.map some))) w n)
/-- elements of arrays -/
def M3 (es : List Expr) (w : List Tok) (n : Nat) : Prop := Expr.clearL es = true →
  (es = [] ∧ w = []) ∨ Y N.__array_star_8 (nd "__array_star_8" (Expr.trees es)) w n
/-- calls -/
def M4 (f : FunName) (es : List Expr) (w : List Tok) (n : Nat) : Prop := Expr.clearL es = true →
  Y N.function (Expr.call f es).tree w n ∧ Fst w
/-- arguments behind the first one -/
def M5 (es : List Expr) (w : List Tok) (n : Nat) : Prop := Expr.clearL es = true →
  (es = [] ∧ w = []) ∨ Y N.__function_star_12 (nd "__function_star_12" (Expr.trees es)) w n
/-- arguments of methods -/
def M6 (es : List (Option Expr)) (w : List Tok) (n : Nat) : Prop := Expr.clearO es = true →
  n = T.RPAR →
  Y N.__function_accessor_plus_13 (nd "__function_accessor_plus_13" (Expr.optTrees es)) w n ∨
  ∃ c ts w1 w2, Expr.optTrees es = c :: ts ∧ w = w1 ++ w2 ∧ Y N.value_brackets c w1 (nextT w2 n) ∧
    Y N.__function_accessor_plus_13 (nd "__function_accessor_plus_13" ts) w2 n
/-- objects -/
def M7 (is : List Item) (w : List Tok) (n : Nat) : Prop := Item.clearL is = true →
  Y N.object (nd "object" (Item.trees is)) w n ∧ Fst w
/-- members -/
def M8 (is : List Item) (w : List Tok) (n : Nat) : Prop := Item.clearL is = true →
  (is = [] ∧ w = []) ∨ Y N.__object_star_10 (nd "__object_star_10" (Item.trees is)) w n
/-- members behind commas -/
def M9 (is : List Item) (w : List Tok) (n : Nat) : Prop := Item.clearL is = true →
  (is = [] ∧ w = []) ∨ Y N.__object_star_9 (nd "__object_star_9" (Item.trees is)) w n
/-- `k: v` -/
def M10 (i : Item) (w : List Tok) (n : Nat) : Prop := i.clear = true → Y N.pair i.tree w n
/-- nested resources -/
def M11 (i : Item) (w : List Tok) (n : Nat) : Prop := i.clear = true →
  Y N.child_resource i.tree w n ∧ n ≠ T._CPP_COMMENT_NL
/-- loops -/
def M12 (l : Loop) (w : List Tok) (n : Nat) : Prop := l.clear = true → Y N.loop l.tree w n

/-- the symbol of a loop head -/
def LoopHead.sym : LoopHead → Nat
  | .arr _ _ => N.loop_array
  | .arrIdx _ _ _ => N.loop_array_index
  | .obj _ _ => N.loop_object
/-- loop heads -/
def M13 (h : LoopHead) (w : List Tok) (n : Nat) : Prop := h.clear = true → Y h.sym h.tree w n

/-- the symbol of a body -/
def Config.sym : Config → Nat
  | .obj _ => N.object
  | .loop _ => N.loop
  | .cond _ _ => N.deploy_condition
/-- bodies -/
def M14 (c : Config) (w : List Tok) (n : Nat) : Prop := c.clear = true → Y c.sym c.tree w n

theorem clearL_append (a b : List Expr) :
    Expr.clearL (a ++ b) = (Expr.clearL a && Expr.clearL b) := by
  induction a with
  | nil => simp [Expr.clearL]
  | cons e es ih => simp [Expr.clearL, ih, Bool.and_assoc]

theorem item_clearL_append (a b : List Item) :
    Item.clearL (a ++ b) = (Item.clearL a && Item.clearL b) := by
  induction a with
  | nil => simp [Item.clearL]
  | cons e es ih => simp [Item.clearL, ih, Bool.and_assoc]

theorem clearO_map (a : List Expr) : Expr.clearO (a.map some) = Expr.clearL a := by
  induction a with
  | nil => simp [Expr.clearL, Expr.clearO]
  | cons e es ih => simp [Expr.clearL, Expr.clearO, Expr.clear1, ih]

/-- line breaks -/
theorem breaks_yield {w : List Tok} (h : Breaks w) : ∀ n, w = [] ∨
    Y N.__child_resource_plus_3 (nd "__child_resource_plus_3" []) w n := by
  induction w using List.reverseRecOn with
  | nil => exact fun _ => .inl rfl
  | append_singleton w u ih =>
    intro n
    right
    have hu : u.type = T._CPP_COMMENT_NL := h u (by simp)
    rcases ih (fun v hv => h v (by simp [hv])) u.type with rfl | h
    · exact y_302 hu
    · exact y_303 h hu
theorem s_null {w u n} (ho : OptNewline w) (k : Kw "null" u) : M1 false .null (w ++ [u]) n := by
  intro _
  rcases ho with rfl | ⟨v, rfl, hv⟩
  · exact ⟨y_38 (kt_NULL k), fun _ => .cons (kt_NULL k) (by decide)⟩
  · exact ⟨y_37 hv (kt_NULL k), fun _ => .cons hv (by decide)⟩

theorem s_tru {w u n} (ho : OptNewline w) (k : Kw "true" u) : M1 false .tru (w ++ [u]) n := by
  intro _
  rcases ho with rfl | ⟨v, rfl, hv⟩
  · exact ⟨y_40 (kt_TRUE k), fun _ => .cons (kt_TRUE k) (by decide)⟩
  · exact ⟨y_39 hv (kt_TRUE k), fun _ => .cons hv (by decide)⟩

theorem s_fls {w u n} (ho : OptNewline w) (k : Kw "false" u) : M1 false .fls (w ++ [u]) n := by
  intro _
  rcases ho with rfl | ⟨v, rfl, hv⟩
  · exact ⟨y_42 (kt_FALSE k), fun _ => .cons (kt_FALSE k) (by decide)⟩
  · exact ⟨y_41 hv (kt_FALSE k), fun _ => .cons hv (by decide)⟩

theorem s_int {d w u n} (ho : OptNewline w) (k : Num d u) : M1 false (.int d) (w ++ [u]) n := by
  intro _
  obtain ⟨k1, k2⟩ := k
  have e : (Expr.int d).tree = nd "int_type" [tk T.INT u.text] := by rw [k2]; rfl
  rw [e]
  rcases ho with rfl | ⟨v, rfl, hv⟩
  · exact ⟨y_44 k1, fun _ => .cons k1 (by decide)⟩
  · exact ⟨y_43 hv k1, fun _ => .cons hv (by decide)⟩

theorem s_ident {x w u n} (ho : OptNewline w) (k : Id x u) : M1 false (.ident x) (w ++ [u]) n := by
  intro _
  obtain ⟨k1, k2⟩ := k
  have e : (Expr.ident x).tree = nd "string" [tk T.STRING u.text] := by rw [k2]; rfl
  rw [e]
  rcases ho with rfl | ⟨v, rfl, hv⟩
  · exact ⟨y_46 k1, fun _ => .cons k1 (by decide)⟩
  · exact ⟨y_45 hv k1, fun _ => .cons hv (by decide)⟩

theorem s_str {b w u n} (ho : OptNewline w) (k : Quoted b u) : M1 false (.str b) (w ++ [u]) n := by
  intro _
  obtain ⟨k1, k2⟩ := k
  have e : (Expr.str b).tree = nd "string" [tk T.QUOTED_INTERPOLATION u.text] := by rw [k2]; rfl
  rw [e]
  rcases ho with rfl | ⟨v, rfl, hv⟩
  · exact ⟨y_48 k1, fun _ => .cons k1 (by decide)⟩
  · exact ⟨y_47 hv k1, fun _ => .cons hv (by decide)⟩

theorem s_multi {b u n} (k : Multi b u) : M1 false (.multi b) [u] n := by
  intro _
  obtain ⟨k1, k2⟩ := k
  have e : (Expr.multi b).tree = nd "multi_line_string" [tk T.MULTI_LINE_STRING u.text] := by rw [k2]; rfl
  rw [e]
  exact ⟨y_49 k1, fun _ => .cons k1 (by decide)⟩

theorem s_array {es u w1 w2 v n} (ku : Kw "[" u) (hb : Breaks w1) (kv : Kw "]" v)
    (i : M3 es w2 v.type) : M1 false (.array es) (u :: (w1 ++ (w2 ++ [v]))) n := by
  intro hc
  refine ⟨?_, fun h => by simp [Expr.lead] at h⟩
  refine y_50 ?_ (w_expr_nometa _)
  rcases i hc with ⟨rfl, rfl⟩ | i
  · rcases breaks_yield hb v.type with rfl | hb
    · yy y_133 (kt_LSQB ku) (kt_RSQB kv)
    · yy y_131 (kt_LSQB ku) hb (kt_RSQB kv)
  · rcases breaks_yield hb (nextT w2 v.type) with rfl | hb
    · yy y_132 (kt_LSQB ku) i (kt_RSQB kv)
    · yy y_130 (kt_LSQB ku) hb i (kt_RSQB kv)

theorem s_object {is w n} (i : M7 is w n) : M1 false (.object is) w n := by
  intro hc
  exact ⟨y_51 (i hc).1 (w_expr_nometa (.object is)), fun _ => (i hc).2⟩

theorem s_call {f es w1 w2 n} (ho : OptNewline w1) (i : M4 f es w2 n) :
    M1 false (.call f es) (w1 ++ w2) n := by
  intro hc
  rcases ho with rfl | ⟨v, rfl, hv⟩
  · exact ⟨y_53 (i hc).1 (w_expr_nometa _), fun _ => (i hc).2⟩
  · exact ⟨y_52 hv (i hc).1 (w_expr_nometa _), fun _ => .cons hv (by decide)⟩

theorem s_bin {op s a b w1 u w2 n} (hs : BinOp.sign op = some s) (k : Kw s u) (hn : NoInfix n)
    (i1 : M1 true a w1 u.type) (i2 : M1 true b w2 n) :
    M1 false (.bin op a b) (w1 ++ (u :: w2)) n := by
  intro hc
  simp only [Expr.clear, Bool.and_eq_true] at hc
  obtain ⟨j1, f1⟩ := i1 hc.1
  obtain ⟨j2, _⟩ := i2 hc.2
  refine ⟨?_, fun h => (f1 (by simpa only [Expr.lead] using h)).append⟩
  cases op <;> simp only [BinOp.sign, Option.some.injEq, reduceCtorEq] at hs <;> subst hs
  · exact y_54 (y_239 (y_243 (y_251 j1 (kt___ANON_3 k) j2 hn) rfl)) rfl
  · exact y_54 (y_239 (y_244 (y_252 j1 (kt_MORETHAN k) j2 hn) rfl)) rfl
  · exact y_54 (y_239 (y_245 (y_253 j1 (kt___ANON_4 k) j2 hn) rfl)) rfl
  · exact y_54 (y_239 (y_246 (y_254 j1 (kt_LESSTHAN k) j2 hn) rfl)) rfl
  · exact y_54 (y_239 (y_247 (y_255 j1 (kt___ANON_5 k) j2 hn) rfl)) rfl
  · exact y_54 (y_239 (y_248 (y_256 j1 (kt___ANON_6 k) j2 hn) rfl)) rfl
  · exact y_54 (y_239 (y_249 (y_257 j1 (kt___ANON_7 k) j2 hn) rfl)) rfl
  · exact y_54 (y_239 (y_250 (y_258 j1 (kt___ANON_8 k) j2 hn) rfl)) rfl
  · exact y_54 (y_240 (y_259 (y_264 j1 (kt___ANON_9 k) j2 hn) rfl)) rfl
  · exact y_54 (y_240 (y_260 (y_265 j1 (kt___ANON_10 k) j2 hn) rfl)) rfl
  · exact y_54 (y_240 (y_262 (y_267 j1 (kt___ANON_11 k) j2 hn) rfl)) rfl
  · exact y_54 (y_241 (y_269 (y_275 j1 (kt_PLUS k) j2 hn) rfl)) rfl
  · exact y_54 (y_241 (y_270 (y_276 j1 (kt_SLASH k) j2 hn) rfl)) rfl
  · exact y_54 (y_241 (y_272 (y_278 j1 (kt_PERCENT k) j2 hn) rfl)) rfl
  · exact y_54 (y_241 (y_273 (y_279 j1 (kt_STAR k) j2 hn) rfl)) rfl
  · exact y_54 (y_241 (y_274 (y_280 j1 (kt_MINUS k) j2 hn) rfl)) rfl
  · exact y_54 (y_242 (y_283 (y_289 j1 (kt___ANON_12 k) j2 hn) rfl)) rfl
  · exact y_54 (y_242 (y_284 (y_291 j1 (kt_DOT k) j2 hn) rfl)) rfl

theorem s_safe {a b w1 u q w2 n} (k : Kw "." u) (kq : Kw "?" q) (hn : NoInfix n)
    (i1 : M1 true a w1 u.type) (i2 : M1 true b w2 n) :
    M1 false (.bin .prop a b) (w1 ++ (u :: q :: w2)) n := by
  intro hc
  simp only [Expr.clear, Bool.and_eq_true] at hc
  obtain ⟨j1, f1⟩ := i1 hc.1
  obtain ⟨j2, _⟩ := i2 hc.2
  refine ⟨?_, fun h => (f1 (by simpa only [Expr.lead] using h)).append⟩
  exact y_54 (y_242 (y_284 (y_290 j1 (kt_DOT k) (kt_QMARK kq) j2 hn) rfl)) rfl

theorem s_index {a b w1 u w2 v n} (k : Kw "[" u) (kv : Kw "]" v)
    (i1 : M1 true a w1 u.type) (i2 : M1 true b w2 v.type) :
    M1 false (.bin .index a b) (w1 ++ (u :: (w2 ++ [v]))) n := by
  intro hc
  simp only [Expr.clear, Bool.and_eq_true] at hc
  obtain ⟨j1, f1⟩ := i1 hc.1
  obtain ⟨j2, _⟩ := i2 hc.2
  refine ⟨?_, fun h => (f1 (by simpa only [Expr.lead] using h)).append⟩
  exact y_54 (y_242 (y_281 (y_286 j1 (kt_LSQB k) j2 (kt_RSQB kv)) rfl)) rfl

theorem s_safeIndex {a b w1 u q w2 v n} (k : Kw "[" u) (kq : Kw "?" q) (kv : Kw "]" v)
    (i1 : M1 true a w1 u.type) (i2 : M1 true b w2 v.type) :
    M1 false (.bin .index a b) (w1 ++ (u :: q :: (w2 ++ [v]))) n := by
  intro hc
  simp only [Expr.clear, Bool.and_eq_true] at hc
  obtain ⟨j1, f1⟩ := i1 hc.1
  obtain ⟨j2, _⟩ := i2 hc.2
  refine ⟨?_, fun h => (f1 (by simpa only [Expr.lead] using h)).append⟩
  exact y_54 (y_242 (y_281 (y_285 j1 (kt_LSQB k) (kt_QMARK kq) j2 (kt_RSQB kv)) rfl)) rfl

theorem s_not {a u w n} (k : Kw "!" u) (hn : NoInfix n) (i : M1 true a w n) :
    M1 false (.not a) (u :: w) n := by
  intro hc
  simp only [Expr.clear] at hc
  exact ⟨y_54 (y_240 (y_261 (y_266 (kt_BANG k) (i hc).1 hn) rfl)) rfl,
    fun _ => .cons (kt_BANG k) (by decide)⟩

theorem s_minus {a u w n} (k : Kw "-" u) (hn : NoInfix n) (i : M1 true a w n) :
    M1 false (.minus a) (u :: w) n := by
  intro hc
  simp only [Expr.clear] at hc
  exact ⟨y_54 (y_241 (y_271 (y_277 (kt_MINUS k) (i hc).1 hn) rfl)) rfl,
    fun h => by simp [Expr.lead] at h⟩

theorem s_cond {c t f w1 u w2 v w3 n} (k : Kw "?" u) (kv : Kw ":" v) (hn : NoInfix n)
    (i1 : M1 true c w1 u.type) (i2 : M1 true t w2 v.type) (i3 : M1 true f w3 n) :
    M1 false (.cond c t f) (w1 ++ (u :: (w2 ++ (v :: w3)))) n := by
  intro hc
  simp only [Expr.clear, Bool.and_eq_true] at hc
  obtain ⟨j1, f1⟩ := i1 hc.1
  obtain ⟨j2, _⟩ := i2 hc.2.1
  obtain ⟨j3, _⟩ := i3 hc.2.2
  refine ⟨?_, fun h => (f1 (by simpa only [Expr.lead] using h)).append⟩
  exact y_54 (y_240 (y_263 (y_268 j1 (kt_QMARK k) j2 (kt_COLON kv) j3 hn) rfl)) rfl

theorem s_method {a f args w1 u m p w2 q n} (k : Kw "." u) (km : Method f m) (kp : Kw "(" p)
    (kq : Kw ")" q) (i1 : M1 true a w1 u.type) (i2 : M6 args w2 q.type) :
    M1 false (.method a f args) (w1 ++ (u :: m :: p :: (w2 ++ [q]))) n := by
  intro hc
  simp only [Expr.clear, Bool.and_eq_true] at hc
  obtain ⟨j1, f1⟩ := i1 hc.1
  obtain ⟨k1, k2⟩ := km
  refine ⟨?_, fun h => (f1 (by simpa only [Expr.lead] using h)).append⟩
  have e : (Expr.method a f args).tree = nd "operator" [nd "function_accessor"
      (a.tree :: tk T.LIST_FUNC_NAME m.text :: Expr.optTrees args)] := by rw [k2]; rfl
  rw [e]
  rcases i2 hc.2 (kt_RPAR kq) with h | ⟨c, ts, v1, v2, e', rfl, h1, h2⟩
  · exact y_54 (y_242 (y_282 (y_288 j1 (kt_DOT k) k1 (kt_LPAR kp) h (kt_RPAR kq)) rfl)) rfl
  · rw [e', List.append_assoc]
    exact y_54 (y_242 (y_282 (y_287 j1 (kt_DOT k) k1 (kt_LPAR kp) h1 h2 (kt_RPAR kq)) rfl)) rfl

theorem s_lambda {x e w1 u w2 n} (k : Kw "=>" u) (hn : NoInfix n)
    (i1 : M1 true x w1 u.type) (i2 : M1 true e w2 n) :
    M1 false (.lambda x e) (w1 ++ (u :: w2)) n := by
  intro hc
  simp only [Expr.clear, Bool.and_eq_true] at hc
  obtain ⟨j1, f1⟩ := i1 hc.1
  obtain ⟨j2, _⟩ := i2 hc.2
  refine ⟨?_, fun h => (f1 (by simpa only [Expr.lead] using h)).append⟩
  exact y_55 (y_144 j1 (kt___ANON_0 k) j2 hn) rfl

theorem s_lambdaN {x1 x2 x3 xs e p w1 u w2 w3 q v w4 n} (kp : Kw "(" p) (ku : Kw "," u)
    (kq : Kw ")" q) (kv : Kw "=>" v) (hn : NoInfix n) (i1 : M1 true x1 w1 u.type)
    (i2 : M1 true x2 w2 (nextT w3 q.type)) (i3 : M2 (x3 :: xs) w3 q.type) (i4 : M1 true e w4 n) :
    M1 false (.lambdaN x1 x2 x3 xs e) (p :: (w1 ++ (u :: (w2 ++ (w3 ++ (q :: v :: w4)))))) n := by
  intro hc
  simp only [Expr.clear, Bool.and_eq_true] at hc
  obtain ⟨h1, h2, h3, h4, h5⟩ := hc
  obtain ⟨j1, _⟩ := i1 h1
  obtain ⟨j2, _⟩ := i2 h2
  obtain ⟨j4, _⟩ := i4 h5
  refine ⟨?_, fun _ => .cons (kt_LPAR kp) (by decide)⟩
  rcases i3 (by simp only [Expr.clearL, h3, h4, Bool.and_self]) with ⟨h, _⟩ | ⟨_, j3, _⟩
  · simp at h
  · exact y_55 (y_145 (kt_LPAR kp) j1 (kt_COMMA ku) j2 j3 (kt_RPAR kq) (kt___ANON_0 kv) j4 hn) rfl

theorem s_plain {e w n} (hn : NoBang n) (i : M1 false e w n) : M1 true e w n := by
  intro hc
  exact ⟨y_57 (i hc).1 hn (w_expr_nometa e), (i hc).2⟩

theorem s_paren {e p w q n} (kp : Kw "(" p) (kq : Kw ")" q) (hn : NoBang n)
    (i : M1 false e w q.type) : M1 true e (p :: (w ++ [q])) n := by
  intro hc
  exact ⟨y_59 (kt_LPAR kp) (i hc).1 (kt_RPAR kq) hn (w_expr_nometa e),
    fun _ => .cons (kt_LPAR kp) (by decide)⟩

theorem s_bang {e w v n} (kv : Kw "!" v) (i : M1 false e w v.type) : M1 true e (w ++ [v]) n := by
  intro hc
  exact ⟨y_56 (i hc).1 (kt_BANG kv) (w_expr_nometa e), fun h => ((i hc).2 h).append⟩

theorem s_parenBang {e p w q v n} (kp : Kw "(" p) (kq : Kw ")" q) (kv : Kw "!" v)
    (i : M1 false e w q.type) : M1 true e (p :: (w ++ [q, v])) n := by
  intro hc
  exact ⟨y_58 (kt_LPAR kp) (i hc).1 (kt_RPAR kq) (kt_BANG kv) (w_expr_nometa e),
    fun _ => .cons (kt_LPAR kp) (by decide)⟩

theorem s_eNil {n} : M2 [] [] n := fun _ => .inl ⟨rfl, rfl⟩

theorem s_eSnoc {es w1 u e w2 n} (k : Kw "," u) (hn : NoInfix n) (i1 : M2 es w1 u.type)
    (i2 : M1 true e w2 n) : M2 (es ++ [e]) (w1 ++ (u :: w2)) n := by
  intro hc
  simp only [clearL_append, Expr.clearL, Bool.and_eq_true, Bool.and_true] at hc
  obtain ⟨j2, _⟩ := i2 hc.2
  right
  refine ⟨by simp, ?_⟩
  rcases i1 hc.1 with ⟨rfl, rfl⟩ | ⟨_, h1, h2⟩
  · exact ⟨y_310 (kt_COMMA k) j2 hn, y_340 (kt_COMMA k) j2 hn⟩
  · constructor
    · yy y_311 h1 (kt_COMMA k) j2 hn
    · yy y_342 h2 (kt_COMMA k) j2 hn

theorem s_elNil {n} : M3 [] [] n := fun _ => .inl ⟨rfl, rfl⟩

theorem s_elSnoc {es e es' w1 w2 w3 w4 n} (hb : Breaks w4) (hn : NoInfix (nextT w4 n))
    (i1 : M3 es w1 (nextT (w2 ++ (w3 ++ w4)) n)) (i2 : M1 true e w2 (nextT (w3 ++ w4) n))
    (i3 : M2 es' w3 (nextT w4 n)) : M3 (es ++ e :: es') (w1 ++ (w2 ++ (w3 ++ w4))) n := by
  intro hc
  simp only [clearL_append, Expr.clearL, Bool.and_eq_true] at hc
  have j2 := (i2 hc.2.1).1
  have i1 := i1 hc.1
  have i3 := i3 hc.2.2
  right
  simp only [if_true] at j2
  rcases i3 with ⟨rfl, rfl⟩ | ⟨_, j3, _⟩
  · rcases breaks_yield hb n with rfl | hb
    · nh
      rcases i1 with ⟨rfl, rfl⟩ | j1
      · yy y_315 j2 hn
      · yy y_319 j1 j2 hn
    · nh
      rcases i1 with ⟨rfl, rfl⟩ | j1
      · yy y_314 j2 hb
      · yy y_318 j1 j2 hb
  · rcases breaks_yield hb n with rfl | hb
    · nh
      rcases i1 with ⟨rfl, rfl⟩ | j1
      · yy y_313 j2 j3
      · yy y_317 j1 j2 j3
    · nh
      rcases i1 with ⟨rfl, rfl⟩ | j1
      · yy y_312 j2 j3 hb
      · yy y_316 j1 j2 j3 hb

theorem s_args {f e es u w1 w2 w3 w4 v n} (kf : Fun f u) (h1 : OptBreak w1) (h4 : OptBreak w4)
    (kv : Kw ")" v) (i1 : M1 true e w2 (nextT (w3 ++ w4) v.type)) (i2 : M5 es w3 (nextT w4 v.type)) :
    M4 f (e :: es) (u :: (w1 ++ (w2 ++ (w3 ++ (w4 ++ [v]))))) n := by
  intro hc
  simp only [Expr.clearL, Bool.and_eq_true] at hc
  have j1 := (i1 hc.1).1
  have i2 := i2 hc.2
  simp only [if_true] at j1
  obtain ⟨k1, k2⟩ := kf
  have kv := kt_RPAR kv
  refine ⟨?_, .cons k1 (by decide)⟩
  have e : (Expr.call f (e :: es)).tree = nd "function"
      (tk T.FUNCTION u.text :: e.tree :: Expr.trees es) := by rw [k2]; rfl
  rw [e]
  rcases h1 with rfl | ⟨a, rfl, ka⟩ <;> rcases h4 with rfl | ⟨b, rfl, kb⟩ <;>
    rcases i2 with ⟨rfl, rfl⟩ | j2 <;> nh
  · yy y_235 k1 j1 kv
  · yy y_233 k1 j1 j2 kv
  · yy y_234 k1 j1 kb kv
  · yy y_232 k1 j1 j2 kb kv
  · yy y_227 k1 ka j1 kv
  · yy y_225 k1 ka j1 j2 kv
  · yy y_226 k1 ka j1 kb kv
  · yy y_224 k1 ka j1 j2 kb kv

theorem s_noArg {f es u w1 w3 w4 v n} (kf : Fun f u) (h1 : OptBreak w1) (h4 : OptBreak w4)
    (kv : Kw ")" v) (i2 : M5 es w3 (nextT w4 v.type)) :
    M4 f es (u :: (w1 ++ (w3 ++ (w4 ++ [v])))) n := by
  intro hc
  have i2 := i2 hc
  obtain ⟨k1, k2⟩ := kf
  have kv := kt_RPAR kv
  refine ⟨?_, .cons k1 (by decide)⟩
  have e : (Expr.call f es).tree = nd "function"
      (tk T.FUNCTION u.text :: Expr.trees es) := by rw [k2]; rfl
  rw [e]
  rcases h1 with rfl | ⟨a, rfl, ka⟩ <;> rcases h4 with rfl | ⟨b, rfl, kb⟩ <;>
    rcases i2 with ⟨rfl, rfl⟩ | j2 <;> nh
  · yy y_238 k1 kv
  · yy y_237 k1 j2 kv
  · yy y_231 k1 kb kv
  · yy y_236 k1 j2 kb kv
  · yy y_231 k1 ka kv
  · yy y_229 k1 ka j2 kv
  · yy y_230 k1 ka kb kv
  · yy y_228 k1 ka j2 kb kv

theorem s_fNil {n} : M5 [] [] n := fun _ => .inl ⟨rfl, rfl⟩

theorem s_fSnoc {es w1 u w2 e w3 n} (k : Kw "," u) (h2 : OptBreak w2) (hn : NoInfix n)
    (i1 : M5 es w1 u.type) (i2 : M1 true e w3 n) :
    M5 (es ++ [e]) (w1 ++ (u :: (w2 ++ w3))) n := by
  intro hc
  simp only [clearL_append, Expr.clearL, Bool.and_eq_true, Bool.and_true] at hc
  have j2 := (i2 hc.2).1
  simp only [if_true] at j2
  have k := kt_COMMA k
  right
  rcases i1 hc.1 with ⟨rfl, rfl⟩ | j1 <;> rcases h2 with rfl | ⟨a, rfl, ka⟩
  · yy y_337 k j2 hn
  · yy y_336 k ka j2 hn
  · yy y_339 j1 k j2 hn
  · yy y_338 j1 k ka j2 hn

theorem s_mEmpty {n} : M6 [.none] [] n := by
  rintro _ rfl
  exact .inl (y_341 (by decide))

theorem s_mOne {e w n} (i : M1 true e w n) : M6 [some e, .none] w n := by
  rintro hc rfl
  simp only [Expr.clearO, Expr.clear1, Bool.and_true] at hc
  exact .inr ⟨_, _, w, [], rfl, (List.append_nil w).symm, (i hc).1, y_341 (by decide)⟩

theorem s_mMany {e es e' w1 w2 n} (i1 : M1 true e w1 (nextT w2 n)) (i2 : M2 (es ++ [e']) w2 n) :
    M6 ((e :: es ++ [e']).map some) (w1 ++ w2) n := by
  intro hc _
  rw [clearO_map] at hc
  simp only [List.cons_append, Expr.clearL, Bool.and_eq_true] at hc
  rcases i2 hc.2 with ⟨h, _⟩ | ⟨_, _, j2⟩
  · simp at h
  · exact .inr ⟨_, _, w1, w2, rfl, rfl, (i1 hc.1).1, j2⟩

theorem s_mLead {es e' w n} (i2 : M2 (es ++ [e']) w n) : M6 ((es ++ [e']).map some) w n := by
  intro hc _
  rw [clearO_map] at hc
  rcases i2 hc with ⟨h, _⟩ | ⟨_, _, j2⟩
  · simp at h
  · exact .inl j2

theorem s_objMk {is u w1 w2 v n} (ku : Kw "{" u) (hb : Breaks w1) (kv : Kw "}" v)
    (i : M8 is w2 v.type) : M7 is (u :: (w1 ++ (w2 ++ [v]))) n := by
  intro hc
  have ku := kt_LBRACE ku
  have kv := kt_RBRACE kv
  refine ⟨?_, .cons ku (by decide)⟩
  rcases i hc with ⟨rfl, rfl⟩ | i
  · rcases breaks_yield hb v.type with rfl | hb
    · yy y_137 ku kv
    · yy y_135 ku hb kv
  · rcases breaks_yield hb (nextT w2 v.type) with rfl | hb
    · yy y_136 ku i kv
    · yy y_134 ku hb i kv

theorem s_iNil {n} : M8 [] [] n := fun _ => .inl ⟨rfl, rfl⟩

theorem s_pairs {is i is' w1 w2 w3 w4 n} (hb : Breaks w4)
    (i1 : M8 is w1 (nextT (w2 ++ (w3 ++ w4)) n)) (i2 : M10 i w2 (nextT (w3 ++ w4) n))
    (i3 : M9 is' w3 (nextT w4 n)) : M8 (is ++ i :: is') (w1 ++ (w2 ++ (w3 ++ w4))) n := by
  intro hc
  simp only [item_clearL_append, Item.clearL, Bool.and_eq_true] at hc
  have j2 := i2 hc.2.1
  have i1 := i1 hc.1
  have i3 := i3 hc.2.2
  right
  rcases i3 with ⟨rfl, rfl⟩ | j3
  · rcases breaks_yield hb n with rfl | hb
    · nh
      rcases i1 with ⟨rfl, rfl⟩ | j1
      · yy y_325 j2
      · yy y_331 j1 j2
    · nh
      rcases i1 with ⟨rfl, rfl⟩ | j1
      · yy y_324 j2 hb
      · yy y_330 j1 j2 hb
  · rcases breaks_yield hb n with rfl | hb
    · nh
      rcases i1 with ⟨rfl, rfl⟩ | j1
      · yy y_323 j2 j3
      · yy y_329 j1 j2 j3
    · nh
      rcases i1 with ⟨rfl, rfl⟩ | j1
      · yy y_322 j2 j3 hb
      · yy y_328 j1 j2 j3 hb

theorem s_child {is i w1 w2 w3 n} (hb : Breaks w3) (i1 : M8 is w1 (nextT (w2 ++ w3) n))
    (i2 : M11 i w2 (nextT w3 n)) : M8 (is ++ [i]) (w1 ++ (w2 ++ w3)) n := by
  intro hc
  simp only [item_clearL_append, Item.clearL, Bool.and_eq_true, Bool.and_true] at hc
  have j2 := (i2 hc.2).1
  have i1 := i1 hc.1
  right
  rcases breaks_yield hb n with rfl | hb
  · nh
    rcases i1 with ⟨rfl, rfl⟩ | j1
    · yy y_327 j2
    · yy y_333 j1 j2
  · nh
    rcases i1 with ⟨rfl, rfl⟩ | j1
    · yy y_326 j2 hb
    · yy y_332 j1 j2 hb

theorem s_pNil {n} : M9 [] [] n := fun _ => .inl ⟨rfl, rfl⟩

theorem s_pSnoc {is w1 u i w2 n} (k : Kw "," u) (i1 : M9 is w1 u.type) (i2 : M10 i w2 n) :
    M9 (is ++ [i]) (w1 ++ (u :: w2)) n := by
  intro hc
  simp only [item_clearL_append, Item.clearL, Bool.and_eq_true, Bool.and_true] at hc
  right
  rcases i1 hc.1 with ⟨rfl, rfl⟩ | h1
  · exact y_320 (kt_COMMA k) (i2 hc.2)
  · yy y_321 h1 (kt_COMMA k) (i2 hc.2)

theorem s_key {k u n} (h : KeySyn k u) : Y N.key k.tree [u] n := by
  cases h with
  | resource h =>
    have e : Key.resource.tree = nd "key" [tk T.RESOURCE u.text] := by rw [h.2]; rfl
    rw [e]; exact y_142 (kt_RESOURCE h)
  | @ident x _ h =>
    have e : (Key.ident x).tree = nd "key" [tk T.STRING u.text] := by rw [h.2]; rfl
    rw [e]; exact y_143 (y_127 h.1)
  | @word b _ h =>
    have e : (Key.quoted true b).tree = nd "key" [tk T.QUOTED_STRING u.text] := by rw [h.2]; rfl
    rw [e]; exact y_143 (y_128 h.1)
  | @quoted b _ h =>
    have e : (Key.quoted false b).tree = nd "key" [tk T.QUOTED_INTERPOLATION u.text] := by
      rw [h.2]; rfl
    rw [e]; exact y_143 (y_129 h.1)

theorem s_expr {k e u c w n} (h : KeySyn k u) (kc : Kw ":" c) (hn : NoInfix n)
    (i : M1 true e w n) : M10 (.pair k e) (u :: c :: w) n := by
  intro hc
  simp only [Item.clear] at hc
  exact y_139 (s_key h) (kt_COLON kc) (i hc).1 hn

theorem s_exprOpt {k e u c w q n} (h : KeySyn k u) (kc : Kw ":" c) (kq : Kw "?" q)
    (h1 : n ≠ T.STRING) (h2 : n ≠ T.QUOTED_INTERPOLATION) (i : M1 true e w q.type) :
    M10 (.pair k e) (u :: c :: (w ++ [q])) n := by
  intro hc
  simp only [Item.clear] at hc
  exact y_138 (s_key h) (kt_COLON kc) (i hc).1 (kt_QMARK kq) h1 h2

theorem s_loop {k l u c w n} (h : KeySyn k u) (kc : Kw ":" c) (i : M12 l w n) :
    M10 (.pairLoop k l) (u :: c :: w) n := by
  intro hc
  simp only [Item.clear] at hc
  exact y_141 (s_key h) (kt_COLON kc) (i hc)

theorem s_loopOpt {k l u c w q n} (h : KeySyn k u) (kc : Kw ":" c) (kq : Kw "?" q)
    (i : M12 l w q.type) : M10 (.pairLoop k l) (u :: c :: (w ++ [q])) n := by
  intro hc
  simp only [Item.clear] at hc
  exact y_140 (s_key h) (kt_COLON kc) (i hc) (kt_QMARK kq)

theorem s_childMk {l x b ex c u v q w1 e w2 w3 n} (ku : Kw "resource" u) (kv : Id x v)
    (kq : Quoted b q) (hx : ExistingSyn ex w1) (ke : Kw "=" e) (hb : Breaks w3) (h3 : w3 ≠ [])
    (hn : n ≠ T._CPP_COMMENT_NL) (hl : LinesOf l (u :: v :: q :: (w1 ++ (e :: (w2 ++ w3)))))
    (i : M14 c w2 (nextT w3 n)) :
    M11 (.child l x b ex c) (u :: v :: q :: (w1 ++ (e :: (w2 ++ w3)))) n := by
  intro hc
  refine ⟨?_, hn⟩
  simp only [Item.clear] at hc
  have j := i hc
  have hb := (breaks_yield hb n).resolve_left h3
  obtain ⟨kv1, kv2⟩ := kv
  obtain ⟨kq1, kq2⟩ := kq
  have e' : (Item.child l x b ex c).tree = ndl "child_resource" [tk T.STRING v.text,
      tk T.QUOTED_INTERPOLATION q.text, existingTree ex, c.tree] l := by rw [kv2, kq2]; rfl
  rw [e']
  have ku := kt_RESOURCE ku
  have ke := kt_EQUAL ke
  cases hx with
  | no =>
    cases c with
    | obj is => yy y_81 ku kv1 kq1 ke j hb hn hl
    | loop l => yy y_82 ku kv1 kq1 ke j hb hn hl
    | cond a b => yy y_83 ku kv1 kq1 ke j hb hn hl
  | @yes z kz =>
    have e2 : existingTree true = tk T.EXISTING z.text := by rw [kz.2]; rfl
    rw [e2]
    have kz := kt_EXISTING kz
    cases c with
    | obj is => yy y_78 ku kv1 kq1 kz ke j hb hn hl
    | loop l => yy y_79 ku kv1 kq1 kz ke j hb hn hl
    | cond a b => yy y_80 ku kv1 kq1 kz ke j hb hn hl

theorem s_loopPlain {h e u w1 f w2 c w3 w4 v n} (ku : Kw "[" u) (h1 : OptBreak w1)
    (kf : Kw "for" f) (kc : Kw ":" c) (h4 : OptBreak w4) (kv : Kw "]" v)
    (i1 : M13 h w2 c.type) (i2 : M1 true e w3 (nextT w4 v.type)) :
    M12 (.mk h .none e) (u :: (w1 ++ (f :: (w2 ++ (c :: (w3 ++ (w4 ++ [v]))))))) n := by
  intro hc
  simp only [Loop.clear, Bool.and_eq_true] at hc
  have j1 := i1 hc.1
  have j2 := (i2 hc.2.2.1).1
  simp only [if_true] at j2
  have ku := kt_LSQB ku
  have kf := kt_FOR kf
  have kc := kt_COLON kc
  have kv := kt_RSQB kv
  cases h <;> simp only [LoopHead.sym] at j1 <;> rcases h1 with rfl | ⟨a, rfl, ka⟩ <;>
    rcases h4 with rfl | ⟨b, rfl, kb⟩ <;> nh
  · yy y_113 ku kf j1 kc j2 kv
  · yy y_112 ku kf j1 kc j2 kb kv
  · yy y_101 ku ka kf j1 kc j2 kv
  · yy y_100 ku ka kf j1 kc j2 kb kv
  · yy y_117 ku kf j1 kc j2 kv
  · yy y_116 ku kf j1 kc j2 kb kv
  · yy y_105 ku ka kf j1 kc j2 kv
  · yy y_104 ku ka kf j1 kc j2 kb kv
  · yy y_121 ku kf j1 kc j2 kv
  · yy y_120 ku kf j1 kc j2 kb kv
  · yy y_109 ku ka kf j1 kc j2 kv
  · yy y_108 ku ka kf j1 kc j2 kb kv

theorem s_loopFilter {h a e u w1 f w2 c w0 w3 w4 v n} (ku : Kw "[" u) (h1 : OptBreak w1)
    (kf : Kw "for" f) (kc : Kw ":" c) (h4 : OptBreak w4) (kv : Kw "]" v)
    (i1 : M13 h w2 c.type) (i2 : M1 true a w0 (nextT (w3 ++ w4) v.type))
    (i3 : M1 true e w3 (nextT w4 v.type)) :
    M12 (.mk h (some a) e)
      (u :: (w1 ++ (f :: (w2 ++ (c :: (w0 ++ (w3 ++ (w4 ++ [v])))))))) n := by
  intro hc
  simp only [Loop.clear, Bool.and_eq_true, Expr.clear1, Option.isNone_some, Bool.false_or] at hc
  have j1 := i1 hc.1
  have j2 := (i2 hc.2.1).1
  obtain ⟨j3, f3⟩ := i3 hc.2.2.1
  have hg := f3 hc.2.2.2 (nextT w4 v.type)
  simp only [if_true] at j2 j3
  have ku := kt_LSQB ku
  have kf := kt_FOR kf
  have kc := kt_COLON kc
  have kv := kt_RSQB kv
  clear f3
  cases h <;> simp only [LoopHead.sym] at j1 <;> rcases h1 with rfl | ⟨a, rfl, ka⟩ <;>
    rcases h4 with rfl | ⟨b, rfl, kb⟩ <;> nh
  · yy y_111 ku kf j1 kc j2 hg j3 kv
  · yy y_110 ku kf j1 kc j2 hg j3 kb kv
  · yy y_99 ku ka kf j1 kc j2 hg j3 kv
  · yy y_98 ku ka kf j1 kc j2 hg j3 kb kv
  · yy y_115 ku kf j1 kc j2 hg j3 kv
  · yy y_114 ku kf j1 kc j2 hg j3 kb kv
  · yy y_103 ku ka kf j1 kc j2 hg j3 kv
  · yy y_102 ku ka kf j1 kc j2 hg j3 kb kv
  · yy y_119 ku kf j1 kc j2 hg j3 kv
  · yy y_118 ku kf j1 kc j2 hg j3 kb kv
  · yy y_107 ku ka kf j1 kc j2 hg j3 kv
  · yy y_106 ku ka kf j1 kc j2 hg j3 kb kv

theorem s_arr {x e u i w n} (ku : Id x u) (ki : Kw "in" i) (hn : NoInfix n) (j : M1 true e w n) :
    M13 (.arr x e) (u :: i :: w) n := by
  intro hc
  simp only [LoopHead.clear] at hc
  have e' : (LoopHead.arr x e).tree = nd "loop_array" [tk T.STRING u.text, e.tree] := by
    rw [ku.2]; rfl
  rw [e']
  exact y_122 ku.1 (kt_IN ki) (j hc).1 hn

theorem s_arrIdx {x y e p u c v q i w n} (kp : Kw "(" p) (ku : Id x u) (kc : Kw "," c)
    (kv : Id y v) (kq : Kw ")" q) (ki : Kw "in" i) (hn : NoInfix n) (j : M1 true e w n) :
    M13 (.arrIdx x y e) (p :: u :: c :: v :: q :: i :: w) n := by
  intro hc
  simp only [LoopHead.clear] at hc
  have e' : (LoopHead.arrIdx x y e).tree =
      nd "loop_array_index" [tk T.STRING u.text, tk T.STRING v.text, e.tree] := by
    rw [ku.2, kv.2]; rfl
  rw [e']
  exact y_123 (kt_LPAR kp) ku.1 (kt_COMMA kc) kv.1 (kt_RPAR kq) (kt_IN ki) (j hc).1 hn

theorem s_objHead {x e u i k p w q n} (ku : Id x u) (ki : Kw "in" i) (kk : Kw "items" k)
    (kp : Kw "(" p) (kq : Kw ")" q) (j : M1 true e w q.type) :
    M13 (.obj x e) (u :: i :: k :: p :: (w ++ [q])) n := by
  intro hc
  simp only [LoopHead.clear] at hc
  have e' : (LoopHead.obj x e).tree = nd "loop_object" [tk T.STRING u.text, e.tree] := by
    rw [ku.2]; rfl
  rw [e']
  exact y_124 ku.1 (kt_IN ki) (kt_ITEMS kk) (kt_LPAR kp) (j hc).1 (kt_RPAR kq)

theorem s_confObj {is w n} (i : M7 is w n) : M14 (.obj is) w n := by
  intro hc
  exact (i hc).1

theorem s_confLoop {l w n} (i : M12 l w n) : M14 (.loop l) w n := by
  intro hc
  exact i hc

theorem s_confCond {c e w1 i p w2 q w3 n} (h1 : OptBreak w1) (ki : Kw "if" i) (kp : Kw "(" p)
    (kq : Kw ")" q) (hn : NoInfix n) (i1 : M1 true c w2 q.type) (i2 : M1 true e w3 n) :
    M14 (.cond c e) (w1 ++ (i :: p :: (w2 ++ (q :: w3)))) n := by
  intro hc
  simp only [Config.clear, Bool.and_eq_true] at hc
  have j1 := (i1 hc.1).1
  have j2 := (i2 hc.2).1
  rcases h1 with rfl | ⟨a, rfl, ka⟩
  · exact y_126 (kt_IF ki) (kt_LPAR kp) j1 (kt_RPAR kq) j2 hn
  · exact y_125 ka (kt_IF ki) (kt_LPAR kp) j1 (kt_RPAR kq) j2 hn

/-- all cases -/
macro "all_cases " r:ident h:ident : tactic => `(tactic|
  exact $r
    (motive_1 := fun b e w n _ => M1 b e w n) (motive_2 := fun es w n _ => M2 es w n)
    (motive_3 := fun es w n _ => M3 es w n) (motive_4 := fun f es w n _ => M4 f es w n)
    (motive_5 := fun es w n _ => M5 es w n) (motive_6 := fun es w n _ => M6 es w n)
    (motive_7 := fun is w n _ => M7 is w n) (motive_8 := fun is w n _ => M8 is w n)
    (motive_9 := fun is w n _ => M9 is w n) (motive_10 := fun i w n _ => M10 i w n)
    (motive_11 := fun i w n _ => M11 i w n) (motive_12 := fun l w n _ => M12 l w n)
    (motive_13 := fun h w n _ => M13 h w n) (motive_14 := fun c w n _ => M14 c w n)
    (fun a b => s_null a b) (fun a b => s_tru a b) (fun a b => s_fls a b)
    (fun a b => s_int a b) (fun a b => s_ident a b) (fun a b => s_str a b) (fun a => s_multi a)
    (fun a b _ d i => s_array a b d i) (fun _ i => s_object i) (fun a _ i => s_call a i)
    (fun a _ c _ e i j => s_bin a c e i j) (fun _ b c _ e i j => s_safe b c e i j)
    (fun _ b _ d i j => s_index b d i j) (fun _ b c _ e i j => s_safeIndex b c e i j)
    (fun a _ c i => s_not a c i) (fun a _ c i => s_minus a c i)
    (fun _ b _ d _ f i j k => s_cond b d f i j k)
    (fun _ b c d _ f i j => s_method b c d f i j) (fun _ b _ d i j => s_lambda b d i j)
    (fun a _ c _ _ f g _ k i1 i2 i3 i4 => s_lambdaN a c f g k i1 i2 i3 i4)
    (fun _ b i => s_plain b i) (fun a _ c d i => s_paren a c d i) (fun _ b i => s_bang b i)
    (fun a _ c d i => s_parenBang a c d i)
    s_eNil (fun _ b _ d i j => s_eSnoc b d i j)
    s_elNil (fun _ _ _ d e i j k => s_elSnoc d e i j k)
    (fun a b _ _ e f i j => s_args a b e f i j) (fun a b _ d e i => s_noArg a b d e i)
    s_fNil (fun _ b c _ e i j => s_fSnoc b c e i j)
    s_mEmpty (fun _ i => s_mOne i) (fun _ _ i j => s_mMany i j) (fun _ i => s_mLead i)
    (fun a b _ d i => s_objMk a b d i)
    s_iNil (fun _ _ _ d i j k => s_pairs d i j k) (fun _ _ c i j => s_child c i j)
    s_pNil (fun _ b _ i j => s_pSnoc b i j)
    (fun a b _ d i => s_expr a b d i) (fun a b _ d e f i => s_exprOpt a b d e f i)
    (fun a b _ i => s_loop a b i) (fun a b _ d i => s_loopOpt a b d i)
    (fun a b c d e _ g h k l i => s_childMk a b c d e g h k l i)
    (fun a b c _ e _ g h i j => s_loopPlain a b c e g h i j)
    (fun a b c _ e _ _ h k i j l => s_loopFilter a b c e h k i j l)
    (fun a b _ d i => s_arr a b d i) (fun a b c d e f _ h i => s_arrIdx a b c d e f h i)
    (fun a b c d _ f i => s_objHead a b c d f i)
    (fun _ i => s_confObj i) (fun _ i => s_confLoop i)
    (fun a b c _ e _ g i j => s_confCond a b c e g i j) $h)

theorem ESyn.yields {b e w n} (h : ESyn b e w n) : M1 b e w n := by all_cases ESyn.rec h
theorem ObjSyn.yields {is w n} (h : ObjSyn is w n) : M7 is w n := by all_cases ObjSyn.rec h
theorem LoopSyn.yields {l w n} (h : LoopSyn l w n) : M12 l w n := by all_cases LoopSyn.rec h
theorem ConfigSyn.yields {c w n} (h : ConfigSyn c w n) : M14 c w n := by all_cases ConfigSyn.rec h

end Pycep
