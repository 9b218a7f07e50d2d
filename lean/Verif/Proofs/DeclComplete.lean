import Verif.Proofs.DecoComplete
import Verif.Proofs.ParseComplete
/-
Every way to write a program has an admissible derivation with the tree of the program.
-/
set_option linter.style.nameCheck false
set_option linter.unusedSimpArgs false
namespace Pycep

/-! ### Data types -/

theorem Suffixes.yields {k w} (h : Suffixes k w) : ∀ n, (k = 0 ∧ w = []) ∨
    Y N.__data_type_star_5
      (nd "__data_type_star_5" (List.replicate k (nd "array_suffix" []))) w n := by
  induction h with
  | zero => exact fun _ => .inl ⟨rfl, rfl⟩
  | @succ k w u v _ ku kv ih =>
    intro n
    have j : Y N.array_suffix (nd "array_suffix" []) [u, v] n := y_91 (kt_LSQB ku) (kt_RSQB kv)
    rcases ih (nextT [u, v] n) with ⟨rfl, rfl⟩ | ih
    · exact .inr (y_306 j)
    · right
      rw [List.replicate_succ']
      exact y_307 ih j

/-- what is shown for data types -/
def D1 (d : DataType) (w : List Tok) : Prop := ∀ n, Y N.data_type d.tree w n
/-- what is shown for base types -/
def D2 (d : BaseType) (w : List Tok) : Prop := ∀ n, Y N.base_type d.tree w n
/-- what is shown for alternatives -/
def D3 (ds : List DataType) (w : List Tok) : Prop := ∀ n, (ds = [] ∧ w = []) ∨
  Y N.__union_type_plus_6 (nd "__union_type_plus_6" (DataType.trees ds)) w n

theorem d_mk {b k w1 w2} (hs : Suffixes k w2) (i : D2 b w1) : D1 (.mk b k) (w1 ++ w2) := by
  intro n
  rcases hs.yields n with ⟨rfl, rfl⟩ | j
  · rw [List.append_nil]
    have := y_87 (i n)
    rw [DataType.tree]
    exact this
  · have := y_86 (i _) j
    rw [DataType.tree]
    exact this

theorem d_name {x u} (h : Id x u) : D2 (.name x) [u] := by
  intro n
  have e : (BaseType.name x).tree = nd "base_type" [tk T.STRING u.text] := by
    rw [h.2, BaseType.tree]
  rw [e]; exact y_88 h.1

theorem d_union {d1 d2 ds p w1 w2 q} (kp : Kw "(" p) (kq : Kw ")" q) (i : D1 d1 w1)
    (j : D3 (d2 :: ds) w2) : D2 (.union d1 d2 ds) (p :: (w1 ++ (w2 ++ [q]))) := by
  intro n
  have j := (j q.type).resolve_left (by simp)
  have := y_89 (y_90 (n := n) (kt_LPAR kp) (i _) j (kt_RPAR kq))
  rw [BaseType.tree]
  simpa [DataType.trees] using this

theorem d_nil : D3 [] [] := fun _ => .inl ⟨rfl, rfl⟩

theorem d_snoc {ds w1 u d w2} (k : Kw "|" u) (i : D3 ds w1) (j : D1 d w2) :
    D3 (ds ++ [d]) (w1 ++ (u :: w2)) := by
  intro n
  right
  rw [w_dts_append]
  rcases i u.type with ⟨rfl, rfl⟩ | i
  · have := y_308 (kt_VBAR k) (j n)
    simpa [DataType.trees] using this
  · have := y_309 i (kt_VBAR k) (j n)
    simpa [DataType.trees] using this

theorem TypeSyn.yields {d w} (h : TypeSyn d w) : ∀ n, Y N.data_type d.tree w n :=
  TypeSyn.rec (motive_1 := fun d w _ => D1 d w) (motive_2 := fun d w _ => D2 d w)
    (motive_3 := fun d w _ => D3 d w) (fun _ b i => d_mk b i) (fun a => d_name a)
    (fun a _ _ d i j => d_union a d i j) d_nil (fun _ b _ i j => d_snoc b i j) h

/-! ### Decorators -/

theorem DecoSyn.yields {d w} (h : DecoSyn d w) (hc : d.clear = true) : ∀ n,
    Y N.decorator d.tree w n := by
  intro n
  cases h with
  | @noArg d a u p w1 q w2 ka ku kp b1 l1 kq b2 l2 =>
    have e : Deco.tree ⟨d, .none⟩ = nd "decorator" [tk T.__ANON_2 u.text] := by rw [ku.2]; rfl
    rw [e]
    have ka := kt_AT ka
    have kp := kt_LPAR kp
    have kq := kt_RPAR kq
    match w1, b1, l1 with
    | [], _, _ => exact deco_none ka ku.1 kp kq _ b2 l2
    | [x], b1, _ => exact deco_b ka ku.1 kp (b1 x (by simp)) kq _ b2 l2
    | [x, y], b1, _ => exact deco_bb ka ku.1 kp (b1 x (by simp)) (b1 y (by simp)) kq _ b2 l2
    | _ :: _ :: _ :: _, _, l => simp at l
  | @arg d e a u p w1 w2 w3 q w4 ka ku kp b1 he b3 kq b4 l4 =>
    have e' : Deco.tree ⟨d, some e⟩ = nd "decorator" (tk T.__ANON_2 u.text :: [e.tree]) := by
      rw [ku.2]; rfl
    rw [e']
    have ka := kt_AT ka
    have kp := kt_LPAR kp
    have kq := kt_RPAR kq
    have j := (he.yields hc).1
    simp only [if_true] at j
    rcases b1 with rfl | ⟨x, rfl, kx⟩ <;> rcases b3 with rfl | ⟨y, rfl, ky⟩ <;> nh
    · exact deco_a ka ku.1 kp kq j _ b4 l4
    · exact deco_ab ka ku.1 kp ky kq j _ b4 l4
    · exact deco_ba ka ku.1 kp kx kq j _ b4 l4
    · exact deco_bab ka ku.1 kp kx ky kq j _ b4 l4

theorem DecosSyn.plus {ds w} (h : DecosSyn ds w) : ds.all Deco.clear = true → ∀ n,
    (ds = [] ∧ w = []) ∨ (ds ≠ [] ∧
    Y N.__decorators_plus_11 (nd "__decorators_plus_11" (ds.map Deco.tree)) w n) := by
  induction h with
  | nil => exact fun _ _ => .inl ⟨rfl, rfl⟩
  | @snoc ds d w1 w2 _ h2 ih =>
    intro hc n
    simp only [List.all_append, List.all_cons, List.all_nil, Bool.and_true,
      Bool.and_eq_true] at hc
    refine .inr ⟨by simp, ?_⟩
    have j := h2.yields hc.2 n
    rcases ih hc.1 (nextT w2 n) with ⟨rfl, rfl⟩ | ⟨_, i⟩
    · exact y_334 j
    · rw [List.map_append]
      exact y_335 i j

theorem DecosSyn.yields {ds w} (h : DecosSyn ds w) (hc : ds.all Deco.clear = true) (n : Nat) :
    (ds = [] ∧ w = []) ∨ Y N.decorators (decosTree ds) w n := by
  rcases h.plus hc n with h | ⟨hd, h⟩
  · exact .inl h
  · right
    have e : ds.isEmpty = false := by cases ds <;> simp_all
    rw [decosTree, e]
    exact y_223 h

/-! ### Parts of declarations -/

theorem ValueSyn.var {v w n} (h : ValueSyn v w n) (hc : v.clear = true) :
    Y N.var_value v.tree w n := by
  cases h with
  | expr h hn => exact y_67 (h.yields hc).1 hn (w_expr_nometa _)
  | loop h => exact y_68 (h.yields hc) (w_loop_nometa _)

theorem ValueSyn.output {v w n} (h : ValueSyn v w n) (hc : v.clear = true) :
    Y N.output_value v.tree w n := by
  cases h with
  | expr h hn => exact y_70 (h.yields hc).1 hn (w_expr_nometa _)
  | loop h => exact y_71 (h.yields hc) (w_loop_nometa _)

theorem ConfigSyn.resource {c w n} (h : ConfigSyn c w n) (hc : c.clear = true) :
    Y N.resource_value c.tree w n := by
  have j := h.yields hc
  cases c with
  | obj => exact y_72 j (w_config_nometa (.obj _))
  | loop => exact y_73 j (w_loop_nometa _)
  | cond => exact y_74 j (w_config_nometa (.cond _ _))

theorem ConfigSyn.module {c w n} (h : ConfigSyn c w n) (hc : c.clear = true) :
    Y N.module_value c.tree w n := by
  have j := h.yields hc
  cases c with
  | obj => exact y_75 j (w_config_nometa (.obj _))
  | loop => exact y_76 j (w_loop_nometa _)
  | cond => exact y_77 j (w_config_nometa (.cond _ _))

theorem ImportSyn.yields {i w} (h : ImportSyn i w) : ∀ n, Y N.import_alias i.tree w n := by
  intro n
  cases h with
  | name h =>
    rw [show ImportItem.tree _ = nd "import_alias" [_, _] from rfl]
    simp only [optIdentTree]
    rw [← h.2]; exact y_95 h.1
  | star h =>
    rw [show ImportItem.tree _ = nd "import_alias" [_, _] from rfl]
    simp only [optIdentTree]
    rw [← h.2]; exact y_97 h.1
  | nameAs h ka h' =>
    rw [show ImportItem.tree _ = nd "import_alias" [_, _] from rfl]
    simp only [optIdentTree]
    rw [← h.2, ← h'.2]; exact y_94 h.1 (kt_AS ka) h'.1
  | starAs h ka h' =>
    rw [show ImportItem.tree _ = nd "import_alias" [_, _] from rfl]
    simp only [optIdentTree]
    rw [← h.2, ← h'.2]; exact y_96 h.1 (kt_AS ka) h'.1

theorem ImportTail.yields {is w} (h : ImportTail is w) : ∀ n, (is = [] ∧ w = []) ∨
    Y N.___import_statement_star_1
      (nd "___import_statement_star_1" (is.map ImportItem.tree)) w n := by
  induction h with
  | nil => exact fun _ => .inl ⟨rfl, rfl⟩
  | snoc _ k h ih =>
    intro n
    right
    rw [List.map_append]
    rcases ih _ with ⟨rfl, rfl⟩ | ih
    · exact y_298 (kt_COMMA k) (h.yields n)
    · exact y_299 ih (kt_COMMA k) (h.yields n)

theorem ParamTail.yields {ps w} (h : ParamTail ps w) : ∀ n, (ps = [] ∧ w = []) ∨
    Y N.___func_statement_star_2 (nd "___func_statement_star_2" (paramTrees ps)) w n := by
  induction h with
  | nil => exact fun _ => .inl ⟨rfl, rfl⟩
  | @snoc ps w1 u x v d w2 _ k hv h ih =>
    intro n
    right
    rw [w_params_append, show paramTrees [(x, d)] = [tk T.STRING v.text, d.tree] by
      rw [hv.2]; rfl]
    rcases ih u.type with ⟨rfl, rfl⟩ | ih
    · exact y_300 (kt_COMMA k) hv.1 (h.yields n)
    · exact y_301 ih (kt_COMMA k) hv.1 (h.yields n)

theorem AltTail.yields {es w n} (h : AltTail es w n) : Expr.clearL es = true → (es = [] ∧ w = []) ∨
    Y N.__type_value_star_4 (nd "__type_value_star_4" (Expr.trees es)) w n := by
  induction h with
  | nil => exact fun _ => .inl ⟨rfl, rfl⟩
  | snoc _ k h hn ih =>
    intro hc
    simp only [clearL_append, Expr.clearL, Bool.and_eq_true, Bool.and_true] at hc
    right
    rw [w_exprs_append]
    have j := (h.yields hc.2).1
    rcases ih hc.1 with ⟨rfl, rfl⟩ | ih
    · exact y_304 (kt_VBAR k) j hn
    · exact y_305 ih (kt_VBAR k) j hn

theorem typeValue_yields {e es w1 w2 n} (h1 : ESyn true e w1 (nextT w2 n)) (h2 : AltTail es w2 n)
    (hn : NoInfix n) (hc : e.clear = true) (hcs : Expr.clearL es = true) :
    Y N.type_value (typeValueTree e es) (w1 ++ w2) n := by
  have j := (h1.yields hc).1
  simp only [if_true] at j
  cases es with
  | nil =>
    rcases h2.yields hcs with ⟨_, rfl⟩ | h
    · rw [List.append_nil]
      exact y_85 j hn (w_expr_nometa _)
    · generalize he : ([] : List Expr) = es at h2
      cases h2 with
      | nil =>
        rw [List.append_nil]
        exact y_85 j hn (w_expr_nometa _)
      | snoc => simp at he
  | cons a es =>
    have h := (h2.yields hcs).resolve_left (by simp)
    exact y_84 j h

theorem func_yields {x ps t e v p w1 q w2 a w3 n} (kv : Id x v) (kp : Kw "(" p)
    (hp : ParamsSyn ps w1) (kq : Kw ")" q) (ht : TypeSyn t w2) (ka : Kw "=>" a)
    (he : ESyn true e w3 n) (hn : NoInfix n) (hc : e.clear = true) :
    Y N._func_statement (nd "_func_statement" (tk T.STRING x.1 ::
      (paramTrees ps ++ [t.tree, e.tree]))) (v :: p :: (w1 ++ (q :: (w2 ++ (a :: w3))))) n := by
  have j := (he.yields hc).1
  simp only [if_true] at j
  rw [← kv.2]
  cases hp with
  | nil => exact y_66 kv.1 (kt_LPAR kp) (kt_RPAR kq) (ht.yields _) (kt___ANON_0 ka) j hn
  | @mk y d ps z w1 w2' hz hd hp =>
    rw [show paramTrees ((y, d) :: ps) = tk T.STRING z.text :: d.tree :: paramTrees ps by
      rw [hz.2]; rfl]
    rcases hp.yields q.type with ⟨rfl, rfl⟩ | hp
    · yy y_65 kv.1 (kt_LPAR kp) hz.1 (hd.yields _) (kt_RPAR kq) (ht.yields _) (kt___ANON_0 ka) j hn
    · yy y_64 kv.1 (kt_LPAR kp) hz.1 (hd.yields _) hp (kt_RPAR kq) (ht.yields _) (kt___ANON_0 ka) j hn

/-! ### Declarations -/

theorem DeclSyn.yields {d w n} (h : DeclSyn d w n) (hc : d.clear = true) {l : Lines}
    (hl : LinesOf l w) : Y N.element (d.tree l) w n := by
  cases h with
  | scope ku ke kq =>
    rw [Decl.tree, ← kq.2]
    exact y_2 (kt_TARGETSCOPE ku) (kt_EQUAL ke) kq.1 hl
  | importNs ku kq =>
    rw [Decl.tree, ← kq.2]
    exact y_3 (kt_IMPORT ku) (y_63 kq.1) hl
  | importOne ku hi kf kq =>
    rw [Decl.tree, ← kq.2]
    exact y_3 (kt_IMPORT ku) (y_62 (hi.yields _) (kt_FROM kf) kq.1) hl
  | importList ku ko hi hs kc kf kq =>
    rw [Decl.tree, ← kq.2]
    rcases hs.yields _ with ⟨rfl, rfl⟩ | j
    · exact y_3 (kt_IMPORT ku) (y_61 (kt_LBRACE ko) (hi.yields _) (kt_RBRACE kc) (kt_FROM kf) kq.1) hl
    · exact y_3 (kt_IMPORT ku)
        (y_60 (kt_LBRACE ko) (hi.yields _) j (kt_RBRACE kc) (kt_FROM kf) kq.1) hl
  | @extension x c al u v w1 w2 _ ku kv hw ha =>
    rw [Decl.tree.eq_def]
    simp only
    rw [← kv.2]
    cases hw with
    | no =>
      cases ha with
      | no => exact y_7 (kt_EXTENSION ku) kv.1 hl
      | yes ka kx => simp only [optIdentTree]; rw [← kx.2]; exact y_6 (kt_EXTENSION ku) kv.1 (kt_AS ka) kx.1 hl
    | yes kw ho =>
      have j := (ho.yields hc).1
      cases ha with
      | no =>
        nh
        yy y_5 (kt_EXTENSION ku) kv.1 (kt_WITH kw) j hl
      | yes ka kx =>
        simp only [optIdentTree]; rw [← kx.2]
        exact y_4 (kt_EXTENSION ku) kv.1 (kt_WITH kw) j (kt_AS ka) kx.1 hl
  | metadata ku kv ke kq =>
    rw [Decl.tree, ← kv.2, ← kq.2]
    exact y_8 (kt_METADATA ku) kv.1 (kt_EQUAL ke) (y_69 kq.1) hl
  | @param ds x t o w0 u v w1 w2 w3 _ hd ku kv ht hq ho =>
    simp only [Decl.clear, Bool.and_eq_true] at hc
    rw [Decl.tree, ← kv.2]
    have j0 := hd.yields hc.1 u.type
    have ku := kt_PARAM ku
    cases ho with
    | no =>
      rcases hq with rfl | ⟨a, rfl, ka⟩ <;> rcases j0 with ⟨rfl, rfl⟩ | j0 <;> nh
      · yy y_16 ku kv.1 (ht.yields _) hl
      · yy y_12 j0 ku kv.1 (ht.yields _) hl
      · yy y_14 ku kv.1 (ht.yields _) (kt_QMARK ka) hl
      · yy y_10 j0 ku kv.1 (ht.yields _) (kt_QMARK ka) hl
    | yes ke he hn =>
      have j := (he.yields hc.2).1
      simp only [if_true] at j
      have ke := kt_EQUAL ke
      rcases hq with rfl | ⟨a, rfl, ka⟩ <;> rcases j0 with ⟨rfl, rfl⟩ | j0 <;> nh
      · yy y_15 ku kv.1 (ht.yields _) ke j hn hl
      · yy y_11 j0 ku kv.1 (ht.yields _) ke j hn hl
      · yy y_13 ku kv.1 (ht.yields _) (kt_QMARK ka) ke j hn hl
      · yy y_9 j0 ku kv.1 (ht.yields _) (kt_QMARK ka) ke j hn hl
  | @var ds x t e w0 u v w1 q w2 _ hd ku kv ht ke he =>
    simp only [Decl.clear, Bool.and_eq_true] at hc
    rw [Decl.tree.eq_def]
    simp only
    rw [← kv.2]
    have j0 := hd.yields hc.1 u.type
    have j := he.var hc.2
    have ku := kt_VAR ku
    have ke := kt_EQUAL ke
    cases ht with
    | no =>
      rcases j0 with ⟨rfl, rfl⟩ | j0 <;> nh
      · yy y_22 ku kv.1 ke j hl
      · yy y_19 j0 ku kv.1 ke j hl
    | yes ht hq =>
      rcases hq with rfl | ⟨a, rfl, ka⟩ <;> rcases j0 with ⟨rfl, rfl⟩ | j0 <;> nh
      · yy y_21 ku kv.1 (ht.yields _) ke j hl
      · yy y_18 j0 ku kv.1 (ht.yields _) ke j hl
      · yy y_20 ku kv.1 (ht.yields _) (kt_QMARK ka) ke j hl
      · yy y_17 j0 ku kv.1 (ht.yields _) (kt_QMARK ka) ke j hl
  | @output ds x t e w0 u v w1 w2 q w3 _ hd ku kv ht hq ke he =>
    simp only [Decl.clear, Bool.and_eq_true] at hc
    rw [Decl.tree, ← kv.2]
    have j0 := hd.yields hc.1 u.type
    have j := he.output hc.2
    have ku := kt_OUTPUT ku
    have ke := kt_EQUAL ke
    rcases hq with rfl | ⟨a, rfl, ka⟩ <;> rcases j0 with ⟨rfl, rfl⟩ | j0 <;> nh
    · yy y_26 ku kv.1 (ht.yields _) ke j hl
    · yy y_24 j0 ku kv.1 (ht.yields _) ke j hl
    · yy y_25 ku kv.1 (ht.yields _) (kt_QMARK ka) ke j hl
    · yy y_23 j0 ku kv.1 (ht.yields _) (kt_QMARK ka) ke j hl
  | @resource ds x b ex c w0 u v t w1 q w2 _ hd ku kv kt hx ke hg =>
    simp only [Decl.clear, Bool.and_eq_true] at hc
    rw [Decl.tree, ← kv.2, ← kt.2]
    have j0 := hd.yields hc.1 u.type
    have j := hg.resource hc.2
    have ku := kt_RESOURCE ku
    have ke := kt_EQUAL ke
    have kt := fun n => y_92 (n := n) kt.1
    cases hx with
    | no =>
      rcases j0 with ⟨rfl, rfl⟩ | j0 <;> nh
      · yy y_30 ku kv.1 (kt _) ke j hl
      · yy y_28 j0 ku kv.1 (kt _) ke j hl
    | @yes z kz =>
      rw [show existingTree true = tk T.EXISTING z.text by rw [kz.2]; rfl]
      have kz := kt_EXISTING kz
      rcases j0 with ⟨rfl, rfl⟩ | j0 <;> nh
      · yy y_29 ku kv.1 (kt _) kz ke j hl
      · yy y_27 j0 ku kv.1 (kt _) kz ke j hl
  | @module ds x b c w0 u v t q w _ hd ku kv kt ke hg =>
    simp only [Decl.clear, Bool.and_eq_true] at hc
    rw [Decl.tree, ← kv.2, ← kt.2]
    have j0 := hd.yields hc.1 u.type
    have j := hg.module hc.2
    have ku := kt_MODULE ku
    have ke := kt_EQUAL ke
    have kt := fun n => y_93 (n := n) kt.1
    rcases j0 with ⟨rfl, rfl⟩ | j0 <;> nh
    · yy y_32 ku kv.1 (kt _) ke j hl
    · yy y_31 j0 ku kv.1 (kt _) ke j hl
  | @typ ds x e es w0 u v q w1 w2 _ hd ku kv ke he ha hn =>
    simp only [Decl.clear, Bool.and_eq_true] at hc
    rw [Decl.tree, ← kv.2]
    have j0 := hd.yields hc.1 u.type
    have j := typeValue_yields he ha hn hc.2.1 hc.2.2
    have ku := kt_TYPE ku
    have ke := kt_EQUAL ke
    rcases j0 with ⟨rfl, rfl⟩ | j0 <;> nh
    · yy y_34 ku kv.1 ke j hl
    · yy y_33 j0 ku kv.1 ke j hl
  | @func ds x ps t e w0 u v p w1 q w2 a w3 _ hd ku kv kp hp kq ht ka he hn =>
    simp only [Decl.clear, Bool.and_eq_true] at hc
    rw [Decl.tree]
    have j0 := hd.yields hc.1 u.type
    have j := func_yields kv kp hp kq ht ka he hn hc.2
    have ku := kt_FUNC ku
    rcases j0 with ⟨rfl, rfl⟩ | j0 <;> nh
    · yy y_36 ku j hl
    · yy y_35 j0 ku j hl

/-- Declarations do not begin with a line break. -/
theorem DecosSyn.first {ds w} (h : DecosSyn ds w) : w = [] ∨ ∃ u w', w = u :: w' ∧ u.type = T.AT := by
  induction h with
  | nil => exact .inl rfl
  | @snoc ds d w1 w2 _ hd ih =>
    right
    have : ∃ u w', w2 = u :: w' ∧ u.type = T.AT := by
      cases hd with
      | noArg ka => exact ⟨_, _, rfl, kt_AT ka⟩
      | arg ka => exact ⟨_, _, rfl, kt_AT ka⟩
    obtain ⟨u, w', rfl, k⟩ := this
    rcases ih with rfl | ⟨u', w'', rfl, k'⟩
    · exact ⟨_, _, rfl, k⟩
    · exact ⟨_, _, rfl, k'⟩

theorem DecosSyn.first_ne {ds w u w' n} (h : DecosSyn ds w) (hu : u.type ≠ T._CPP_COMMENT_NL) :
    nextT (w ++ u :: w') n ≠ T._CPP_COMMENT_NL := by
  rcases h.first with rfl | ⟨a, w', rfl, k⟩
  · exact hu
  · rw [List.cons_append, nextT_cons, k]; decide

theorem DeclSyn.first_ne {d w n} (h : DeclSyn d w n) (m : Nat) : nextT w m ≠ T._CPP_COMMENT_NL := by
  cases h with
  | scope k => rw [nextT_cons, kt_TARGETSCOPE k]; decide
  | importNs k => rw [nextT_cons, kt_IMPORT k]; decide
  | importOne k => rw [nextT_cons, kt_IMPORT k]; decide
  | importList k => rw [nextT_cons, kt_IMPORT k]; decide
  | extension k => rw [nextT_cons, kt_EXTENSION k]; decide
  | metadata k => rw [nextT_cons, kt_METADATA k]; decide
  | param h k => exact h.first_ne (by rw [kt_PARAM k]; decide)
  | var h k => exact h.first_ne (by rw [kt_VAR k]; decide)
  | output h k => exact h.first_ne (by rw [kt_OUTPUT k]; decide)
  | resource h k => exact h.first_ne (by rw [kt_RESOURCE k]; decide)
  | module h k => exact h.first_ne (by rw [kt_MODULE k]; decide)
  | typ h k => exact h.first_ne (by rw [kt_TYPE k]; decide)
  | func h k => exact h.first_ne (by rw [kt_FUNC k]; decide)

/-! ### Programs -/

/-- trees of declarations -/
def declTrees (p : Program) : List Tree := p.map (fun d => d.2.tree d.1)

/-- what is shown for programs -/
def Q (p : Program) (w : List Tok) (n : Nat) : Prop := (p = [] ∧ w = []) ∨
  ((n ≠ T._CPP_COMMENT_NL → Y N.__start_star_0 (nd "__start_star_0" (declTrees p)) w n) ∧
   (n = T._CPP_COMMENT_NL → ∀ u m, u.type = T._CPP_COMMENT_NL →
     Y N.__start_star_0 (nd "__start_star_0" (declTrees p)) (w ++ [u]) m))

theorem ProgSyn.yields {p w n} (h : ProgSyn p w n) : p.clear = true → Q p w n := by
  induction h with
  | nil => exact fun _ => .inl ⟨rfl, rfl⟩
  | @decl p l d w1 w2 n _ hd hl ih =>
    intro hc
    simp only [Program.clear, List.all_append, List.all_cons, List.all_nil, Bool.and_true,
      Bool.and_eq_true] at hc
    have j := hd.yields hc.2 hl
    have ih := ih hc.1
    right
    have e : declTrees (p ++ [(l, d)]) = declTrees p ++ [d.tree l] := by simp [declTrees]
    rw [e]
    refine ⟨fun hn => ?_, ?_⟩
    · rcases ih with ⟨rfl, rfl⟩ | ⟨i, _⟩
      · exact y_293 j hn
      · exact y_296 (i (hd.first_ne n)) j hn
    · rintro rfl u m hu
      rw [← hu] at j
      rcases ih with ⟨rfl, rfl⟩ | ⟨i, _⟩
      · exact y_292 j hu
      · have i := i (hd.first_ne _)
        rw [← hu] at i
        have := y_295 (n := m) i j hu
        simpa only [List.append_assoc] using this
  | @nl p w u n _ hu ih =>
    intro hc
    have i := ih hc
    have main : ∀ m, Y N.__start_star_0 (nd "__start_star_0" (declTrees p)) (w ++ [u]) m := by
      intro m
      rcases i with ⟨rfl, rfl⟩ | ⟨_, i⟩
      · exact y_294 hu
      · exact i hu u m hu
    refine .inr ⟨fun _ => main n, ?_⟩
    rintro _ v m hv
    exact y_297 (main _) hv

theorem ProgSyn.derives {p : Program} {w : List Tok} (h : ProgSyn p w tEND) (hc : p.clear = true) :
    ∃ t, DerB [N.start] [t] w tEND ∧ t.core = p.tree := by
  have hy : Y N.start p.tree w tEND := by
    rcases h.yields hc with ⟨rfl, rfl⟩ | ⟨i, _⟩
    · exact y_1
    · exact y_0 (i (by decide))
  obtain ⟨_, ts, hd, hts⟩ := hy
  match ts, hts with
  | [], hts => simp [coreList] at hts
  | [t], hts =>
    refine ⟨t, hd, ?_⟩
    simpa [coreList] using hts
  | _ :: _ :: _, hts => simp [coreList] at hts

end Pycep
