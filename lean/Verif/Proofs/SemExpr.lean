import Verif.Proofs.SemBase
/-
The transformer applied to the tree of an expression gives the meaning of the expression.
-/
namespace Pycep

/-- the result of a stateless transformation -/
def pureR (st : TState) (r : Except VErr α) : Except VErr (α × TState) := r.map (·, st)

@[simp] theorem pureR_ok (st : TState) (a : α) : pureR st (.ok a) = .ok (a, st) := rfl
@[simp] theorem pureR_error (st : TState) (e) : pureR (α := α) st (.error e) = .error e := rfl

/-- a method call, wrapped -/
def callR (d : String) (f : Callback) (ln : Bool) (sp : Option Span) (r : List Val × TState) :
    Except VErr (Val × TState) :=
  match f ln sp r.1 r.2 with
  | .ok r => .ok r
  | .error e => .error (.visit d e)

theorem transform_node (ln d ks sp st) {f} (h : callbacks.lookup d = some f) :
    transform ln (.node d ks sp) st = (transformList ln ks st).bind (callR d f ln sp) := by
  unfold transform
  simp only [h]
  rfl

/-- a node with a stateless method -/
theorem transform_plain {d f} (h : callbacks.lookup d = some (plain f)) (ln ks st) :
    transform ln (nd d ks) st =
      (transformList ln ks st).bind (fun r => pureR r.2 (inRule d (f r.1))) := by
  unfold nd
  rw [transform_node _ _ _ _ _ h]
  congr 1
  funext r
  simp only [callR, plain, pureR]
  cases f r.1 <;> rfl

theorem transformList_cons (ln t ts st) : transformList ln (t :: ts) st =
    (transform ln t st).bind (fun r => (transformList ln ts r.2).bind (fun q => .ok (r.1 :: q.1, q.2))) := by
  rw [transformList]; rfl
theorem transformList_nil (ln st) : transformList ln [] st = .ok ([], st) := by
  rw [transformList]
theorem transform_tk (ln t x st) : transform ln (tk t x) st = .ok (.tok (termName t) (txt x), st) := by
  unfold tk; rw [transform]
theorem transform_none (ln st) : transform ln .none st = .ok (.none, st) := by
  rw [transform]

theorem transformList_append (ln : Bool) (ts us : List Tree) (st : TState) :
    transformList ln (ts ++ us) st = (transformList ln ts st).bind (fun r =>
      (transformList ln us r.2).bind (fun q => .ok (r.1 ++ q.1, q.2))) := by
  induction ts generalizing st with
  | nil =>
    simp only [List.nil_append, transformList_nil, Except.bind]
    cases transformList ln us st <;> rfl
  | cons t ts ih =>
    simp only [List.cons_append, transformList_cons, ih]
    cases transform ln t st with
    | error e => rfl
    | ok r =>
      simp only [Except.bind]
      cases transformList ln ts r.2 with
      | error e => rfl
      | ok q =>
        simp only
        cases transformList ln us q.2 <;> rfl

/-! methods by name -/
theorem look_null : callbacks.lookup "null" = some (plain (cb_const .none)) := rfl
theorem look_true : callbacks.lookup "true" = some (plain (cb_const (.bool true))) := rfl
theorem look_false : callbacks.lookup "false" = some (plain (cb_const (.bool false))) := rfl
theorem look_int : callbacks.lookup "int_type" = some (plain cb_int_type) := rfl
theorem look_string : callbacks.lookup "string" = some (plain cb_string) := rfl
theorem look_multi : callbacks.lookup "multi_line_string" = some (plain cb_multi_line_string) := rfl
theorem look_array : callbacks.lookup "array" = some (plain cb_array) := rfl
theorem look_object : callbacks.lookup "object" = some (plain cb_object) := rfl
theorem look_pair : callbacks.lookup "pair" = some (plain cb_pair) := rfl
theorem look_key : callbacks.lookup "key" = some (plain cb_key) := rfl
theorem look_function : callbacks.lookup "function" = some (plain cb_function) := rfl
theorem look_operator : callbacks.lookup "operator" = some (plain cb_operator) := rfl
theorem look_not : callbacks.lookup "not_op" = some (plain cb_not_op) := rfl
theorem look_minus : callbacks.lookup "minus" = some (plain cb_minus) := rfl
theorem look_cond : callbacks.lookup "conditional" = some (plain cb_conditional) := rfl
theorem look_method : callbacks.lookup "function_accessor" = some (plain cb_function_accessor) := rfl
theorem look_lambda : callbacks.lookup "lambda_expression" = some (plain cb_lambda_expression) := rfl
theorem look_loop : callbacks.lookup "loop" = some (plain cb_loop) := rfl
theorem look_loop_array : callbacks.lookup "loop_array" = some (plain cb_loop_array) := rfl
theorem look_loop_array_index :
    callbacks.lookup "loop_array_index" = some (plain cb_loop_array_index) := rfl
theorem look_loop_object : callbacks.lookup "loop_object" = some (plain cb_loop_object) := rfl
theorem look_deploy : callbacks.lookup "deploy_condition" = some (plain cb_deploy_condition) := rfl
theorem look_child : callbacks.lookup "child_resource" = some (withMeta cb_child_resource) := rfl

/-- the method of a binary operator -/
def BinOp.cb : BinOp → List Val → Except PyErr Val
  | .and => cb_variadic "and"
  | .or => cb_variadic "or"
  | .coalesce => cb_variadic "coalesce"
  | op => cb_binary op.label

theorem look_bin (op : BinOp) : callbacks.lookup op.node = some (plain op.cb) := by
  cases op <;> rfl

theorem cb_bin (op : BinOp) (a b : Val) : op.cb [a, b] = .ok (.dict [("type", .str op.label),
    ("operands", .dict [("operand_1", a), ("operand_2", b)])]) := by
  cases op <;> rfl

/-! token names -/
theorem name_STRING : termName T.STRING = "STRING" := rfl
theorem name_INT : termName T.INT = "INT" := rfl
theorem name_QI : termName T.QUOTED_INTERPOLATION = "QUOTED_INTERPOLATION" := rfl
theorem name_ML : termName T.MULTI_LINE_STRING = "MULTI_LINE_STRING" := rfl

theorem string_ident (x : List Char) : transformStringToken (.tok "STRING" (txt x)) = .ok (.elem (txt x)) := rfl
theorem string_quoted (b : List Char) :
    transformStringToken (.tok "QUOTED_INTERPOLATION" (txt (quote b))) = .ok (.str (txt b)) := by
  simp only [transformStringToken, sliceBoth_quote]

/-! values are never tokens -/

/-- neither a token nor a tuple -/
def Val.solid : Val → Bool
  | .tok _ _ => false
  | .tup2 _ _ => false
  | _ => true

theorem tokValue_solid {v : Val} (h : v.solid = true) : tokValue v = v := by
  cases v <;> simp_all [Val.solid, tokValue]

theorem map_tokValue {vs : List Val} (h : ∀ v ∈ vs, v.solid = true) : vs.map tokValue = vs := by
  conv => rhs; rw [← List.map_id vs]
  exact List.map_congr_left fun v hv => tokValue_solid (h v hv)

theorem bind_ok {α β ε} {x : Except ε α} {f : α → Except ε β} {b : β}
    (h : x.bind f = .ok b) : ∃ a, x = .ok a ∧ f a = .ok b := by
  cases x with
  | error e => simp [Except.bind] at h
  | ok a => exact ⟨a, rfl, h⟩

theorem bind_ok' {α β ε} {x : Except ε α} {f : α → Except ε β} {b : β}
    (h : (x >>= f) = .ok b) : ∃ a, x = .ok a ∧ f a = .ok b := bind_ok h

theorem expr_solid {ln : Bool} {e : Expr} {v : Val} (h : e.val ln = .ok v) : v.solid = true := by
  cases e <;> rw [Expr.val] at h
  case int d => split at h <;> simp at h; subst h; rfl
  case array es => obtain ⟨_, _, h⟩ := bind_ok' h; cases h; rfl
  case object is => obtain ⟨_, _, h⟩ := bind_ok' h; cases h; rfl
  case call f es =>
    obtain ⟨_, _, h⟩ := bind_ok' h; obtain ⟨_, _, h⟩ := bind_ok' h; cases h; rfl
  case bin op a b =>
    obtain ⟨_, _, h⟩ := bind_ok' h; obtain ⟨_, _, h⟩ := bind_ok' h; cases h; rfl
  case not a => obtain ⟨_, _, h⟩ := bind_ok' h; cases h; rfl
  case minus a => obtain ⟨_, _, h⟩ := bind_ok' h; cases h; rfl
  case cond a b c =>
    obtain ⟨_, _, h⟩ := bind_ok' h; obtain ⟨_, _, h⟩ := bind_ok' h; obtain ⟨_, _, h⟩ := bind_ok' h
    cases h; rfl
  case method a f es =>
    obtain ⟨_, _, h⟩ := bind_ok' h; obtain ⟨_, _, h⟩ := bind_ok' h; cases h; rfl
  case lambda a b =>
    obtain ⟨_, _, h⟩ := bind_ok' h; obtain ⟨_, _, h⟩ := bind_ok' h; cases h; rfl
  case lambdaN a b c d e =>
    obtain ⟨_, _, h⟩ := bind_ok' h; obtain ⟨_, _, h⟩ := bind_ok' h; obtain ⟨_, _, h⟩ := bind_ok' h
    obtain ⟨_, _, h⟩ := bind_ok' h; obtain ⟨_, _, h⟩ := bind_ok' h; cases h; rfl
  all_goals cases h; rfl

theorem exprs_solid {ln : Bool} {es : List Expr} {vs : List Val} (h : Expr.vals ln es = .ok vs) :
    ∀ v ∈ vs, v.solid = true := by
  induction es generalizing vs with
  | nil => rw [Expr.vals] at h; cases h; simp
  | cons e es ih =>
    rw [Expr.vals] at h
    obtain ⟨v, hv, h⟩ := bind_ok' h
    obtain ⟨vs', hvs, h⟩ := bind_ok' h
    cases h
    intro u hu
    rcases List.mem_cons.mp hu with rfl | hu
    · exact expr_solid hv
    · exact ih hvs u hu

theorem loop_solid {ln : Bool} {l : Loop} {v : Val} (h : l.val ln = .ok v) : v.solid = true := by
  cases l
  rw [Loop.val] at h
  obtain ⟨_, _, h⟩ := bind_ok' h; obtain ⟨_, _, h⟩ := bind_ok' h
  obtain ⟨_, _, h⟩ := bind_ok' h; obtain ⟨_, _, h⟩ := bind_ok' h
  cases h; rfl

/-! methods on arguments of the right form -/

theorem dictPairs_eq (ps : List (String × Val)) :
    dictPairs (ps.map (fun p => .tup2 (.str p.1) p.2)) = .ok ps := by
  induction ps with
  | nil => rfl
  | cons p ps ih => simp only [List.map_cons, dictPairs, ih]; rfl

theorem cb_object_eq (ps : List (String × Val)) :
    cb_object (ps.map (fun p => .tup2 (.str p.1) p.2)) = .ok (.dict (lastWins ps)) := by
  unfold cb_object
  rw [dictPairs_eq]
  show Except.ok (Val.dict (mkDict ps)) = _
  rw [mkDict_eq]

theorem cb_function_eq (t : String) (f : FunName) (vs : List Val) :
    cb_function (.tok t (txt (f.1 ++ ['('])) :: vs) =
      (Functions.getFunction (txt f.1) (txt f.1) vs).map (fun d => .dict [("function", d)]) := by
  unfold cb_function
  simp only [Val.pyStr, removeSuffix_paren]
  cases Functions.getFunction (txt f.1) (txt f.1) vs <;> rfl

theorem filter_keys_nodup {ps : List (String × Val)} (h : (ps.map Prod.fst).Nodup) (p) :
    ((ps.filter p).map Prod.fst).Nodup := by
  induction ps with
  | nil => simp
  | cons q ps ih =>
    rw [List.map_cons, List.nodup_cons] at h
    rw [List.filter_cons]
    split
    · rw [List.map_cons, List.nodup_cons]
      refine ⟨fun hm => h.1 ?_, ih h.2⟩
      obtain ⟨r, hr, e⟩ := List.mem_map.mp hm
      exact List.mem_map.mpr ⟨r, (List.mem_filter.mp hr).1, e⟩
    · exact ih h.2

theorem method_keys (x : Val) (f : String) (vs : List Val) :
    ((("operand_1", x) :: ("func_name", .str f) ::
      (numbered "operand_" 2 vs).filter (fun p => p.2.truthy)).map Prod.fst).Nodup := by
  simp only [List.map_cons, List.nodup_cons, List.mem_cons, not_or]
  refine ⟨⟨by decide, fun h => ?_⟩, fun h => ?_, filter_keys_nodup (numbered_nodup _ _ _) _⟩
  · obtain ⟨r, hr, e⟩ := List.mem_map.mp h
    obtain ⟨m, hm, e'⟩ := numbered_key (List.mem_map.mpr ⟨r, (List.mem_filter.mp hr).1, rfl⟩)
    rw [e] at e'
    have := pre_toString_inj (pre := "operand_") (a := 1) (b := m) e'
    omega
  · obtain ⟨r, hr, e⟩ := List.mem_map.mp h
    obtain ⟨m, hm, e'⟩ := numbered_key (List.mem_map.mpr ⟨r, (List.mem_filter.mp hr).1, rfl⟩)
    rw [e] at e'
    have := congrArg String.toList e'
    simp at this

theorem cb_method_eq (x : Val) (t : String) (f : List Char) (vs : List Val) :
    cb_function_accessor (x :: .tok t (txt f) :: vs) = .ok (.dict [("type", .str "function_accessor"),
      ("operands", .dict (("operand_1", x) :: ("func_name", .str (txt f)) ::
        (numbered "operand_" 2 vs).filter (fun p => p.2.truthy)))]) := by
  simp only [cb_function_accessor, Val.pyStr, enumKeys_eq]
  rw [mkDict_of_nodup (method_keys _ _ _)]

theorem lambda_keys (vs : List Val) (n : Nat) (b : Val) :
    ((numbered "var_" n vs ++ [("expression", b)]).map Prod.fst).Nodup := by
  rw [List.map_append, List.nodup_append]
  refine ⟨numbered_nodup _ _ _, by simp, ?_⟩
  intro k hk k' hk'
  obtain ⟨m, hm, e⟩ := numbered_key hk
  simp only [List.map_cons, List.map_nil, List.mem_singleton] at hk'
  subst hk' e
  intro e
  have := congrArg String.toList e
  simp at this

theorem cb_lambda_eq (x : Val) (xs : List Val) (b : Val) :
    cb_lambda_expression (x :: (xs ++ [b])) = .ok (.dict [("type", .str "lambda_expression"),
      ("detail", .dict (numbered "var_" 1 ((x :: xs).map (fun x => .str x.pyStr)) ++
        [("expression", b)]))]) := by
  unfold cb_lambda_expression
  simp only [List.reverse_append, List.reverse_cons, List.reverse_nil, List.nil_append,
    List.cons_append, List.reverse_reverse, enumKeys_eq]
  have := mkDict_of_nodup (lambda_keys ((x :: xs).map (fun x => .str x.pyStr)) 1 b)
  simp only [List.map_cons, numbered, List.cons_append] at this
  have e : "var_" ++ toString 1 = "var_1" := rfl
  rw [e] at this
  simp only [D, List.map_cons, numbered, List.cons_append, e, this]

theorem child_lines (ln : Bool) (l : Lines) (a b c : Val) (d : Bool) (e : Val) :
    addLines ln ((some (⟨l.1, l.2, 0, 0⟩ : Span)).map (fun s => { s with endLine := s.endLine - 1 }))
      [("decorators", a), ("type", b), ("api_version", c), ("existing", .bool d), ("config", e)] =
    .ok ([("decorators", a), ("type", b), ("api_version", c), ("existing", .bool d), ("config", e)] ++
      lineItems ln (l.1, l.2 - 1)) := by
  cases ln <;> rfl

/-! ### the main induction -/

/-- the pairs an object is made of -/
def pairVals (ps : List (String × Val)) : List Val := ps.map (fun p => .tup2 (.str p.1) p.2)

theorem key_val (ln : Bool) (k : Key) (st : TState) :
    transform ln k.tree st = .ok (.str k.text, st) := by
  cases k with
  | resource =>
    simp only [Key.tree, transform_plain look_key, transformList_cons, transform_tk,
      transformList_nil]; rfl
  | ident x =>
    simp only [Key.tree, transform_plain look_key, transformList_cons, transform_tk,
      transformList_nil]; rfl
  | quoted s b =>
    cases s <;>
    simp only [Key.tree, transform_plain look_key, transformList_cons, transform_tk,
      transformList_nil] <;> rfl

theorem existing_val (ln : Bool) (e : Bool) (st : TState) :
    ∃ v : Val, transform ln (existingTree e) st = .ok (v, st) ∧ v.truthy = e := by
  cases e with
  | true => exact ⟨_, by rw [existingTree, if_pos rfl, transform_tk], rfl⟩
  | false => exact ⟨_, by rw [existingTree, if_neg (by simp), transform_none], rfl⟩

mutual
theorem expr_val (ln : Bool) : ∀ (e : Expr) (st : TState),
    transform ln e.tree st = pureR st (e.val ln)
  | .null, st => by rw [Expr.tree, transform_plain look_null, transformList_nil, Expr.val]; rfl
  | .tru, st => by rw [Expr.tree, transform_plain look_true, transformList_nil, Expr.val]; rfl
  | .fls, st => by rw [Expr.tree, transform_plain look_false, transformList_nil, Expr.val]; rfl
  | .int d, st => by
    rw [Expr.tree, transform_plain look_int, transformList_cons, transform_tk, Expr.val]
    simp only [Except.bind, transformList_nil]
    have : cb_int_type [Val.tok (termName T.INT) (txt d.1)] = (intOfStr (txt d.1)).map .int := rfl
    rw [this, intOfStr_digits]
    split <;> rfl
  | .ident x, st => by
    rw [Expr.tree, transform_plain look_string, transformList_cons, transform_tk, Expr.val]
    simp only [Except.bind, transformList_nil, name_STRING]
    rfl
  | .str b, st => by
    rw [Expr.tree, transform_plain look_string, transformList_cons, transform_tk, Expr.val]
    simp only [Except.bind, transformList_nil, name_QI]
    have : cb_string [Val.tok "QUOTED_INTERPOLATION" (txt (quote b))] =
      transformStringToken (.tok "QUOTED_INTERPOLATION" (txt (quote b))) := rfl
    rw [this, string_quoted]
    rfl
  | .multi b, st => by
    rw [Expr.tree, transform_plain look_multi, transformList_cons, transform_tk, Expr.val]
    simp only [Except.bind, transformList_nil]
    have : ∀ t, cb_multi_line_string [Val.tok t (txt (quote3 b))] =
      .ok (.str (sanitizeMultiLine (String.ofList (quote3 b)))) := fun _ => rfl
    rw [this, sanitize_quote3]
    rfl
  | .array es, st => by
    rw [Expr.tree, transform_plain look_array, exprs_val ln es st, Expr.val]
    cases h : Expr.vals ln es with
    | error e => rfl
    | ok vs =>
      simp only [pureR_ok, Except.bind, bind, cb_array, map_tokValue (exprs_solid h)]
      rfl
  | .object is, st => by
    rw [Expr.tree, transform_plain look_object, items_val ln is st, Expr.val]
    cases h : Item.vals ln is with
    | error e => rfl
    | ok ps =>
      simp only [Except.map, pureR_ok, Except.bind, bind, pairVals, cb_object_eq]
      rfl
  | .call f es, st => by
    rw [Expr.tree, transform_plain look_function, transformList_cons, transform_tk, Expr.val]
    simp only [Except.bind, exprs_val ln es st]
    cases h : Expr.vals ln es with
    | error e => rfl
    | ok vs =>
      simp only [pureR_ok, bind, Except.bind, cb_function_eq]
      cases Functions.getFunction (txt f.1) (txt f.1) vs <;> rfl
  | .bin op a b, st => by
    rw [Expr.tree, transform_plain look_operator, transformList_cons, transform_plain (look_bin op),
      transformList_cons, expr_val ln a st, Expr.val]
    cases a.val ln with
    | error e => rfl
    | ok x =>
      simp only [pureR_ok, Except.bind, bind, transformList_cons, transformList_nil, expr_val ln b st]
      cases b.val ln with
      | error e => rfl
      | ok y => simp only [pureR_ok, cb_bin]; rfl
  | .not a, st => by
    rw [Expr.tree, transform_plain look_operator, transformList_cons, transform_plain look_not,
      transformList_cons, expr_val ln a st, Expr.val]
    cases a.val ln with
    | error e => rfl
    | ok x => simp only [pureR_ok, Except.bind, bind, transformList_nil]; rfl
  | .minus a, st => by
    rw [Expr.tree, transform_plain look_operator, transformList_cons, transform_plain look_minus,
      transformList_cons, expr_val ln a st, Expr.val]
    cases a.val ln with
    | error e => rfl
    | ok x => simp only [pureR_ok, Except.bind, bind, transformList_nil]; rfl
  | .cond c t f, st => by
    rw [Expr.tree, transform_plain look_operator, transformList_cons, transform_plain look_cond,
      transformList_cons, expr_val ln c st, Expr.val]
    cases c.val ln with
    | error e => rfl
    | ok x =>
      simp only [pureR_ok, Except.bind, bind, transformList_cons, transformList_nil, expr_val ln t st]
      cases t.val ln with
      | error e => rfl
      | ok y =>
        simp only [pureR_ok, expr_val ln f st]
        cases f.val ln <;> rfl
  | .method a f args, st => by
    rw [Expr.tree, transform_plain look_operator, transformList_cons, transform_plain look_method,
      transformList_cons, expr_val ln a st, Expr.val]
    cases a.val ln with
    | error e => rfl
    | ok x =>
      simp only [pureR_ok, Except.bind, bind, transformList_cons, transform_tk,
        transformList_nil, optVals_val ln args st]
      cases Expr.optVals ln args with
      | error e => rfl
      | ok vs => simp only [pureR_ok, cb_method_eq]; rfl
  | .lambda v e, st => by
    rw [Expr.tree, transform_plain look_lambda, transformList_cons, expr_val ln v st, Expr.val]
    cases v.val ln with
    | error e => rfl
    | ok x =>
      simp only [pureR_ok, Except.bind, bind, transformList_cons, transformList_nil, expr_val ln e st]
      cases e.val ln with
      | error e => rfl
      | ok b => simp only [pureR_ok]; rfl
  | .lambdaN v1 v2 v3 vs e, st => by
    rw [Expr.tree, transform_plain look_lambda, transformList_cons, expr_val ln v1 st, Expr.val]
    cases v1.val ln with
    | error e => rfl
    | ok x1 =>
      simp only [pureR_ok, Except.bind, bind, transformList_cons, expr_val ln v2 st]
      cases v2.val ln with
      | error e => rfl
      | ok x2 =>
        simp only [pureR_ok, expr_val ln v3 st]
        cases v3.val ln with
        | error e => rfl
        | ok x3 =>
          simp only [pureR_ok, transformList_append, Except.bind, exprs_val ln vs st]
          cases Expr.vals ln vs with
          | error e => rfl
          | ok xs =>
            simp only [pureR_ok, transformList_cons, transformList_nil, Except.bind, expr_val ln e st]
            cases e.val ln with
            | error e => rfl
            | ok b =>
              simp only [pureR_ok]
              have := cb_lambda_eq x1 (x2 :: x3 :: xs) b
              simp only [List.cons_append] at this
              rw [this]
              rfl
theorem exprs_val (ln : Bool) : ∀ (es : List Expr) (st : TState),
    transformList ln (Expr.trees es) st = pureR st (Expr.vals ln es)
  | [], st => by rw [Expr.trees, transformList_nil, Expr.vals]; rfl
  | e :: es, st => by
    rw [Expr.trees, transformList_cons, expr_val ln e st, Expr.vals]
    cases e.val ln with
    | error e => rfl
    | ok v =>
      simp only [pureR_ok, Except.bind, bind, exprs_val ln es st]
      cases Expr.vals ln es <;> rfl
theorem optVal_val (ln : Bool) : ∀ (e : Option Expr) (st : TState),
    transform ln (Expr.optTree e) st = pureR st (Expr.optVal ln e)
  | .none, st => by rw [Expr.optTree, transform_none, Expr.optVal]; rfl
  | some e, st => by rw [Expr.optTree, expr_val ln e st, Expr.optVal]
theorem optVals_val (ln : Bool) : ∀ (es : List (Option Expr)) (st : TState),
    transformList ln (Expr.optTrees es) st = pureR st (Expr.optVals ln es)
  | [], st => by rw [Expr.optTrees, transformList_nil, Expr.optVals]; rfl
  | e :: es, st => by
    rw [Expr.optTrees, transformList_cons, optVal_val ln e st, Expr.optVals]
    cases Expr.optVal ln e with
    | error e => rfl
    | ok v =>
      simp only [pureR_ok, Except.bind, bind, optVals_val ln es st]
      cases Expr.optVals ln es <;> rfl
theorem item_val (ln : Bool) : ∀ (i : Item) (st : TState),
    transform ln i.tree st = pureR st ((i.val ln).map (fun p => .tup2 (.str p.1) p.2))
  | .pair k e, st => by
    rw [Item.tree, transform_plain look_pair, transformList_cons, key_val, Item.val]
    simp only [Except.bind, transformList_cons, transformList_nil, expr_val ln e st]
    cases h : e.val ln with
    | error e => rfl
    | ok v =>
      simp only [pureR_ok, cb_pair, tokValue_solid (expr_solid h)]
      rfl
  | .pairLoop k l, st => by
    rw [Item.tree, transform_plain look_pair, transformList_cons, key_val, Item.val]
    simp only [Except.bind, transformList_cons, transformList_nil, loop_val ln l st]
    cases h : l.val ln with
    | error e => rfl
    | ok v =>
      simp only [pureR_ok, cb_pair, tokValue_solid (loop_solid h)]
      rfl
  | .child l name type existing c, st => by
    rw [Item.tree, ndl, transform_node _ _ _ _ _ look_child, transformList_cons, transform_tk, Item.val]
    obtain ⟨v, hv, ht⟩ := existing_val ln existing st
    simp only [Except.bind, transformList_cons, transformList_nil, transform_tk, hv, config_val ln c st]
    cases c.val ln with
    | error e => rfl
    | ok w =>
      simp only [pureR_ok, callR, withMeta, cb_child_resource, Val.pyStr, sliceBoth_quote, ht,
        child_lines]
      rfl
theorem items_val (ln : Bool) : ∀ (is : List Item) (st : TState),
    transformList ln (Item.trees is) st = pureR st ((Item.vals ln is).map pairVals)
  | [], st => by rw [Item.trees, transformList_nil, Item.vals]; rfl
  | i :: is, st => by
    rw [Item.trees, transformList_cons, item_val ln i st, Item.vals]
    cases i.val ln with
    | error e => rfl
    | ok p =>
      simp only [Except.map, pureR_ok, Except.bind, bind, items_val ln is st]
      cases Item.vals ln is <;> rfl
theorem loop_val (ln : Bool) : ∀ (l : Loop) (st : TState),
    transform ln l.tree st = pureR st (l.val ln)
  | .mk h cond body, st => by
    rw [Loop.tree, transform_plain look_loop, transformList_cons, head_val ln h st, Loop.val]
    cases h.val ln with
    | error e => rfl
    | ok x =>
      simp only [pureR_ok, Except.bind, bind, transformList_cons, transformList_nil,
        optVal_val ln cond st]
      cases Expr.optVal ln cond with
      | error e => rfl
      | ok c =>
        simp only [pureR_ok, expr_val ln body st]
        cases body.val ln with
        | error e => rfl
        | ok b =>
          simp only [pureR_ok, cb_loop, bind, Except.bind]
          cases loopCondition c <;> rfl
theorem head_val (ln : Bool) : ∀ (h : LoopHead) (st : TState),
    transform ln h.tree st = pureR st (h.val ln)
  | .arr x e, st => by
    rw [LoopHead.tree, transform_plain look_loop_array, transformList_cons, transform_tk, LoopHead.val]
    simp only [Except.bind, transformList_cons, transformList_nil, expr_val ln e st]
    cases e.val ln <;> rfl
  | .arrIdx x i e, st => by
    rw [LoopHead.tree, transform_plain look_loop_array_index, transformList_cons, transform_tk,
      LoopHead.val]
    simp only [Except.bind, transformList_cons, transformList_nil, transform_tk, expr_val ln e st]
    cases e.val ln <;> rfl
  | .obj x e, st => by
    rw [LoopHead.tree, transform_plain look_loop_object, transformList_cons, transform_tk, LoopHead.val]
    simp only [Except.bind, transformList_cons, transformList_nil, expr_val ln e st]
    cases e.val ln <;> rfl
theorem config_val (ln : Bool) : ∀ (c : Config) (st : TState),
    transform ln c.tree st = pureR st (c.val ln)
  | .obj is, st => by
    rw [Config.tree, transform_plain look_object, items_val ln is st, Config.val]
    cases h : Item.vals ln is with
    | error e => rfl
    | ok ps =>
      simp only [Except.map, pureR_ok, Except.bind, bind, pairVals, cb_object_eq]
      rfl
  | .loop l, st => by rw [Config.tree, loop_val ln l st, Config.val]
  | .cond c e, st => by
    rw [Config.tree, transform_plain look_deploy, transformList_cons, expr_val ln c st, Config.val]
    cases c.val ln with
    | error e => rfl
    | ok x =>
      simp only [pureR_ok, Except.bind, bind, transformList_cons, transformList_nil, expr_val ln e st]
      cases e.val ln <;> rfl
end

end Pycep
