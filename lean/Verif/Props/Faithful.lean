import Verif.Proofs.Faithful
import Verif.Props.Published
/-
C65: what is reported determines what was written.
-/
namespace Pycep

/-! ### Data types -/

theorem arrayOf_base {b : BaseType} {n : Nat} {v : Val}
    (h : b.val = .dict [("type", .str "array"), ("item_type", arrayOf n v)]) : False := by
  cases b <;> rw [BaseType.val] at h <;> simp at h

theorem arrayOf_inj {b b' : BaseType} : ∀ {n n' : Nat}, arrayOf n b.val = arrayOf n' b'.val → n = n' ∧ b.val = b'.val
  | 0, 0, h => ⟨rfl, h⟩
  | 0, n + 1, h => (arrayOf_base h).elim
  | n + 1, 0, h => (arrayOf_base h.symm).elim
  | n + 1, n' + 1, h => by
    simp only [arrayOf, Val.dict.injEq, List.cons.injEq, Prod.mk.injEq, true_and, and_true] at h
    obtain ⟨hn, h⟩ := arrayOf_inj h
    exact ⟨by rw [hn], h⟩

mutual
theorem dataType_inj : (d : DataType) → {d' : DataType} → d.val = d'.val → d = d'
  | .mk b n, .mk b' n', h => by
    rw [DataType.val, DataType.val] at h
    obtain ⟨hn, h⟩ := arrayOf_inj h
    rw [baseType_inj b h, hn]
theorem baseType_inj : (b : BaseType) → {b' : BaseType} → b.val = b'.val → b = b'
  | .name x, .name y, h => by
    rw [BaseType.val, BaseType.val] at h
    simp only [Val.str.injEq] at h
    rw [Subtype.ext (txt_inj h)]
  | .name x, .union .., h => by rw [BaseType.val, BaseType.val] at h; cases h
  | .union .., .name x, h => by rw [BaseType.val, BaseType.val] at h; cases h
  | .union d1 d2 ds, .union e1 e2 es, h => by
    rw [BaseType.val, BaseType.val] at h
    simp only [Val.dict.injEq, List.cons.injEq, Prod.mk.injEq, Val.list.injEq, true_and, and_true] at h
    rw [dataType_inj d1 h.1, dataType_inj d2 h.2.1, dataTypes_inj ds h.2.2]
theorem dataTypes_inj : (ds : List DataType) → {es : List DataType} → DataType.vals ds = DataType.vals es → ds = es
  | [], [], _ => rfl
  | [], _ :: _, h => by rw [DataType.vals, DataType.vals] at h; cases h
  | _ :: _, [], h => by rw [DataType.vals, DataType.vals] at h; cases h
  | d :: ds, e :: es, h => by
    rw [DataType.vals, DataType.vals] at h
    simp only [List.cons.injEq] at h
    rw [dataType_inj d h.1, dataTypes_inj ds h.2]
end

/-! ### Pieces of different kinds -/

theorem head_form {ln : Bool} {hd : LoopHead} {v : Val} (h : hd.val ln = .ok v) :
    ∃ t d, v = .dict [("type", .str t), ("detail", d)] ∧ t ≠ "lambda_expression" := by
  cases hd <;> rw [LoopHead.val] at h <;> obtain ⟨_, _, h⟩ := bind_ok' h <;> cases h <;>
    exact ⟨_, _, rfl, by decide⟩

theorem loop_form {ln : Bool} {l : Loop} {v : Val} (h : l.val ln = .ok v) :
    ∃ x c b, v = .dict [("loop_type", x), ("condition", c), ("config", b)] := by
  cases l with
  | mk hd c b =>
    rw [Loop.val] at h
    obtain ⟨_, _, h⟩ := bind_ok' h; obtain ⟨_, _, h⟩ := bind_ok' h; obtain ⟨_, _, h⟩ := bind_ok' h
    obtain ⟨_, _, h⟩ := bind_ok' h; cases h
    exact ⟨_, _, _, rfl⟩

theorem expr_ne_head {ln ln' : Bool} {e : Expr} {hd : LoopHead} {v : Val} (hf : e.Faithful) (h : e.val ln = .ok v)
    (h' : hd.val ln' = .ok v) : False := by
  obtain ⟨t, d, rfl, ht⟩ := head_form h'
  have h2 := shape hf h; clear h
  generalize hv : Val.dict _ = v at h2
  cases h2
  case lambda | lambdaN => simp [ht] at hv
  all_goals differ hv

theorem loop_ne_head {ln ln' : Bool} {l : Loop} {hd : LoopHead} {v : Val} (h : l.val ln = .ok v)
    (h' : hd.val ln' = .ok v) : False := by
  obtain ⟨t, d, rfl, _⟩ := head_form h'
  obtain ⟨_, _, _, h⟩ := loop_form h
  simp at h

/-- data types are compared with data types only, and other pieces with other pieces -/
def Node.isType : Node → Bool
  | .type _ => true
  | _ => false

theorem node_same_iff {ln ln' : Bool} {m m' : Node} {v v' : Val} (hf : m.Faithful) (hf' : m'.Faithful)
    (ht : m.isType = m'.isType) (h : m.val ln = .ok v) (h' : m'.val ln' = .ok v') : v = v' ↔ m.Same m' := by
  constructor
  · rintro rfl
    cases m with
    | expr e =>
      cases m' with
      | expr e' => exact .expr (alike_expr e hf h e' hf' h')
      | loop l => exact (expr_ne_loop hf h h').elim
      | head hd => exact (expr_ne_head hf h h').elim
      | type => cases ht
      | config => exact hf'.elim
      | deco => exact hf'.elim
    | loop l =>
      cases m' with
      | expr e' => exact (expr_ne_loop hf' h' h).elim
      | loop l' => exact .loop (alike_loop l hf h l' hf' h')
      | head hd => exact (loop_ne_head h h').elim
      | type => cases ht
      | config => exact hf'.elim
      | deco => exact hf'.elim
    | head hd =>
      cases m' with
      | expr e' => exact (expr_ne_head hf' h' h).elim
      | loop l' => exact (loop_ne_head h' h).elim
      | head hd' => exact .head (alike_head hd hf h hd' hf' h')
      | type => cases ht
      | config => exact hf'.elim
      | deco => exact hf'.elim
    | type d =>
      cases m' with
      | type d' =>
        rw [Node.val] at h h'
        simp only [Except.ok.injEq] at h h'
        obtain rfl := dataType_inj d (h.trans h'.symm)
        exact .type
      | expr | loop | head | config | deco => cases ht
    | config => exact hf.elim
    | deco => exact hf.elim
  · intro hs
    cases hs with
    | expr hs => exact val_same _ hs h h'
    | loop hs => exact loopVal_same _ hs h h'
    | head hs => exact headVal_same _ hs h h'
    | type => rw [Node.val] at h h'; cases h; cases h'; rfl

/-- **C65.** Faithful pieces of two documents are reported alike if and only if they are the same. -/
theorem C65_same {P P' : Parser} {text path text' path' v v'} (h : P.parse text path = .ok v)
    (h' : P'.parse text' path' = .ok v') :
    ∃ t p t' p', chosenText text path = .ok t ∧ Spells t p ∧ chosenText text' path' = .ok t' ∧ Spells t' p' ∧
      ∀ {s n π m s' n' π' m'}, p.At s n π m → p'.At s' n' π' m' → m.Faithful → m'.Faithful →
        m.isType = m'.isType →
        (v.at? (.key s :: .key n :: π) = v'.at? (.key s' :: .key n' :: π') ↔ m.Same m') := by
  obtain ⟨t, p, h1, h2, h3⟩ := parse_at h
  obtain ⟨t', p', h1', h2', h3'⟩ := parse_at h'
  refine ⟨t, p, t', p', h1, h2, h1', h2', ?_⟩
  intro s n π m s' n' π' m' ha ha' hf hf' ht
  obtain ⟨y, hy, hat⟩ := h3 ha
  obtain ⟨y', hy', hat'⟩ := h3' ha'
  rw [hat, hat', Option.some.injEq]
  exact node_same_iff hf hf' ht hy hy'

/-! ### Concrete cases -/

/-- two arguments of `concat` are all reported -/
theorem concat_telling : ∀ s ∈ signatures, "concat" ∈ s.names → AllReported s 2 := by
  intro s hs hn
  have hmem : (⟨"sys", "concat", "concat", Signature.variadic ["arg_1"] "arg_" 2⟩ : Signature) ∈ signatures :=
    .tail _ (.tail _ (.head _))
  obtain rfl := signature_unique hs hn hmem (by decide)
  intro args ha i hi
  match args, ha with
  | [a, b], _ =>
    match i, hi with
    | 0, _ => exact ⟨_, "arg_1", rfl, .head _⟩
    | 1, _ => exact ⟨_, "arg_2", rfl, .tail _ (.head _)⟩

/-- `[concat('a', x), {resource: -x}]` is faithful -/
example (f : FunName) (hf : f.1 = "concat".toList) (x : Ident) : (Expr.array [.call f [.str ['a'], .ident x],
    .object [.pair .resource (.minus (.ident x))]]).Faithful := by
  simp only [Expr.Faithful, Expr.FaithfulAll, Item.FaithfulAll, Item.Faithful, true_and, and_true]
  refine ⟨fun s hs hn => ⟨concat_telling s hs ?_, by simp⟩, by simp, ?_⟩
  · rw [hf] at hn; exact hn
  · simp [Item.key, Key.text, reservedKeys]

/-- prefix and quotes do not matter -/
example : Parser.parse ⟨false⟩ (some "var v = sys.concat('''a''', 007)\n") .none =
    Parser.parse ⟨false⟩ (some "var v = concat('a', 7)\n") .none :=
  (eq_of_outIs (v := .dict [("globals", .dict [("scope", .dict [("value", .str "resourceGroup")])]),
      ("variables", .dict [("v", .dict [("decorators", .list []), ("value", .dict [("function", .dict
        [("type", .str "concat"), ("parameters", .dict [("arg_1", .str "a"), ("arg_2", .int 7)])])])])])])
    (by decide +kernel)).trans (eq_of_outIs (by decide +kernel)).symm

/-- why objects with reserved keys are left out: this one is reported like `f(1)` -/
example : Parser.parse ⟨false⟩ (some "var v = {\n  function: {\n    type: 'f'\n    parameters: {\n      arg_1: 1\n    }\n  }\n}\n") .none =
    Parser.parse ⟨false⟩ (some "var v = f(1)\n") .none :=
  (eq_of_outIs (v := .dict [("globals", .dict [("scope", .dict [("value", .str "resourceGroup")])]),
      ("variables", .dict [("v", .dict [("decorators", .list []), ("value", .dict [("function", .dict
        [("type", .str "f"), ("parameters", .dict [("arg_1", .int 1)])])])])])])
    (by decide +kernel)).trans (eq_of_outIs (by decide +kernel)).symm

/-- why `null` is left out as an argument of known functions: an absent argument is reported alike -/
example : Parser.parse ⟨false⟩ (some "var v = utcNow(null)\n") .none =
    Parser.parse ⟨false⟩ (some "var v = utcNow()\n") .none :=
  (eq_of_outIs (v := .dict [("globals", .dict [("scope", .dict [("value", .str "resourceGroup")])]),
      ("variables", .dict [("v", .dict [("decorators", .list []), ("value", .dict [("function", .dict
        [("type", .str "utc_now"), ("parameters", .dict [("format", .none)])])])])])])
    (by decide +kernel)).trans (eq_of_outIs (by decide +kernel)).symm

/-- why arguments that are not reported are left out -/
example : Parser.parse ⟨false⟩ (some "var v = length('a', x)\n") .none =
    Parser.parse ⟨false⟩ (some "var v = length('a')\n") .none :=
  (eq_of_outIs (v := .dict [("globals", .dict [("scope", .dict [("value", .str "resourceGroup")])]),
      ("variables", .dict [("v", .dict [("decorators", .list []), ("value", .dict [("function", .dict
        [("type", .str "length"), ("parameters", .dict [("arg_1", .str "a")])])])])])])
    (by decide +kernel)).trans (eq_of_outIs (by decide +kernel)).symm

/-- why empty arguments of method-style calls are left out -/
example : Parser.parse ⟨false⟩ (some "var v = r.listKeys(false)\n") .none =
    Parser.parse ⟨false⟩ (some "var v = r.listKeys()\n") .none :=
  (eq_of_outIs (v := .dict [("globals", .dict [("scope", .dict [("value", .str "resourceGroup")])]),
      ("variables", .dict [("v", .dict [("decorators", .list []), ("value", .dict [("operator", .dict
        [("type", .str "function_accessor"), ("operands", .dict [("operand_1", .elem "r"),
          ("func_name", .str "listKeys")])])])])])])
    (by decide +kernel)).trans (eq_of_outIs (by decide +kernel)).symm

/-- why repeated keys are left out -/
example : Parser.parse ⟨false⟩ (some "var v = {\n  a: 1\n  a: 2\n}\n") .none =
    Parser.parse ⟨false⟩ (some "var v = {\n  a: 2\n}\n") .none :=
  (eq_of_outIs (v := .dict [("globals", .dict [("scope", .dict [("value", .str "resourceGroup")])]),
      ("variables", .dict [("v", .dict [("decorators", .list []), ("value", .dict [("a", .int 2)])])])])
    (by decide +kernel)).trans (eq_of_outIs (by decide +kernel)).symm

/-- why `null` is left out as a condition of loops -/
example : Parser.parse ⟨false⟩ (some "var v = [for x in xs: if(null) {\n  a: 2\n}]\n") .none =
    Parser.parse ⟨false⟩ (some "var v = [for x in xs: {\n  a: 2\n}]\n") .none :=
  (eq_of_outIs (v := .dict [("globals", .dict [("scope", .dict [("value", .str "resourceGroup")])]),
      ("variables", .dict [("v", .dict [("decorators", .list []), ("value", .dict [
        ("loop_type", .dict [("type", .str "array"),
          ("detail", .dict [("item_name", .str "x"), ("array_name", .elem "xs")])]), ("condition", .none),
          ("config", .dict [("a", .int 2)])])])])])
    (by decide +kernel)).trans (eq_of_outIs (by decide +kernel)).symm

/-- why conditions of loops that are not written `if(...)` are left out -/
example : Parser.parse ⟨false⟩ (some "var v = [for x in xs: c {\n  a: 2\n}]\n") .none =
    Parser.parse ⟨false⟩ (some "var v = [for x in xs: if(c) {\n  a: 2\n}]\n") .none :=
  (eq_of_outIs (v := .dict [("globals", .dict [("scope", .dict [("value", .str "resourceGroup")])]),
      ("variables", .dict [("v", .dict [("decorators", .list []), ("value", .dict [
        ("loop_type", .dict [("type", .str "array"),
          ("detail", .dict [("item_name", .str "x"), ("array_name", .elem "xs")])]), ("condition", .elem "c"),
          ("config", .dict [("a", .int 2)])])])])])
    (by decide +kernel)).trans (eq_of_outIs (by decide +kernel)).symm

/-- why variables of lambda expressions that are not identifiers are left out -/
example : Parser.parse ⟨false⟩ (some "var v = 'x' => x\n") .none =
    Parser.parse ⟨false⟩ (some "var v = x => x\n") .none :=
  (eq_of_outIs (v := .dict [("globals", .dict [("scope", .dict [("value", .str "resourceGroup")])]),
      ("variables", .dict [("v", .dict [("decorators", .list []), ("value", .dict [("type", .str "lambda_expression"),
          ("detail", .dict [("var_1", .str "x"), ("expression", .elem "x")])])])])])
    (by decide +kernel)).trans (eq_of_outIs (by decide +kernel)).symm

/-- why objects of loops that are not identifiers are left out -/
example : Parser.parse ⟨false⟩ (some "var v = [for x in items ('o'): x]\n") .none =
    Parser.parse ⟨false⟩ (some "var v = [for x in items (o): x]\n") .none :=
  (eq_of_outIs (v := .dict [("globals", .dict [("scope", .dict [("value", .str "resourceGroup")])]),
      ("variables", .dict [("v", .dict [("decorators", .list []), ("value", .dict [
        ("loop_type", .dict [("type", .str "object"),
          ("detail", .dict [("item_name", .str "x"), ("object_name", .str "o")])]), ("condition", .none),
          ("config", .elem "x")])])])])
    (by decide +kernel)).trans (eq_of_outIs (by decide +kernel)).symm

end Pycep
