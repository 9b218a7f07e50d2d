import Verif.Proofs.SizeDecl
import Verif.Props.Values
import Verif.Props.Canonical
import Verif.Proofs.Examples
import Verif.Spec.Path
/-
C72: how large a result can be.
-/
namespace Pycep

/-- **C72, number of values.** A result consists of at most four values per character of the text, and six
for the default target scope. -/
theorem C72_linear (P : Parser) {text path v} (h : P.parse text path = .ok v) :
    ∃ t, chosenText text path = .ok t ∧ v.nodes ≤ 4 * t.length + 6 := by
  obtain ⟨t, p, ht, ⟨⟨w, hw, hp⟩, _⟩, hv⟩ := parse_ok h
  replace hw := hw.tiling
  refine ⟨t, ht, ?_⟩
  have h1 := hp.nodes hv
  have h2 := hw.length_le
  rw [String.length_toList] at h2
  omega

/-! ### Texts can grow exponentially -/

/-- number of backslashes -/
def slashes (x : List Char) : Nat := x.count '\\'

theorem slashes_reprChar (q : Char) : 2 ≤ slashes (reprChar q '\\') := by
  rw [reprChar, if_pos (.inr rfl)]
  decide

theorem slashes_flatMap (q : Char) (x : List Char) : 2 * slashes x ≤ slashes (x.flatMap (reprChar q)) := by
  induction x with
  | nil => simp [slashes]
  | cons c x ih =>
    have := slashes_reprChar q
    unfold slashes at *
    rw [List.flatMap_cons, List.count_append, List.count_cons]
    by_cases hc : c = '\\'
    · subst hc; simp; omega
    · simp [hc]; omega

theorem slashes_reprStr (s : String) : 2 * slashes s.toList ≤ slashes (reprStr s).toList := by
  unfold reprStr
  simp only [String.toList_ofList]
  generalize (if s.toList.contains '\'' && !s.toList.contains '"' then '"' else '\'') = q
  have := slashes_flatMap q s.toList
  unfold slashes at *
  rw [List.count_append, List.count_append]
  omega

/-- the nested lambda expression -/
def nested : Nat → Expr
  | 0 => .ident (letter 'x' rfl)
  | n + 1 => .lambda (nested n) (.int ⟨['1'], by decide⟩)

/-- how the nested lambda expression is printed -/
def nestedStr : Nat → String
  | 0 => "x"
  | n + 1 => "{'type': 'lambda_expression', 'detail': {'var_1': " ++ reprStr (nestedStr n) ++ ", 'expression': 1}}"

theorem nestedStr_succ (n : Nat) : nestedStr (n + 1) =
    "{'type': 'lambda_expression', 'detail': {'var_1': " ++ reprStr (nestedStr n) ++ ", 'expression': 1}}" := rfl

theorem repr_type : reprStr "type" = "'type'" := by decide +kernel
theorem repr_lambda : reprStr "lambda_expression" = "'lambda_expression'" := by decide +kernel
theorem repr_detail : reprStr "detail" = "'detail'" := by decide +kernel
theorem repr_var : reprStr "var_1" = "'var_1'" := by decide +kernel
theorem repr_expression : reprStr "expression" = "'expression'" := by decide +kernel

theorem slashes_of_contains {x : List Char} (h : x.contains '\\' = true) : 1 ≤ slashes x :=
  List.count_pos_iff.mpr (List.contains_iff_mem.mp h)

theorem nestedStr_contains : (nestedStr 3).toList.contains '\\' = true := by decide +kernel

/-- what represents the nested lambda expression -/
def nestedVal : Nat → Val
  | 0 => .elem "x"
  | n + 1 => .dict [("type", .str "lambda_expression"),
      ("detail", .dict [("var_1", .str (nestedVal n).pyStr), ("expression", .int 1)])]

theorem nested_val (ln : Bool) : ∀ n, (nested n).val ln = .ok (nestedVal n)
  | 0 => by rw [nested, Expr.val]; rfl
  | n + 1 => by
    rw [nested, Expr.val, nested_val ln n, Expr.val]
    rfl

theorem nested_pyStr : ∀ n, (nestedVal n).pyStr = nestedStr n
  | 0 => rfl
  | n + 1 => by
    rw [nestedVal, nested_pyStr n, nestedStr_succ]
    generalize nestedStr n = s
    simp only [Val.pyStr, Val.repr, Val.reprItems, repr_type, repr_lambda, repr_detail, repr_var,
      repr_expression]
    rw [show toString (1 : Int) = "1" by decide +kernel]
    have hi : ∀ a b : String, ", ".intercalate [a, b] = a ++ ", " ++ b := fun _ _ => rfl
    rw [hi, hi]
    apply String.toList_inj.mp
    simp only [String.toList_append, List.append_assoc]
    rfl

theorem nested_slashes (n : Nat) : 2 ^ n ≤ slashes (nestedStr (n + 3)).toList := by
  induction n with
  | zero => exact slashes_of_contains nestedStr_contains
  | succ n ih =>
    have h := slashes_reprStr (nestedStr (n + 3))
    rw [show n + 1 + 3 = (n + 3) + 1 by omega, nestedStr_succ, String.toList_append, String.toList_append]
    unfold slashes at *
    rw [List.count_append, List.count_append, Nat.pow_succ]
    omega

/-- the program with the nested lambda expression -/
def nestedProgram (n : Nat) : Program := [((0, 0), .var [] (letter 'v' rfl) .none (.expr (nested n)))]

theorem nested_ok : ∀ n, (nested n).ok
  | 0 => by rw [nested, Expr.ok]; unfold Ident.Other; decide +kernel
  | n + 1 => by rw [nested, Expr.ok]; exact ⟨nested_ok n, by rw [Expr.ok]; trivial⟩

theorem nested_clear : ∀ n, (nested n).clear = true
  | 0 => by rw [nested, Expr.clear]
  | n + 1 => by rw [nested, Expr.clear, nested_clear n, Expr.clear]; rfl

theorem nested_bare : ∀ (n : Nat) (e : Expr), e.bare = (nested n).bare → e = nested n
  | 0, e, h => by cases e <;> rw [nested] at * <;> simp only [Expr.bare] at h <;> first | exact h | cases h
  | n + 1, e, h => by
    cases e <;> rw [nested] at * <;> simp only [Expr.bare] at h <;> try cases h
    rename_i v e
    injection h with h1 h2
    rw [nested_bare n v h1]
    cases e <;> simp only [Expr.bare] at h2 <;> first | rw [h2] | cases h2

theorem nested_render (n : Nat) : (nestedProgram n).render = nestedText n := by
  have ht : ∀ n π, spaced ((nested n).opd noStyle π) = (nestedLambda n).toList := by
    intro n
    induction n with
    | zero => intro π; rfl
    | succ n ih =>
      intro π
      have h1 : (nested (n + 1)).opd noStyle π = kw T.LPAR :: ((nested n).opd noStyle (0 :: π) ++
          [kw T.__ANON_0, (T.INT, ['1']), kw T.RPAR]) := by
        rw [nested]
        simp [Expr.opd, Expr.toks, wrap, Expr.simple, noStyle]
      rw [h1, nestedLambda, String.toList_append, String.toList_append, ← ih (0 :: π), List.append_assoc,
        ← List.singleton_append, spaced_append, spaced_append]
      rfl
  have h2 : (nestedProgram n).toks noStyle = [kw T.VAR, idTok (letter 'v' rfl), kw T.EQUAL] ++
      ((nested n).opd noStyle [1, 0] ++ [nl]) := by
    simp [nestedProgram, Program.toks, progToks, Decl.toks, decoToks, typeToks, LoopOrExpr.toks]
  unfold Program.render Program.renderWith
  rw [h2, spaced_append, spaced_append, ht]
  apply String.toList_inj.mp
  rw [String.toList_ofList, nestedText, String.toList_append, String.toList_append, List.append_assoc]
  rfl

theorem nestedText_length (n : Nat) : (nestedText n).length = 9 * n + 12 := by
  have : ∀ n, (nestedLambda n).length = 9 * n + 2 := by
    intro n
    induction n with
    | zero => rfl
    | succ n ih => rw [nestedLambda, String.length_append, String.length_append, ih]; rw [show ("( " : String).length = 2 from rfl, show ("=> 1 ) " : String).length = 7 from rfl]; omega
  rw [nestedText, String.length_append, String.length_append, this]
  rw [show ("var v = " : String).length = 8 from rfl, show ("\n " : String).length = 2 from rfl]; omega

/-- **C72, length of texts.** The variables of lambda expressions are printed; if they are lambda expressions
themselves, their texts are printed again, with every backslash doubled.  For every `n` there is a document of
`9 * n + 48` characters, with one variable, that yields a text of at least `2 ^ n` characters. -/
theorem C72_exponential (P : Parser) (n : Nat) : (nestedText (n + 4)).length = 9 * n + 48 ∧
    ∃ v s, P.parse (some (nestedText (n + 4))) .none = .ok v ∧
      v.at? [.key "variables", .key "v", .key "value", .key "detail", .key "var_1"] = some (.str s) ∧
      2 ^ n ≤ s.length := by
  refine ⟨by rw [nestedText_length]; omega, ?_⟩
  have hok : (nestedProgram (n + 4)).ok := by
    intro d hd
    simp only [nestedProgram, List.mem_singleton] at hd
    subst hd
    refine ⟨by intro d hd; simp at hd, by simp, nested_ok _⟩
  have hcl : (nestedProgram (n + 4)).clear = true := by
    simp [nestedProgram, Program.clear, Decl.clear, LoopOrExpr.clear, nested_clear]
  obtain ⟨p', h1, _, h2⟩ := parse_render P hok hcl (by simp [nestedProgram])
  rw [nested_render] at h2
  have hp : ∃ l, p' = [(l, .var [] (letter 'v' rfl) .none (.expr (nested (n + 4))))] := by
    match p', h1 with
    | [(l, d)], h1 =>
      simp only [Program.bare, nestedProgram, List.map_cons, List.map_nil, List.cons.injEq, Prod.mk.injEq, true_and,
        and_true] at h1
      cases d with
      | var ds x t e =>
        simp only [Decl.bare, Decl.var.injEq] at h1
        obtain ⟨e1, rfl, rfl, e2⟩ := h1
        cases ds with
        | cons d ds => simp [Deco.bareL] at e1
        | nil =>
          cases e with
          | loop l => simp [LoopOrExpr.bare] at e2
          | expr e =>
            simp only [LoopOrExpr.bare, LoopOrExpr.expr.injEq] at e2
            exact ⟨l, by rw [nested_bare _ _ e2]⟩
      | _ => simp [Decl.bare] at h1
    | [], h1 => simp [Program.bare, nestedProgram] at h1
    | _ :: _ :: _, h1 => simp [Program.bare, nestedProgram] at h1
  obtain ⟨l, rfl⟩ := hp
  have hs := nested_slashes n
  have hl : slashes (nestedStr (n + 3)).toList ≤ (nestedStr (n + 3)).length := by
    rw [← String.length_toList]; exact List.count_le_length
  have hv : ∃ v, Program.val P.addLineNumbers [(l, .var [] (letter 'v' rfl) .none (.expr (nested (n + 4))))] = .ok v ∧
      v.at? [.key "variables", .key "v", .key "value", .key "detail", .key "var_1"] = some (.str (nestedStr (n + 3))) := by
    refine ⟨_, by
      rw [Program.val, Program.outs, Decl.out, decoVals, LoopOrExpr.val, nested_val, Program.outs]
      rfl, ?_⟩
    have h := nested_pyStr (n + 3)
    rw [show nestedVal (n + 4) = .dict [("type", .str "lambda_expression"),
      ("detail", .dict [("var_1", .str (nestedVal (n + 3)).pyStr), ("expression", .int 1)])] from rfl, h]
    generalize nestedStr (n + 3) = s
    cases P.addLineNumbers <;> rfl
  obtain ⟨v, hv, ha⟩ := hv
  rw [hv] at h2
  exact ⟨v, _, h2, ha, by omega⟩

/-! ### Examples -/

/-- a document of 11 characters, and its result of 9 values -/
example : (Parser.mk false).parse (some "var x = [1]") .none = .ok (.dict [
    ("globals", .dict [("scope", .dict [("value", .str "resourceGroup")])]),
    ("variables", .dict [("x", .dict [("decorators", .list []), ("value", .list [.int 1])])])]) ∧
    (Val.dict [("globals", .dict [("scope", .dict [("value", .str "resourceGroup")])]),
    ("variables", .dict [("x", .dict [("decorators", .list []), ("value", .list [.int 1])])])]).nodes = 9 :=
  ⟨eq_of_outIs (by decide +kernel), by decide⟩

/-- the text for two levels of nesting -/
example : nestedText 2 = "var v = ( ( x => 1 ) => 1 ) \n " := by decide +kernel

/-- its result: the inner lambda expression is a text -/
example : (Parser.mk false).parse (some "var v = ( ( x => 1 ) => 1 ) \n ") .none = .ok (.dict [
    ("globals", .dict [("scope", .dict [("value", .str "resourceGroup")])]),
    ("variables", .dict [("v", .dict [("decorators", .list []), ("value", .dict [
      ("type", .str "lambda_expression"), ("detail", .dict [
        ("var_1", .str "{'type': 'lambda_expression', 'detail': {'var_1': 'x', 'expression': 1}}"),
        ("expression", .int 1)])])])])]) :=
  eq_of_outIs (by decide +kernel)

end Pycep
