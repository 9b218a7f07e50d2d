import Verif.Props.Canonical
import Verif.Proofs.Examples
/-
Operator chains nest to the right (C42); brackets and `!` (C43).
-/
namespace Pycep

/-! ### C42: chains -/

/-- `x1 op1 x2 op2 ... xn`, with prefix operators anywhere -/
inductive OpChain where
  | last (e : Expr)
  | op (e : Expr) (o : BinOp) (c : OpChain)
  | not (c : OpChain)
  | minus (c : OpChain)

/-- the chain with brackets from the right: `x1 op1 (x2 op2 (... xn))` -/
def OpChain.nested : OpChain → Expr
  | .last e => e
  | .op e o c => .bin o e c.nested
  | .not c => .not c.nested
  | .minus c => .minus c.nested

/-- ways to write a chain: operands and operators one behind the other, without brackets around parts
of the chain.  (Operands may be anything, in brackets or not.) -/
inductive OpChainSyn : OpChain → List Tok → Nat → Prop where
  | last {e w n} : ESyn true e w n → OpChainSyn (.last e) w n
  | op {e o s c w1 u w2 n} : o.sign = some s → ESyn true e w1 u.type → Kw s u → OpChainSyn c w2 n →
      OpChainSyn (.op e o c) (w1 ++ (u :: w2)) n
  | not {c u w n} : Kw "!" u → OpChainSyn c w n → OpChainSyn (.not c) (u :: w) n
  | minus {c u w n} : Kw "-" u → OpChainSyn c w n → OpChainSyn (.minus c) (u :: w) n

theorem OpChainSyn.nested {c w n} (h : OpChainSyn c w n) (h1 : NoInfix n) (h2 : NoBang n) : ESyn true c.nested w n := by
  induction h with
  | last h => exact h
  | op hs he hu _ ih => exact .plain (.bin hs he hu (ih h1 h2) h1) h2
  | not hu _ ih => exact .plain (.not hu (ih h1 h2) h1) h2
  | minus hu _ ih => exact .plain (.minus hu (ih h1 h2) h1) h2

/-- the declaration `var x = e` -/
def varDecl (x : Ident) (e : Expr) : Decl := .var [] x .none (.expr e)

/-- **C42.** A text with the declaration `var x = x1 op1 x2 op2 ... xn` anywhere parses like the
program with the declaration `var x = x1 op1 (x2 op2 (... xn))` there, whatever the operators are. -/
theorem chains_nest_right (P : Parser) {text path t x c l} {p1 p2 : Program} {w1 w2 w : List Tok} {u v q z : Tok}
    (ht : chosenText text path = .ok t) (hv : isValid t = true)
    (hl : Layout tEND t.toList 1 (w1 ++ ((u :: v :: q :: w) ++ (z :: w2))))
    (hu : Kw "var" u) (hx : Id x v) (hq : Kw "=" q) (hz : z.type = T._CPP_COMMENT_NL)
    (h1 : ProgSyn p1 w1 u.type) (h2 : ProgSyn p2 w2 tEND) (hw : OpChainSyn c w z.type)
    (hln : LinesOf l (u :: v :: q :: w))
    (hc : (p1 ++ (l, varDecl x c.nested) :: p2).clear = true) :
    P.parse text path = liftV (Program.val P.addLineNumbers (p1 ++ (l, varDecl x c.nested) :: p2)) := by
  refine parse_writes P ht hv ⟨_, hl, ?_⟩ hc
  have hz' : NoInfix z.type ∧ NoBang z.type := by rw [hz]; exact ends_ok _ (by decide)
  have hd : DeclSyn (varDecl x c.nested) (u :: v :: q :: w) z.type :=
    .var (w0 := []) (w1 := []) .nil hu hx .no hq (.expr (hw.nested hz'.1 hz'.2) hz'.1)
  have := ProgSyn.append h2 (ProgSyn.nl (ProgSyn.decl h1 hd hln) hz)
  simpa using this

/-- the tokens of a chain, operands in brackets if they are not simple -/
def OpChain.toks : OpChain → List Lexeme
  | .last e => wrap e.simpleR {} (e.toks noStyle [])
  | .op e o c => wrap e.simpleR {} (e.toks noStyle []) ++ (kw o.token :: c.toks)
  | .not c => kw T.BANG :: c.toks
  | .minus c => kw T.MINUS :: c.toks

/-- the operands can be written, and the operators are written as a sign (all but indexing) -/
def OpChain.ok : OpChain → Prop
  | .last e => e.ok
  | .op e o c => e.ok ∧ o ≠ .index ∧ c.ok
  | .not c => c.ok
  | .minus c => c.ok

/-- `var x = x1 op1 x2 op2 ... xn`, as a text -/
def chainText (x : Ident) (c : OpChain) : String :=
  String.ofList (spaced (kw T.VAR :: idTok x :: kw T.EQUAL :: (c.toks ++ [nl])))

theorem OpChain.good : (c : OpChain) → c.ok → ∀ p, Good p c.toks
  | .last e, h, p => good_wrapR (Expr.good e h) p
  | .op e o c, h, p => by
    refine (good_wrapR (Expr.good e h.1) p).append (.of fun q => ?_)
    have hb := OpChain.good c h.2.2
    by_cases ho : o = .prop
    · subst ho; exact good_dot (hb _)
    · exact good_kw' (op_mem o ho) (hb _)
  | .not c, h, _ => good_kw (by decide) (.of (OpChain.good c h))
  | .minus c, h, _ => good_kw (by decide) (.of (OpChain.good c h))

theorem OpChain.syn : (c : OpChain) → c.ok → ∀ w, Sh w c.toks →
    ∃ c' : OpChain, c'.nested.bare = c.nested.bare ∧ ∀ n, NoBang n → OpChainSyn c' w n
  | .last e, h, w, hw => by
    obtain ⟨e', he, hE⟩ := wrap_syn (Expr.syn e h) _ simpleR_simple w hw
    exact ⟨.last e', he, fun n hn => .last (hE n hn)⟩
  | .op e o c, h, w, hw => by
    simp only [OpChain.toks, sh_append, sh_cons] at hw
    obtain ⟨w1, _, rfl, h1, u, w2, rfl, hu, h2⟩ := hw
    obtain ⟨e', he, hE⟩ := wrap_syn (Expr.syn e h.1) _ simpleR_simple w1 h1
    obtain ⟨c', hc, hC⟩ := OpChain.syn c h.2.2 w2 h2
    obtain ⟨ho1, ho2, ho3⟩ := op_ok o
    refine ⟨.op e' o c', by simp [OpChain.nested, Expr.bare, he, hc], fun n hn => ?_⟩
    cases hs : o.sign with
    | none => exact absurd (ho3 hs) h.2.1
    | some s => exact .op hs (hE _ (by rw [lex_type hu]; exact ho1)) (kw_of hu (ho2 s hs)) (hC n hn)
  | .not c, h, w, hw => by
    simp only [OpChain.toks, sh_cons] at hw
    obtain ⟨u, w1, rfl, hu, h1⟩ := hw
    obtain ⟨c', hc, hC⟩ := OpChain.syn c h w1 h1
    exact ⟨.not c', by simp [OpChain.nested, Expr.bare, hc], fun n hn => .not (kw_of hu (by decide +kernel)) (hC n hn)⟩
  | .minus c, h, w, hw => by
    simp only [OpChain.toks, sh_cons] at hw
    obtain ⟨u, w1, rfl, hu, h1⟩ := hw
    obtain ⟨c', hc, hC⟩ := OpChain.syn c h w1 h1
    exact ⟨.minus c', by simp [OpChain.nested, Expr.bare, hc], fun n hn => .minus (kw_of hu (by decide +kernel)) (hC n hn)⟩

/-- **C42, for canonical texts.** `var x = x1 op1 x2 op2 ... xn` is parsed to the meaning of
`var x = x1 op1 (x2 op2 (... xn))`, for all operands that can be written and all operators written as
a sign. -/
theorem chain_text {x : Ident} {c : OpChain} (ok : c.ok) (hc : c.nested.clear = true) :
    (Parser.mk false).parse (some (chainText x c)) .none =
      liftV (Program.val false [((1, 1), varDecl x c.nested)]) := by
  have hg : Good tEND (kw T.VAR :: idTok x :: kw T.EQUAL :: (c.toks ++ [nl])) :=
    good_named (by decide) (by decide +kernel) (.of fun _ => good_kw (by decide)
      ((G.of (c.good ok)).append (.of fun _ => good_nl .nil)))
  have hsh := sh_place (kw T.VAR :: idTok x :: kw T.EQUAL :: (c.toks ++ [nl])) 1
  have hl := hg.layout 1
  revert hl
  generalize hw : place 1 (kw T.VAR :: idTok x :: kw T.EQUAL :: (c.toks ++ [nl])) = w at hsh
  intro hl
  simp only [sh_cons, sh_append, sh_nil] at hsh
  obtain ⟨u, _, rfl, hu, v, _, rfl, hv, q, _, rfl, hq, w1, _, rfl, h1, z, _, rfl, hz, rfl⟩ := hsh
  obtain ⟨c', hc', hC⟩ := c.syn ok w1 h1
  obtain ⟨l, hln⟩ := linesOf_exists (w := u :: v :: q :: w1) (by simp)
  have hz' : NoInfix z.type ∧ NoBang z.type := by rw [(type_of hz).1]; exact ends_ok _ (by decide)
  have hb : Program.bare [(l, varDecl x c'.nested)] = Program.bare [((1, 1), varDecl x c.nested)] := by
    simp [Program.bare, varDecl, Decl.bare, LoopOrExpr.bare, hc']
  have := chains_nest_right (Parser.mk false) (text := some (chainText x c)) (path := .none) (t := chainText x c)
    (p1 := []) (p2 := []) (w1 := []) (w2 := []) (u := u) (v := v) (q := q) (w := w1) (z := z) (x := x) (c := c') (l := l)
    (by
      unfold chosenText
      have : chainText x c ≠ "" := by
        intro e
        have e := congrArg String.toList e
        simp [chainText, spaced_append, nl, spaced] at e
      simp) hg.valid (by simpa [chainText] using hl) (kw_of hu (by decide +kernel)) (id_of hv)
    (kw_of hq (by decide +kernel)) (type_of hz).1 .nil .nil (hC _ hz'.2) hln (by
      rw [← Program.bare_clear, List.nil_append, hb, Program.bare_clear]
      simp [Program.clear, varDecl, Decl.clear, LoopOrExpr.clear, hc])
  rw [this, List.nil_append, ← Program.bare_val, hb, Program.bare_val]

/-- what a chain whose operands have values is reported as: the first operand with the first operator, and the rest of
the chain as its second operand -/
inductive ChainVal (ln : Bool) : OpChain → Val → Prop where
  | last {e v} : e.val ln = .ok v → ChainVal ln (.last e) v
  | op {e o c x y} : e.val ln = .ok x → ChainVal ln c y → ChainVal ln (.op e o c)
      (.dict [("operator", .dict [("type", .str o.label), ("operands", .dict [("operand_1", x), ("operand_2", y)])])])
  | not {c x} : ChainVal ln c x → ChainVal ln (.not c)
      (.dict [("operator", .dict [("type", .str "not"), ("operands", .dict [("bool_value", x)])])])
  | minus {c x} : ChainVal ln c x → ChainVal ln (.minus c)
      (.dict [("operator", .dict [("type", .str "minus"), ("operands", .dict [("integer_value", x)])])])

theorem ChainVal.val {ln c v} (h : ChainVal ln c v) : c.nested.val ln = .ok v := by
  induction h with
  | last h => exact h
  | op h _ ih => rw [OpChain.nested, Expr.val, h, ih]; rfl
  | not _ ih => rw [OpChain.nested, Expr.val, ih]; rfl
  | minus _ ih => rw [OpChain.nested, Expr.val, ih]; rfl

/-- **C42, the result.** What is reported for `var x = x1 op1 x2 op2 ... xn`. -/
theorem C42_values {x : Ident} {c : OpChain} (ok : c.ok) (hc : c.nested.clear = true) {v} (hv : ChainVal false c v) :
    (Parser.mk false).parse (some (chainText x c)) .none =
      .ok (.dict [("globals", .dict [("scope", .dict [("value", .str "resourceGroup")])]),
        ("variables", .dict [(String.ofList x.1, .dict [("decorators", .list []), ("value", v)])])]) := by
  rw [chain_text ok hc]
  simp only [Program.val, Program.outs, Decl.out, varDecl, decoVals, LoopOrExpr.val, hv.val, bind, Except.bind, liftV]
  have : (["globals", "variables"] : List String).eraseDups = ["globals", "variables"] := by decide
  simp [collect, entries, defaultScope, lineItems, typeItem, this, lastWins, List.eraseDups_cons, List.lookup]

/-- a chain of four operands and a prefix operator: `a + b * !c == 1` -/
def exChain : OpChain :=
  .op (.ident (letter 'a' rfl)) .add (.op (.ident (letter 'b' rfl)) .mul (.not
    (.op (.ident (letter 'c' rfl)) .eq (.last (.int ⟨['1'], by decide⟩)))))

example : chainText (letter 'x' rfl) exChain = "var x = a + b * ! c == 1 \n " ∧ exChain.ok ∧
    exChain.nested.clear = true := by
  refine ⟨by decide +kernel, ?_, by decide⟩
  simp only [exChain, OpChain.ok, Expr.ok, Ident.Other]
  decide +kernel

example : Parser.parse ⟨false⟩ (some "var x = a + b * ! c == 1 \n ") .none =
    .ok (.dict [("globals", .dict [("scope", .dict [("value", .str "resourceGroup")])]),
      ("variables", .dict [("x", .dict [("decorators", .list []), ("value",
        opVal "add" [("operand_1", .elem "a"), ("operand_2",
          opVal "multiply" [("operand_1", .elem "b"), ("operand_2",
            opVal "not" [("bool_value",
              opVal "equals" [("operand_1", .elem "c"), ("operand_2", .int 1)])])])])])])]) :=
  eq_of_outIs (by decide +kernel)

/-! ### C43: brackets and `!` -/

/-- the four ways to write a value where an operand, an element, an argument or a value is expected:
`e`, `(e)`, `e!`, `(e)!` -/
inductive Wrapped (w : List Tok) : List Tok → Prop where
  | plain : Wrapped w w
  | paren {p q} : Kw "(" p → Kw ")" q → Wrapped w (p :: (w ++ [q]))
  | bang {v} : Kw "!" v → Wrapped w (w ++ [v])
  | parenBang {p q v} : Kw "(" p → Kw ")" q → Kw "!" v → Wrapped w (p :: (w ++ [q, v]))

/-- In every place where a value may stand in brackets, all four ways to write it are ways to write
the same expression. -/
theorem wrapped_syn {e w w' n} (h : ∀ m, NoInfix m ∨ m = n → ESyn false e w m) (hw : Wrapped w w') (hn : NoBang n) :
    ESyn true e w' n := by
  cases hw with
  | plain => exact .plain (h n (.inr rfl)) hn
  | paren hp hq => exact .paren hp (h _ (.inl (by unfold NoInfix; rw [hq.1]; decide))) hq hn
  | bang hv => exact .bang (h _ (.inl (by unfold NoInfix; rw [hv.1]; decide))) hv
  | parenBang hp hq hv => exact .parenBang hp (h _ (.inl (by unfold NoInfix; rw [hq.1]; decide))) hq hv

/-- **C43, first part.** Brackets around the value of a variable, or `!` behind it, do not change the
outcome: the text is parsed like the program with the declaration `var x = e` there. -/
theorem brackets_transparent (P : Parser) {text path t x e l} {p1 p2 : Program} {w1 w2 w w' : List Tok} {u v q z : Tok}
    (ht : chosenText text path = .ok t) (hv : isValid t = true)
    (hl : Layout tEND t.toList 1 (w1 ++ ((u :: v :: q :: w') ++ (z :: w2))))
    (hu : Kw "var" u) (hx : Id x v) (hq : Kw "=" q) (hz : z.type = T._CPP_COMMENT_NL)
    (h1 : ProgSyn p1 w1 u.type) (h2 : ProgSyn p2 w2 tEND)
    (he : ∀ n, NoInfix n → ESyn false e w n) (hw : Wrapped w w')
    (hln : LinesOf l (u :: v :: q :: w'))
    (hc : (p1 ++ (l, varDecl x e) :: p2).clear = true) :
    P.parse text path = liftV (Program.val P.addLineNumbers (p1 ++ (l, varDecl x e) :: p2)) := by
  have hz' : NoInfix z.type ∧ NoBang z.type := by rw [hz]; exact ends_ok _ (by decide)
  exact chains_nest_right P (c := .last e) ht hv hl hu hx hq hz h1 h2
    (.last (wrapped_syn (n := z.type) (fun m hm => he m (hm.elim id (fun h => h ▸ hz'.1))) hw hz'.2)) hln hc

/-- expressions that end with an operand -/
def Expr.isOpen : Expr → Bool
  | .bin .index _ _ => false
  | .bin _ _ _ | .not _ | .minus _ | .cond _ _ _ | .lambda _ _ | .lambdaN _ _ _ _ _ => true
  | _ => false

/-- the last token is `!` -/
def EndsBang (w : List Tok) : Prop := ∃ w' v, w = w' ++ [v] ∧ Kw "!" v

theorem EndsBang.cons {w} (u : Tok) : EndsBang w → EndsBang (u :: w)
  | ⟨w', v, e, h⟩ => ⟨u :: w', v, by rw [e]; rfl, h⟩
theorem EndsBang.append {w} (a : List Tok) : EndsBang w → EndsBang (a ++ w)
  | ⟨w', v, e, h⟩ => ⟨a ++ w', v, by rw [e, List.append_assoc], h⟩

theorem ends_bang {e w n} (h : ESyn true e w n) (hn : ¬ NoBang n) : EndsBang w := by
  cases h with
  | plain _ h => exact (hn h).elim
  | paren _ _ _ h => exact (hn h).elim
  | bang _ h => exact ⟨_, _, rfl, h⟩
  | @parenBang _ p w q v _ _ _ _ h => exact ⟨p :: (w ++ [q]), v, by simp, h⟩

theorem open_next {e w n} (h : ESyn false e w n) (ho : e.isOpen = true) :
    NoInfix n ∧ (¬ NoBang n → EndsBang w) := by
  cases h with
  | bin _ _ _ hb hn => exact ⟨hn, fun h => ((ends_bang hb h).cons _).append _⟩
  | safe _ _ _ hb hn => exact ⟨hn, fun h => (((ends_bang hb h).cons _).cons _).append _⟩
  | not _ hb hn => exact ⟨hn, fun h => (ends_bang hb h).cons _⟩
  | minus _ hb hn => exact ⟨hn, fun h => (ends_bang hb h).cons _⟩
  | cond _ _ _ _ hb hn => exact ⟨hn, fun h => ((((ends_bang hb h).cons _).append _).cons _).append _⟩
  | lambda _ _ hb hn => exact ⟨hn, fun h => ((ends_bang hb h).cons _).append _⟩
  | lambdaN _ _ _ _ _ _ _ hb hn => exact ⟨hn, fun h =>
      (((((((ends_bang hb h).cons _).cons _).append _).append _).cons _).append _).cons _⟩
  | _ => cases ho

/-- what stands on the left of a sign -/
theorem left_of_sign {a w1} {u : Tok} {s : String} (h : ESyn true a w1 u.type) (hu : Kw s u) (hs : s ∈ infixSigns)
    (ho : a.isOpen = true) (r : List Tok) :
    (∃ p wa q r', w1 ++ (u :: r) = p :: (wa ++ (q :: r')) ∧ Kw "(" p ∧ Kw ")" q ∧ ESyn false a wa q.type) ∨
    (∃ wa v v' r', w1 ++ (u :: r) = wa ++ (v :: v' :: r') ∧ Kw "!" v ∧ Kw "!" v' ∧ ESyn false a (wa ++ [v]) v'.type) := by
  cases h with
  | plain h _ => exact ((open_next h ho).1 s hs hu.1).elim
  | @paren _ p w q _ hp h hq _ => exact .inl ⟨p, w, q, u :: r, by simp, hp, hq, h⟩
  | @bang _ w v _ h hv =>
    obtain ⟨w', v', rfl, hv'⟩ := (open_next h ho).2 (by unfold NoBang; rw [hv.1]; simp)
    exact .inr ⟨w', v', v, u :: r, by simp, hv', hv, h⟩
  | @parenBang _ p w q v _ hp h hq hv => exact .inl ⟨p, w, q, v :: u :: r, by simp, hp, hq, h⟩

/-- **C43, second part.** Wherever an operator expression is the left operand of an operator, it is
written in brackets, or `!!` follows it: the first `!` belongs to its last operand, the second one to
itself. -/
theorem left_operand_brackets {op a b w n} (h : ESyn false (.bin op a b) w n) (ho : a.isOpen = true) :
    (∃ p wa q r, w = p :: (wa ++ (q :: r)) ∧ Kw "(" p ∧ Kw ")" q ∧ ESyn false a wa q.type) ∨
    (∃ wa v v' r, w = wa ++ (v :: v' :: r) ∧ Kw "!" v ∧ Kw "!" v' ∧ ESyn false a (wa ++ [v]) v'.type) := by
  cases h with
  | @bin _ s _ _ _ _ _ _ hs ha hu _ _ =>
    exact left_of_sign ha hu (by revert hs; cases op <;> intro hs <;> cases hs <;> decide) ho _
  | safe ha hu _ _ _ => exact left_of_sign ha hu (by decide) ho _
  | index ha hu _ _ => exact left_of_sign ha hu (by decide) ho _
  | safeIndex ha hu _ _ _ => exact left_of_sign ha hu (by decide) ho _

/-- brackets make a sum a left operand -/
example : Parser.parse ⟨false⟩ (some "var x = (a + b) - c\n") .none =
    .ok (.dict [("globals", .dict [("scope", .dict [("value", .str "resourceGroup")])]),
      ("variables", .dict [("x", .dict [("decorators", .list []), ("value",
        opVal "substract" [("operand_1", opVal "add" [("operand_1", .elem "a"), ("operand_2", .elem "b")]),
          ("operand_2", .elem "c")])])])]) :=
  eq_of_outIs (by decide +kernel)

/-- so does `!!` -/
example : Parser.parse ⟨false⟩ (some "var x = a + b!! - c\n") .none =
    Parser.parse ⟨false⟩ (some "var x = (a + b) - c\n") .none :=
  (eq_of_outIs (v := .dict [("globals", .dict [("scope", .dict [("value", .str "resourceGroup")])]),
      ("variables", .dict [("x", .dict [("decorators", .list []), ("value",
        opVal "substract" [("operand_1", opVal "add" [("operand_1", .elem "a"), ("operand_2", .elem "b")]),
          ("operand_2", .elem "c")])])])]) (by decide +kernel)).trans (eq_of_outIs (by decide +kernel)).symm

/-- without either, the difference becomes the right operand -/
example : Parser.parse ⟨false⟩ (some "var x = a + b! - c\n") .none =
    .ok (.dict [("globals", .dict [("scope", .dict [("value", .str "resourceGroup")])]),
      ("variables", .dict [("x", .dict [("decorators", .list []), ("value",
        opVal "add" [("operand_1", .elem "a"), ("operand_2",
          opVal "substract" [("operand_1", .elem "b"), ("operand_2", .elem "c")])])])])]) :=
  eq_of_outIs (by decide +kernel)

end Pycep
