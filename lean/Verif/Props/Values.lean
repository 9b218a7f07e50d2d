import Verif.Proofs.Reported
import Verif.Props.ApiProps
/-
C19-C24, C37, C40, C41, C44, C49: how values are represented.

All theorems have the form: a text accepted by `parse` spells a program, and wherever a piece of
this program is reported (`Program.At`), the result contains what the theorem says.
-/
namespace Pycep

/-- a name as an identifier -/
def mkIdent (c : Char) (cs : List Char) (h : isAsciiAlpha c = true ∨ c = '_') (h' : ∀ d ∈ cs, isWord d = true) : Ident :=
  ⟨c :: cs, c, cs, rfl, h, h'⟩

/-- the result of `parse` contains every piece of the program at its place -/
theorem parse_at {P : Parser} {text path v} (h : P.parse text path = .ok v) :
    ∃ t p, chosenText text path = .ok t ∧ Spells t p ∧
      ∀ {s n π m}, p.At s n π m → ∃ y, m.val P.addLineNumbers = .ok y ∧
        v.at? (.key s :: .key n :: π) = some y := by
  obtain ⟨t, p, h1, h2, h3⟩ := parse_ok h
  exact ⟨t, p, h1, h2, fun ha => at_val h3 ha⟩

/-- a program with a piece that has no representation makes `parse` fail -/
theorem tree_has {text path tree} (h : createTree' text path = .ok tree) :
    ∃ t p, chosenText text path = .ok t ∧ Spells t p ∧
      ∀ (P : Parser) {n}, p.Has n → (∀ y, n.val P.addLineNumbers ≠ .ok y) →
        ∃ r e, P.parse text path = .error (.visitError r e) := by
  rcases createTree'_cases text path with ⟨e, h1, h2⟩ | ⟨t, m, h1, h2, h3, h4⟩ | ⟨t, h1, h2, _, h3⟩ |
    ⟨t, tree', p, h1, h2, hl, h3, h4, h5⟩
  · rw [h] at h2; cases h2
  · rw [h] at h3; cases h3
  · rw [h] at h3; cases h3
  · rw [h] at h5
    cases h5
    refine ⟨t, p, h1, h3, fun P n hn hbad => ?_⟩
    have hp : P.parse text path = liftV (p.val P.addLineNumbers) := by
      rw [parse_eq, h]; simp only [Except.bind, bicepToJson_program h4]
    cases hv : p.val P.addLineNumbers with
    | ok v => obtain ⟨y, hy⟩ := has_val hn hv; exact absurd hy (hbad y)
    | error e =>
      rw [hv] at hp
      cases e with
      | visit r e => exact ⟨r, e, hp⟩
      | noCallback r => exact absurd ((bicepToJson_program h4).trans hv) ((C05_no_internal_error t).2.2 _ hl _ _)

/-- **C19.** A string literal `'b'` is represented by the text `b`, whatever it contains. -/
theorem C19_strings_verbatim {P : Parser} {text path v} (h : P.parse text path = .ok v) :
    ∃ t p, chosenText text path = .ok t ∧ Spells t p ∧
      ∀ {s n π b}, p.At s n π (.expr (.str b)) →
        v.at? (.key s :: .key n :: π) = some (.str (String.ofList b)) := by
  obtain ⟨t, p, h1, h2, h3⟩ := parse_at h
  refine ⟨t, p, h1, h2, fun ha => ?_⟩
  obtain ⟨y, hy, hat⟩ := h3 ha
  rw [Node.val, Expr.val] at hy; cases hy; exact hat

/-- **C20.** An identifier is represented by a `BicepElement` with its text; a string literal of
either kind never is. -/
theorem C20_identifiers {P : Parser} {text path v} (h : P.parse text path = .ok v) :
    ∃ t p, chosenText text path = .ok t ∧ Spells t p ∧
      (∀ {s n π x}, p.At s n π (.expr (.ident x)) →
        v.at? (.key s :: .key n :: π) = some (.elem (String.ofList x.1))) ∧
      (∀ {s n π e}, p.At s n π (.expr e) → (∃ b, e = .str b ∨ e = .multi b) →
        ∀ x, v.at? (.key s :: .key n :: π) ≠ some (.elem x)) := by
  obtain ⟨t, p, h1, h2, h3⟩ := parse_at h
  refine ⟨t, p, h1, h2, fun ha => ?_, ?_⟩
  · obtain ⟨y, hy, hat⟩ := h3 ha
    rw [Node.val, Expr.val] at hy; cases hy; exact hat
  · rintro s n π e ha ⟨b, rfl | rfl⟩ x hx
    · obtain ⟨y, hy, hat⟩ := h3 ha
      rw [Node.val, Expr.val] at hy; cases hy; rw [hat] at hx; cases hx
    · obtain ⟨y, hy, hat⟩ := h3 ha
      rw [Node.val, Expr.val] at hy; cases hy; rw [hat] at hx; cases hx

/-- **C21.** A multi-line string is represented by the text between the quotes without a line feed
at its very beginning. -/
theorem C21_multiline {P : Parser} {text path v} (h : P.parse text path = .ok v) :
    ∃ t p, chosenText text path = .ok t ∧ Spells t p ∧
      (∀ {s n π b}, p.At s n π (.expr (.multi ('\n' :: b))) →
        v.at? (.key s :: .key n :: π) = some (.str (String.ofList b))) ∧
      (∀ {s n π b}, p.At s n π (.expr (.multi b)) → b.head? ≠ some '\n' →
        v.at? (.key s :: .key n :: π) = some (.str (String.ofList b))) := by
  obtain ⟨t, p, h1, h2, h3⟩ := parse_at h
  refine ⟨t, p, h1, h2, fun ha => ?_, fun {s n π b} ha hb => ?_⟩
  · obtain ⟨y, hy, hat⟩ := h3 ha
    rw [Node.val, Expr.val] at hy; cases hy; exact hat
  · obtain ⟨y, hy, hat⟩ := h3 ha
    rw [Node.val, Expr.val] at hy; cases hy
    rw [hat]
    cases b with
    | nil => rfl
    | cons c b =>
      unfold dropNewline
      split
      · rename_i he; cases he; simp at hb
      · rfl

/-- **C22.** An integer literal of at most 4300 digits is represented by its value. -/
theorem C22_integers {P : Parser} {text path v} (h : P.parse text path = .ok v) :
    ∃ t p, chosenText text path = .ok t ∧ Spells t p ∧
      ∀ {s n π d}, p.At s n π (.expr (.int d)) → d.1.length ≤ 4300 ∧
        v.at? (.key s :: .key n :: π) = some (.int (decimal d.1)) := by
  obtain ⟨t, p, h1, h2, h3⟩ := parse_at h
  refine ⟨t, p, h1, h2, fun ha => ?_⟩
  obtain ⟨y, hy, hat⟩ := h3 ha
  rw [Node.val, Expr.val] at hy
  split at hy <;> cases hy
  exact ⟨by assumption, hat⟩

/-- **C22.** An integer literal with more than 4300 digits makes `parse` fail with `VisitError`,
wherever it is. -/
theorem C22_long_integers {text path tree} (h : createTree' text path = .ok tree) :
    ∃ t p, chosenText text path = .ok t ∧ Spells t p ∧
      ∀ (P : Parser) d, p.Has (.expr (.int d)) → 4300 < d.1.length →
        ∃ r e, P.parse text path = .error (.visitError r e) := by
  obtain ⟨t, p, h1, h2, h3⟩ := tree_has h
  refine ⟨t, p, h1, h2, fun P d hd hlen => h3 P hd ?_⟩
  intro y hy
  rw [Node.val, Expr.val, if_neg (by unfold intMaxStrDigits; omega)] at hy
  cases hy

/-- **C22.** The value of a numeral: positional, leading zeros do not matter. -/
theorem C22_decimal : decimal [] = 0 ∧ (∀ x c, decimal (x ++ [c]) = 10 * decimal x + (c.toNat - '0'.toNat)) ∧
    ∀ x, decimal ('0' :: x) = decimal x := by
  refine ⟨rfl, fun x c => ?_, fun x => ?_⟩
  · unfold decimal
    simp only [List.reverse_append, List.reverse_cons, List.reverse_nil, List.nil_append, List.cons_append,
      List.map_cons, Nat.ofDigits_cons]
    omega
  · unfold decimal
    simp [Nat.ofDigits_append]

/-- **C23.** An array is represented by a list of what its elements are, one for each, in order. -/
theorem C23_arrays {P : Parser} {text path v} (h : P.parse text path = .ok v) :
    ∃ t p, chosenText text path = .ok t ∧ Spells t p ∧
      ∀ {s n π es}, p.At s n π (.expr (.array es)) →
        ∃ vs, v.at? (.key s :: .key n :: π) = some (.list vs) ∧ vs.length = es.length ∧
          ∀ (i : Nat) e, es[i]? = some e → ∃ y, e.val P.addLineNumbers = .ok y ∧ vs[i]? = some y := by
  obtain ⟨t, p, h1, h2, h3⟩ := parse_at h
  refine ⟨t, p, h1, h2, fun ha => ?_⟩
  obtain ⟨y, hy, hat⟩ := h3 ha
  rw [Node.val, Expr.val] at hy
  obtain ⟨vs, hvs, hy⟩ := bind_ok' hy
  cases hy
  obtain ⟨hl, hi⟩ := vals_getElem hvs
  exact ⟨vs, hat, hl.symm, hi⟩

/-- **C24.** An object is represented by a dictionary with the keys written, in order of their first
occurrence, each with the value written last. -/
theorem C24_objects {P : Parser} {text path v} (h : P.parse text path = .ok v) :
    ∃ t p, chosenText text path = .ok t ∧ Spells t p ∧
      ∀ {s n π is}, p.At s n π (.expr (.object is)) →
        ∃ d, v.at? (.key s :: .key n :: π) = some (.dict d) ∧
          d.map Prod.fst = (is.map Item.key).eraseDups ∧
          (∀ k key e, LastItem is k (.pair key e) → ∃ y, e.val P.addLineNumbers = .ok y ∧ dGet k d = some y) ∧
          (∀ k key l, LastItem is k (.pairLoop key l) → ∃ y, l.val P.addLineNumbers = .ok y ∧ dGet k d = some y) := by
  obtain ⟨t, p, h1, h2, h3⟩ := parse_at h
  refine ⟨t, p, h1, h2, fun ha => ?_⟩
  obtain ⟨y, hy, hat⟩ := h3 ha
  rw [Node.val, Expr.val] at hy
  obtain ⟨ps, hps, hy⟩ := bind_ok' hy
  cases hy
  refine ⟨_, hat, ?_, fun k key e hl => ?_, fun k key l hl => ?_⟩
  · rw [lastWins_keys', (items_mem hps).1]
  · exact items_last hps hl
  · exact items_last hps hl

/-- **C24.** How keys are written: an identifier and the keyword `resource` are themselves, a string
literal keeps its quotes. -/
theorem C24_keys (x : Ident) (q : Bool) (b : List Char) : Key.text .resource = "resource" ∧
    Key.text (.ident x) = String.ofList x.1 ∧ Key.text (.quoted q b) = "'" ++ String.ofList b ++ "'" := by
  refine ⟨rfl, rfl, ?_⟩
  simp only [Key.text, txt, quote]
  apply String.toList_injective
  simp

/-- **C37.** Loops: what they range over, the condition, the body. -/
theorem C37_loops {P : Parser} {text path v} (h : P.parse text path = .ok v) :
    ∃ t p, chosenText text path = .ok t ∧ Spells t p ∧
      ∀ {s n π hd c b}, p.At s n π (.loop (.mk hd c b)) →
        ∃ x y z, v.at? (.key s :: .key n :: π) = some (.dict [("loop_type", x), ("condition", y), ("config", z)]) ∧
          -- the head
          (match hd with
            | .arr i e => ∃ w, e.val P.addLineNumbers = .ok w ∧ x = .dict [("type", .str "array"),
                ("detail", .dict [("item_name", .str (String.ofList i.1)), ("array_name", w)])]
            | .arrIdx i j e => ∃ w, e.val P.addLineNumbers = .ok w ∧ x = .dict [("type", .str "array_index"),
                ("detail", .dict [("item_name", .str (String.ofList i.1)),
                  ("index_name", .str (String.ofList j.1)), ("array_name", w)])]
            | .obj i e => ∃ w, e.val P.addLineNumbers = .ok w ∧ x = .dict [("type", .str "object"),
                ("detail", .dict [("item_name", .str (String.ofList i.1)), ("object_name", .str w.pyStr)])]) ∧
          -- the condition
          (c = .none → y = .none) ∧
          (∀ f a as, c = some (.call f (a :: as)) → String.ofList f.1 = "if" → a.val P.addLineNumbers = .ok y) ∧
          (∀ a, c = some a → AsItIs a → a.val P.addLineNumbers = .ok y) ∧
          -- the body
          b.val P.addLineNumbers = .ok z := by
  obtain ⟨t, p, h1, h2, h3⟩ := parse_at h
  refine ⟨t, p, h1, h2, fun {s n π hd c b} ha => ?_⟩
  obtain ⟨u, hu, hat⟩ := h3 ha
  have hu' := hu
  rw [Node.val, Loop.val] at hu
  obtain ⟨x, hx, hu⟩ := bind_ok' hu
  obtain ⟨c', hc', hu⟩ := bind_ok' hu
  obtain ⟨z, hz, hu⟩ := bind_ok' hu
  obtain ⟨y, hy, hu⟩ := bind_ok' hu
  cases hu
  refine ⟨x, y, z, hat, ?_, ?_, ?_, ?_, hz⟩
  · cases hd <;> (rw [LoopHead.val] at hx; obtain ⟨w, hw, hx⟩ := bind_ok' hx; cases hx; exact ⟨w, hw, rfl⟩)
  · rintro rfl
    rw [Expr.optVal] at hc'
    cases hc'
    have := inRule_ok hy
    simp only [loopCondition] at this
    cases this; rfl
  · rintro f a as rfl hf
    obtain ⟨w, hw, hw'⟩ := place1_val (Place1.loopFilter (h := hd) (b := b) (f := f) (c := a) (es := as) hf) hu'
    simp only [Val.at?, Val.step?, dGet] at hw'
    simp at hw'
    rw [hw']; exact hw
  · rintro a rfl hai
    obtain ⟨w, hw, hw'⟩ := place1_val (Place1.loopCond (h := hd) (b := b) hai) hu'
    simp only [Val.at?, Val.step?, dGet] at hw'
    simp at hw'
    rw [hw']; exact hw

/-- the variables of a lambda, if they are identifiers -/
theorem idents_vals {ln : Bool} {xs : List Ident} {vs : List Val}
    (h : Expr.vals ln (xs.map Expr.ident) = .ok vs) :
    vs.map (fun x => Val.str x.pyStr) = xs.map (fun x => Val.str (String.ofList x.1)) := by
  induction xs generalizing vs with
  | nil => rw [List.map_nil, Expr.vals] at h; cases h; rfl
  | cons x xs ih =>
    rw [List.map_cons, Expr.vals, Expr.val] at h
    obtain ⟨_, hv, h⟩ := bind_ok' h
    cases hv
    obtain ⟨vs', hvs, h⟩ := bind_ok' h
    cases h
    rw [List.map_cons, List.map_cons, ih hvs]; rfl

/-- **C40.** A lambda is represented by its variables, numbered in order, and its expression. -/
theorem C40_lambdas {P : Parser} {text path v} (h : P.parse text path = .ok v) :
    ∃ t p, chosenText text path = .ok t ∧ Spells t p ∧
      (∀ {s n π x e}, p.At s n π (.expr (.lambda (.ident x) e)) → ∃ b, e.val P.addLineNumbers = .ok b ∧
        v.at? (.key s :: .key n :: π) = some (.dict [("type", .str "lambda_expression"),
          ("detail", .dict [("var_1", .str (String.ofList x.1)), ("expression", b)])])) ∧
      (∀ {s n π x1 x2 x3} {xs : List Ident} {e},
        p.At s n π (.expr (.lambdaN (.ident x1) (.ident x2) (.ident x3) (xs.map .ident) e)) →
        ∃ b, e.val P.addLineNumbers = .ok b ∧
        v.at? (.key s :: .key n :: π) = some (.dict [("type", .str "lambda_expression"),
          ("detail", .dict (numbered "var_" 1 ((x1 :: x2 :: x3 :: xs).map (fun x => .str (String.ofList x.1))) ++
            [("expression", b)]))])) := by
  obtain ⟨t, p, h1, h2, h3⟩ := parse_at h
  refine ⟨t, p, h1, h2, fun ha => ?_, fun ha => ?_⟩
  · obtain ⟨y, hy, hat⟩ := h3 ha
    rw [Node.val, Expr.val, Expr.val] at hy
    obtain ⟨_, hx, hy⟩ := bind_ok' hy; cases hx
    obtain ⟨b, hb, hy⟩ := bind_ok' hy; cases hy
    exact ⟨b, hb, hat⟩
  · obtain ⟨y, hy, hat⟩ := h3 ha
    rw [Node.val, Expr.val, Expr.val, Expr.val, Expr.val] at hy
    obtain ⟨_, hx, hy⟩ := bind_ok' hy; cases hx
    obtain ⟨_, hx, hy⟩ := bind_ok' hy; cases hx
    obtain ⟨_, hx, hy⟩ := bind_ok' hy; cases hx
    obtain ⟨xs', hxs, hy⟩ := bind_ok' hy
    obtain ⟨b, hb, hy⟩ := bind_ok' hy; cases hy
    refine ⟨b, hb, ?_⟩
    rw [hat]
    rw [List.map_cons, List.map_cons, List.map_cons, idents_vals hxs]; rfl

/-- the representation of an operator determines the operator -/
theorem label_injective (a b : BinOp) (h : a.label = b.label) : a = b := by
  cases a <;> cases b <;> first | rfl | (exfalso; revert h; decide)

theorem label_not_prefix (a : BinOp) : a.label ≠ "not" ∧ a.label ≠ "minus" ∧ a.label ≠ "conditional" ∧
    a.label ≠ "function_accessor" := by
  cases a <;> decide

/-- **C41.** Operators are represented by their names and what their operands are, in order. -/
theorem C41_operators {P : Parser} {text path v} (h : P.parse text path = .ok v) :
    ∃ t p, chosenText text path = .ok t ∧ Spells t p ∧
      (∀ {s n π op a b}, p.At s n π (.expr (.bin op a b)) →
        ∃ x y, a.val P.addLineNumbers = .ok x ∧ b.val P.addLineNumbers = .ok y ∧
          v.at? (.key s :: .key n :: π) = some (.dict [("operator", .dict [("type", .str op.label),
            ("operands", .dict [("operand_1", x), ("operand_2", y)])])])) ∧
      (∀ {s n π a}, p.At s n π (.expr (.not a)) → ∃ x, a.val P.addLineNumbers = .ok x ∧
          v.at? (.key s :: .key n :: π) = some (.dict [("operator", .dict [("type", .str "not"),
            ("operands", .dict [("bool_value", x)])])])) ∧
      (∀ {s n π a}, p.At s n π (.expr (.minus a)) → ∃ x, a.val P.addLineNumbers = .ok x ∧
          v.at? (.key s :: .key n :: π) = some (.dict [("operator", .dict [("type", .str "minus"),
            ("operands", .dict [("integer_value", x)])])])) ∧
      (∀ {s n π a b c}, p.At s n π (.expr (.cond a b c)) → ∃ x y z, a.val P.addLineNumbers = .ok x ∧
          b.val P.addLineNumbers = .ok y ∧ c.val P.addLineNumbers = .ok z ∧
          v.at? (.key s :: .key n :: π) = some (.dict [("operator", .dict [("type", .str "conditional"),
            ("operands", .dict [("condition", x), ("true_value", y), ("false_value", z)])])])) := by
  obtain ⟨t, p, h1, h2, h3⟩ := parse_at h
  refine ⟨t, p, h1, h2, fun ha => ?_, fun ha => ?_, fun ha => ?_, fun ha => ?_⟩
  · obtain ⟨u, hu, hat⟩ := h3 ha
    rw [Node.val, Expr.val] at hu
    obtain ⟨x, hx, hu⟩ := bind_ok' hu; obtain ⟨y, hy, hu⟩ := bind_ok' hu; cases hu
    exact ⟨x, y, hx, hy, hat⟩
  · obtain ⟨u, hu, hat⟩ := h3 ha
    rw [Node.val, Expr.val] at hu
    obtain ⟨x, hx, hu⟩ := bind_ok' hu; cases hu
    exact ⟨x, hx, hat⟩
  · obtain ⟨u, hu, hat⟩ := h3 ha
    rw [Node.val, Expr.val] at hu
    obtain ⟨x, hx, hu⟩ := bind_ok' hu; cases hu
    exact ⟨x, hx, hat⟩
  · obtain ⟨u, hu, hat⟩ := h3 ha
    rw [Node.val, Expr.val] at hu
    obtain ⟨x, hx, hu⟩ := bind_ok' hu; obtain ⟨y, hy, hu⟩ := bind_ok' hu
    obtain ⟨z, hz, hu⟩ := bind_ok' hu; cases hu
    exact ⟨x, y, z, hx, hy, hz, hat⟩

/-- **C41.** Binary operators with different operators or differently represented operands are
represented differently, and differently from prefix and conditional operators. -/
theorem C41_distinct {ln : Bool} {op op' : BinOp} {a b a' b' : Expr} {x : Val}
    (h : (Expr.bin op a b).val ln = .ok x) :
    ((Expr.bin op' a' b').val ln = .ok x → op = op' ∧ a.val ln = a'.val ln ∧ b.val ln = b'.val ln) ∧
    (∀ c, (Expr.not c).val ln ≠ .ok x) ∧ (∀ c, (Expr.minus c).val ln ≠ .ok x) ∧
    (∀ c d e, (Expr.cond c d e).val ln ≠ .ok x) ∧ (∀ c f args, (Expr.method c f args).val ln ≠ .ok x) := by
  rw [Expr.val] at h
  obtain ⟨y, hy, h⟩ := bind_ok' h; obtain ⟨z, hz, h⟩ := bind_ok' h; cases h
  have hl := label_not_prefix op
  refine ⟨fun h' => ?_, fun c h' => ?_, fun c h' => ?_, fun c d e h' => ?_, fun c f args h' => ?_⟩
  · rw [Expr.val] at h'
    obtain ⟨y', hy', h'⟩ := bind_ok' h'; obtain ⟨z', hz', h'⟩ := bind_ok' h'
    have h4 := Except.ok.inj h'
    unfold opVal at h4
    simp only [Val.dict.injEq, List.cons.injEq, Prod.mk.injEq, Val.str.injEq, true_and, and_true] at h4
    refine ⟨(label_injective _ _ h4.1).symm, ?_, ?_⟩
    · rw [hy, hy', h4.2.1]
    · rw [hz, hz', h4.2.2]
  · rw [Expr.val] at h'
    obtain ⟨y', hy', h'⟩ := bind_ok' h'
    have h4 := Except.ok.inj h'
    simp [opVal] at h4
  · rw [Expr.val] at h'
    obtain ⟨y', hy', h'⟩ := bind_ok' h'
    have h4 := Except.ok.inj h'
    simp [opVal] at h4
  · rw [Expr.val] at h'
    obtain ⟨y', hy', h'⟩ := bind_ok' h'; obtain ⟨z', hz', h'⟩ := bind_ok' h'
    obtain ⟨_, _, h'⟩ := bind_ok' h'
    have h4 := Except.ok.inj h'
    simp [opVal] at h4
  · rw [Expr.val] at h'
    obtain ⟨y', hy', h'⟩ := bind_ok' h'; obtain ⟨z', hz', h'⟩ := bind_ok' h'
    have h4 := Except.ok.inj h'
    simp only [opVal, Val.dict.injEq, List.cons.injEq, Prod.mk.injEq, Val.str.injEq, true_and, and_true] at h4
    exact hl.2.2.2 h4.1.symm

/-- **C44, partial.** A method call reports the value it is called on, the name and all arguments,
if none of them is represented by something empty.
Missing: empty arguments (`null`, `false`, `0`, `''`, `[]`, `{}`) are dropped, see below. -/
theorem C44_methods_partial {P : Parser} {text path v} (h : P.parse text path = .ok v) :
    ∃ t p, chosenText text path = .ok t ∧ Spells t p ∧
      ∀ {s n π a f} {args : List Expr}, p.At s n π (.expr (.method a f (args.map some))) →
        ∃ x vs, a.val P.addLineNumbers = .ok x ∧ vs.length = args.length ∧
          (∀ (i : Nat) e, args[i]? = some e → ∃ y, e.val P.addLineNumbers = .ok y ∧ vs[i]? = some y) ∧
          ((∀ y ∈ vs, y.truthy = true) →
            v.at? (.key s :: .key n :: π) = some (.dict [("operator", .dict [("type", .str "function_accessor"),
            ("operands", .dict (("operand_1", x) :: ("func_name", .str (String.ofList f.1)) ::
              numbered "operand_" 2 vs))])])) := by
  obtain ⟨t, p, h1, h2, h3⟩ := parse_at h
  refine ⟨t, p, h1, h2, fun {s n π a f args} ha => ?_⟩
  obtain ⟨u, hu, hat⟩ := h3 ha
  rw [Node.val, Expr.val] at hu
  obtain ⟨x, hx, hu⟩ := bind_ok' hu; obtain ⟨vs, hvs, hu⟩ := bind_ok' hu; cases hu
  obtain ⟨hl, hi⟩ := optVals_getElem hvs
  refine ⟨x, vs, hx, by simpa using hl.symm, ?_, fun hall => ?_⟩
  · intro i e he
    obtain ⟨y, hy, hy'⟩ := hi i (some e) (by simp [he])
    rw [Expr.optVal] at hy
    exact ⟨y, hy, hy'⟩
  · rw [hat, opVal]
    have : ∀ (vs : List Val) k, (∀ y ∈ vs, y.truthy = true) →
        (numbered "operand_" k vs).filter (fun p => p.2.truthy) = numbered "operand_" k vs := by
      intro vs
      induction vs with
      | nil => intros; rfl
      | cons v vs ih =>
        intro k hk
        simp [numbered, hk v (by simp), ih (k + 1) (fun y hy => hk y (by simp [hy]))]
    rw [this vs 2 hall]

/-- **C44 does not hold in general**: the empty argument `0` is not reported, the next one keeps its
number. -/
theorem C44_counterexample : Parser.parse ⟨false⟩ (some "var v = x.listFoo(0, 'a')\n") .none =
    .ok (.dict [("globals", .dict [("scope", .dict [("value", .str "resourceGroup")])]),
      ("variables", .dict [("v", .dict [("decorators", .list []), ("value", .dict [("operator", .dict
        [("type", .str "function_accessor"), ("operands", .dict [("operand_1", .elem "x"),
          ("func_name", .str "listFoo"), ("operand_3", .str "a")])])])])])]) :=
  eq_of_outIs (by decide +kernel)

/-- **C49.** The body of a resource or module with a condition is represented by the condition and
the body. -/
theorem C49_conditions {P : Parser} {text path v} (h : P.parse text path = .ok v) :
    ∃ t p, chosenText text path = .ok t ∧ Spells t p ∧
      (∀ {n l ds x b ex c e}, Reported p "resources" n l (.resource ds x b ex (.cond c e)) →
        ∃ y z, c.val P.addLineNumbers = .ok y ∧ e.val P.addLineNumbers = .ok z ∧
          v.at? [.key "resources", .key n, .key "config"] = some (.dict [("condition", y), ("config", z)])) ∧
      (∀ {n l ds x b c e}, Reported p "modules" n l (.module ds x b (.cond c e)) →
        ∃ y z, c.val P.addLineNumbers = .ok y ∧ e.val P.addLineNumbers = .ok z ∧
          v.at? [.key "modules", .key n, .key "config"] = some (.dict [("condition", y), ("config", z)])) ∧
      -- without the condition
      (∀ {n l ds x b ex is}, Reported p "resources" n l (.resource ds x b ex (.obj is)) →
        (∀ i ∈ is, i.key ≠ "__child_resource__") →
        ∃ z, (Expr.object is).val P.addLineNumbers = .ok z ∧
          v.at? [.key "resources", .key n, .key "config"] = some z) ∧
      (∀ {n l ds x b is}, Reported p "modules" n l (.module ds x b (.obj is)) →
        ∃ z, (Expr.object is).val P.addLineNumbers = .ok z ∧
          v.at? [.key "modules", .key n, .key "config"] = some z) := by
  obtain ⟨t, p, h1, h2, hv⟩ := parse_ok h
  have h3 := fun {s n π m} (ha : p.At s n π m) => at_val hv ha
  refine ⟨t, p, h1, h2, fun hr => ?_, fun hr => ?_, @fun _ _ _ _ _ _ is hr hno => ?_, fun hr => ?_⟩
  · obtain ⟨u, hu, hat⟩ := h3 (.own hr .resCond .refl)
    rw [Node.val, Config.val] at hu
    obtain ⟨y, hy, hu⟩ := bind_ok' hu; obtain ⟨z, hz, hu⟩ := bind_ok' hu; cases hu
    exact ⟨y, z, hy, hz, hat⟩
  · obtain ⟨u, hu, hat⟩ := h3 (.own hr .modConfig .refl)
    rw [Node.val, Config.val] at hu
    obtain ⟨y, hy, hu⟩ := bind_ok' hu; obtain ⟨z, hz, hu⟩ := bind_ok' hu; cases hu
    exact ⟨y, z, hy, hz, hat⟩
  · rw [Program.val] at hv
    obtain ⟨os, hos, hv⟩ := bind_ok' hv
    cases hv
    obtain ⟨o, attrs, ho, hown, hat⟩ := reported_entry (contribs_of hos) hr
    obtain ⟨vs, t', api, d, _, _, hd, hown', _, _⟩ := resource_out ho (rs := []) (.nil hno)
    rw [hown] at hown'
    cases hown'
    refine ⟨.dict d, ?_, ?_⟩
    · rw [Config.val] at hd; rw [Expr.val]; exact hd
    · have hpath : ∀ m, [PStep.key "resources", .key m, .key "config"] =
          [.key "resources", .key m] ++ [.key "config"] := fun _ => rfl
      rw [hpath, Val.at?_append, hat]
      simp [Val.at?, Val.step?, dGet, dErase_absent (noChild_get (c := .obj is) hno hd)]
  · obtain ⟨u, hu, hat⟩ := h3 (.own hr .modConfig .refl)
    refine ⟨u, ?_, hat⟩
    rw [Node.val, Config.val] at hu
    rw [Expr.val]; exact hu

/-! ### Concrete cases -/

/-- a small program and a place in it -/
example : Program.At [((1, 1), .var [] (mkIdent 'a' [] (by decide) (by decide)) .none
      (.expr (.array [.null, .object [.pair .resource (.str "x".toList)]])))]
    "variables" "a" [.key "value", .idx 1, .key "resource"] (.expr (.str "x".toList)) :=
  .own (κ := [.key "value"]) (π := [.idx 1, .key "resource"])
    ⟨[], [], rfl, by simp [Decl.ownName, mkIdent, txt], by simp, by simp⟩ .varExpr
    (.step (π := [.idx 1]) (.step (π := []) .refl (.elem (i := 1) rfl)) (.member ⟨[], [], rfl, rfl, by simp⟩))

/-- strings, identifiers, numbers, arrays, objects -/
example : Parser.parse ⟨false⟩ (some "var a = ['x\\'y${z}', b, 007, {\n  resource: null\n  'k': true\n  resource: 1\n}, '''\n\nm''']\n") .none =
    .ok (.dict [("globals", .dict [("scope", .dict [("value", .str "resourceGroup")])]),
      ("variables", .dict [("a", .dict [("decorators", .list []), ("value", .list [.str "x\\'y${z}", .elem "b", .int 7,
        .dict [("resource", .int 1), ("'k'", .bool true)], .str "\nm"])])])]) := eq_of_outIs (by decide +kernel)

/-- loops, operators, lambdas -/
example : Parser.parse ⟨false⟩ (some "var a = [for (x, i) in y: if(x > 1) {\n b: filter(z, q => !q)\n}]\n") .none =
    .ok (.dict [("globals", .dict [("scope", .dict [("value", .str "resourceGroup")])]),
      ("variables", .dict [("a", .dict [("decorators", .list []), ("value", .dict [
        ("loop_type", .dict [("type", .str "array_index"), ("detail", .dict [("item_name", .str "x"),
          ("index_name", .str "i"), ("array_name", .elem "y")])]),
        ("condition", .dict [("operator", .dict [("type", .str "greater_than"), ("operands", .dict [
          ("operand_1", .elem "x"), ("operand_2", .int 1)])])]),
        ("config", .dict [("b", .dict [("function", .dict [("type", .str "filter"), ("parameters", .dict [
          ("input_array", .elem "z"), ("expression", .dict [("type", .str "lambda_expression"),
            ("detail", .dict [("var_1", .str "q"), ("expression", .dict [("operator", .dict [("type", .str "not"),
              ("operands", .dict [("bool_value", .elem "q")])])])])])])])])])])])])]) :=
  eq_of_outIs (by decide +kernel)

/-- a conditional module -/
example : Parser.parse ⟨false⟩ (some "module m './x.bicep' = if (c) {\n  name: 'n'\n}\n") .none =
    .ok (.dict [("globals", .dict [("scope", .dict [("value", .str "resourceGroup")])]),
      ("modules", .dict [("m", .dict [("decorators", .list []), ("type", .str "local"),
        ("detail", .dict [("full", .str "./x.bicep"), ("path", .str "./x.bicep")]),
        ("config", .dict [("condition", .elem "c"), ("config", .dict [("name", .str "n")])])])])]) :=
  eq_of_outIs (by decide +kernel)

end Pycep
