import Verif.Props.Values
import Verif.Props.Plain
import Verif.Proofs.Literal
/-
C58: where the result holds the printed form of a value, the value can be read back from it.
-/
namespace Pycep

/-- `y` is the printed form of what represents `e` -/
def PrintedAs (ln : Bool) (e : Expr) (y : String) : Prop := ∃ w, e.val ln = .ok w ∧ Prints w y

theorem printedAs {ln : Bool} {e : Expr} {w : Val} (h : e.val ln = .ok w) : PrintedAs ln e w.pyStr :=
  ⟨w, h, prints_pyStr (json_expr (K := fun _ => True) (fun _ _ => trivial) e (keys_expr e) h)⟩

theorem printedAs_all {ln : Bool} {es : List Expr} {ws : List Val} (h : Expr.vals ln es = .ok ws) :
    List.Forall₂ (PrintedAs ln) es (ws.map Val.pyStr) := by
  induction es generalizing ws with
  | nil => rw [Expr.vals] at h; cases h; exact .nil
  | cons e es ih =>
    rw [Expr.vals] at h
    obtain ⟨x, hx, h⟩ := bind_ok' h
    obtain ⟨xs, hxs, h⟩ := bind_ok' h
    cases h
    exact .cons (printedAs hx) (ih hxs)

/-- **C58.** The source of a loop over `items(..)`, the variables of a lambda expression and the
alternatives of a declared type are reported in printed form: a string as it is, anything else as a
Python literal of what represents it. -/
theorem C58_printed {P : Parser} {text path v} (h : P.parse text path = .ok v) :
    ∃ t p, chosenText text path = .ok t ∧ Spells t p ∧
      (∀ {s n π i e c b}, p.At s n π (.loop (.mk (.obj i e) c b)) → ∃ y, PrintedAs P.addLineNumbers e y ∧
        v.at? (.key s :: .key n :: π ++ [.key "loop_type", .key "detail", .key "object_name"]) = some (.str y)) ∧
      (∀ {s n π x e}, p.At s n π (.expr (.lambda x e)) → ∃ y, PrintedAs P.addLineNumbers x y ∧
        v.at? (.key s :: .key n :: π ++ [.key "detail", .key "var_1"]) = some (.str y)) ∧
      (∀ {s n π x1 x2 x3 xs e}, p.At s n π (.expr (.lambdaN x1 x2 x3 xs e)) →
        ∃ ys b, List.Forall₂ (PrintedAs P.addLineNumbers) (x1 :: x2 :: x3 :: xs) ys ∧
        v.at? (.key s :: .key n :: π ++ [.key "detail"]) =
          some (.dict (numbered "var_" 1 (ys.map .str) ++ [("expression", b)]))) ∧
      (∀ {n l ds x e es}, Reported p "types" n l (.typ ds x e es) → es ≠ [] →
        ∃ ys, List.Forall₂ (PrintedAs P.addLineNumbers) (e :: es) ys ∧
        v.at? [.key "types", .key n, .key "value"] = some (.str (" | ".intercalate ys))) := by
  obtain ⟨t, p, h1, h2, h3⟩ := parse_ok h
  refine ⟨t, p, h1, h2, fun {s n π i e c b} ha => ?_, fun {s n π x e} ha => ?_, fun {s n π x1 x2 x3 xs e} ha => ?_,
    fun {n l ds x e es} hr hne => ?_⟩
  · obtain ⟨u, hu, hat⟩ := at_val h3 ha
    rw [Node.val, Loop.val] at hu
    obtain ⟨y, hy, hu⟩ := bind_ok' hu
    rw [LoopHead.val] at hy
    obtain ⟨w, hw, hy⟩ := bind_ok' hy
    cases hy
    refine ⟨_, printedAs hw, ?_⟩
    rw [Val.at?_append, hat]
    obtain ⟨y, _, hu⟩ := bind_ok' hu
    obtain ⟨z, _, hu⟩ := bind_ok' hu
    obtain ⟨c, _, hu⟩ := bind_ok' hu
    cases hu
    rfl
  · obtain ⟨u, hu, hat⟩ := at_val h3 ha
    rw [Node.val, Expr.val] at hu
    obtain ⟨w, hw, hu⟩ := bind_ok' hu
    obtain ⟨b, _, hu⟩ := bind_ok' hu
    cases hu
    refine ⟨_, printedAs hw, ?_⟩
    rw [Val.at?_append, hat]
    rfl
  · obtain ⟨u, hu, hat⟩ := at_val h3 ha
    rw [Node.val, Expr.val] at hu
    obtain ⟨w1, hw1, hu⟩ := bind_ok' hu
    obtain ⟨w2, hw2, hu⟩ := bind_ok' hu
    obtain ⟨w3, hw3, hu⟩ := bind_ok' hu
    obtain ⟨ws, hws, hu⟩ := bind_ok' hu
    obtain ⟨b, _, hu⟩ := bind_ok' hu
    cases hu
    refine ⟨(w1 :: w2 :: w3 :: ws).map Val.pyStr, b,
      .cons (printedAs hw1) (.cons (printedAs hw2) (.cons (printedAs hw3) (printedAs_all hws))), ?_⟩
    rw [Val.at?_append, hat, List.map_map]
    rfl
  · rw [Program.val] at h3
    obtain ⟨os, hos, h3⟩ := bind_ok' h3
    cases h3
    obtain ⟨o, attrs, ho, hown, hat⟩ := reported_entry (contribs_of hos) hr
    rw [Decl.out] at ho
    obtain ⟨vs, _, ho⟩ := bind_ok' ho
    obtain ⟨y, hy, ho⟩ := bind_ok' ho
    cases ho
    simp only [List.cons.injEq, Entry.mk.injEq, and_true] at hown
    obtain ⟨_, rfl, rfl⟩ := hown
    unfold typeVal at hy
    rw [if_neg (by cases es with | nil => exact absurd rfl hne | cons _ _ => simp)] at hy
    obtain ⟨w, hw, hy⟩ := bind_ok' hy
    obtain ⟨ws, hws, hy⟩ := bind_ok' hy
    cases hy
    refine ⟨(w :: ws).map Val.pyStr, .cons (printedAs hw) (printedAs_all hws), ?_⟩
    rw [show ([.key "types", .key (txt x.1), .key "value"] : List PStep) =
      [.key "types", .key (txt x.1)] ++ [.key "value"] from rfl, Val.at?_append, hat]
    rfl

/-- The hypotheses are met: an object with a quote, an escaped backslash, a number and a nested list
is printed in a loop (written with a blank behind `items`, see C60); type alternatives of different
kinds are joined. -/
theorem C58_example : Parser.parse ⟨false⟩ (some ("var l = [for i in items ({\n  a: 'it\\'s'\n  b: [\n    1\n    true\n    null\n  ]\n  c: {}\n}): i]\n" ++
      "type t = 'x' | 5 | [\n  'y'\n]\n")) .none =
    .ok (.dict [("globals", .dict [("scope", .dict [("value", .str "resourceGroup")])]),
      ("variables", .dict [("l", .dict [("decorators", .list []), ("value", .dict [
        ("loop_type", .dict [("type", .str "object"), ("detail", .dict [("item_name", .str "i"),
          ("object_name", .str "{'a': \"it\\\\'s\", 'b': [1, True, None], 'c': {}}")])]),
        ("condition", .none), ("config", .elem "i")])])]),
      ("types", .dict [("t", .dict [("decorators", .list []), ("value", .str "x | 5 | ['y']")])])]) :=
  eq_of_outIs (by decide +kernel)

/-- comparison of what is read from a literal -/
def litIs (o : Option Val) (v : Val) : Bool :=
  match o with
  | some x => x.beq v
  | .none => false

theorem eq_of_litIs {o : Option Val} {v : Val} (h : litIs o v = true) : o = some v := by
  unfold litIs at h
  split at h
  · rw [Val.eq_of_beq h]
  · cases h

/-- what is printed there is read back -/
example : literal "{'a': \"it\\\\'s\", 'b': [1, True, None], 'c': {}}" = some (.dict [("a", .str "it\\'s"),
    ("b", .list [.int 1, .bool true, .none]), ("c", .dict [])]) :=
  eq_of_litIs (by decide +kernel)

/-- Reading Python literals: quotes of both kinds, escapes, numbers, and texts that are none. -/
example : literal "'a\\n\\x07\\u2028'" = some (.str "a\n\x07\u2028") ∧ literal "-12" = some (.int (-12)) ∧
    literal "{'a': [], 'b': {}}" = some (.dict [("a", .list []), ("b", .dict [])]) ∧
    (literal "[1, 2").isNone ∧ (literal "'a").isNone ∧ (literal "true").isNone ∧ (literal "'a'b").isNone :=
  ⟨eq_of_litIs (by decide +kernel), eq_of_litIs (by decide +kernel), eq_of_litIs (by decide +kernel), by decide +kernel⟩

/-- **C58.** The joined text does not say where one alternative ends: two different declarations of a
type are reported alike. -/
theorem C58_joined_ambiguous :
    ∃ v, Parser.parse ⟨false⟩ (some "type t = 'a' | 'b'\n") .none = .ok v ∧
      Parser.parse ⟨false⟩ (some "type t = 'a | b'\n") .none = .ok v :=
  ⟨.dict [("globals", .dict [("scope", .dict [("value", .str "resourceGroup")])]),
    ("types", .dict [("t", .dict [("decorators", .list []), ("value", .str "a | b")])])],
    eq_of_outIs (by decide +kernel), eq_of_outIs (by decide +kernel)⟩

end Pycep
