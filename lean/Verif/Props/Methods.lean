import Verif.Props.Plain
/-
C51: exact report of method-style calls.
-/
namespace Pycep

/-- represented by something empty: `null`, `false`, zero, an empty text, list or dictionary -/
def Val.Blank (v : Val) : Prop :=
  v = .none ∨ v = .bool false ∨ v = .int 0 ∨ v = .str "" ∨ v = .elem "" ∨ v = .list [] ∨ v = .dict []

theorem mem_numbered {pre : String} {k : String} {y : Val} : ∀ (vs : List Val) (n : Nat),
    (k, y) ∈ numbered pre n vs ↔ ∃ i, k = pre ++ toString (n + i) ∧ vs[i]? = some y
  | [], _ => by simp [numbered]
  | v :: vs, n => by
    rw [numbered, List.mem_cons, mem_numbered vs (n + 1)]
    constructor
    · rintro (h | ⟨i, h1, h2⟩)
      · cases h; exact ⟨0, rfl, rfl⟩
      · exact ⟨i + 1, by rw [h1]; congr 2; omega, h2⟩
    · rintro ⟨i, h1, h2⟩
      cases i with
      | zero => left; simp only [List.getElem?_cons_zero, Option.some.injEq] at h2; rw [h1, h2]; rfl
      | succ i => exact .inr ⟨i, by rw [h1]; congr 2; omega, h2⟩

/-- **C51.** A method call reports the value it is called on, the name and, under the number of its
position, every argument that is not represented by something empty; in order, and nothing else. -/
theorem C51_methods {P : Parser} {text path v} (h : P.parse text path = .ok v) :
    ∃ t p, chosenText text path = .ok t ∧ Spells t p ∧
      ∀ {s n π a f} {args : List (Option Expr)}, p.At s n π (.expr (.method a f args)) →
        ∃ x vs kept, a.val P.addLineNumbers = .ok x ∧ vs.length = args.length ∧
          (∀ (i : Nat) e, args[i]? = some (some e) → ∃ y, e.val P.addLineNumbers = .ok y ∧ vs[i]? = some y) ∧
          (∀ i : Nat, args[i]? = some .none → vs[i]? = some .none) ∧
          v.at? (.key s :: .key n :: π) = some (.dict [("operator", .dict [("type", .str "function_accessor"),
            ("operands", .dict (("operand_1", x) :: ("func_name", .str (String.ofList f.1)) :: kept))])]) ∧
          kept.Sublist (numbered "operand_" 2 vs) ∧
          (∀ k y, (k, y) ∈ kept ↔ ∃ i : Nat, k = "operand_" ++ toString (2 + i) ∧ vs[i]? = some y ∧ ¬ y.Blank) := by
  obtain ⟨t, p, h1, h2, h3⟩ := parse_at h
  refine ⟨t, p, h1, h2, fun {s n π a f args} ha => ?_⟩
  obtain ⟨u, hu, hat⟩ := h3 ha
  rw [Node.val, Expr.val] at hu
  obtain ⟨x, hx, hu⟩ := bind_ok' hu; obtain ⟨vs, hvs, hu⟩ := bind_ok' hu; cases hu
  obtain ⟨hl, hi⟩ := optVals_getElem hvs
  have hp : ∀ y ∈ vs, (y.truthy = true ↔ ¬ y.Blank) := by
    intro y hy
    have hj := json_optExprs (K := fun _ => True) (fun _ _ => trivial) args (keys_optExprs args) hvs y hy
    cases hj <;> simp [Val.truthy, Val.Blank]
  refine ⟨x, vs, _, hx, hl.symm, ?_, ?_, hat, List.filter_sublist, fun k y => ?_⟩
  · intro i e he
    obtain ⟨y, hy, hy'⟩ := hi i (some e) he
    rw [Expr.optVal] at hy
    exact ⟨y, hy, hy'⟩
  · intro i he
    obtain ⟨y, hy, hy'⟩ := hi i .none he
    rw [Expr.optVal] at hy
    cases hy; exact hy'
  · rw [List.mem_filter, mem_numbered]
    constructor
    · rintro ⟨⟨i, h1, h2⟩, h3⟩
      exact ⟨i, h1, h2, (hp y (List.mem_of_getElem? h2)).mp h3⟩
    · rintro ⟨i, h1, h2, h3⟩
      exact ⟨⟨i, h1, h2⟩, (hp y (List.mem_of_getElem? h2)).mpr h3⟩

example : Parser.parse ⟨false⟩ (some "var v = x.listFoo(0, 'a')\n") .none =
    .ok (.dict [("globals", .dict [("scope", .dict [("value", .str "resourceGroup")])]),
      ("variables", .dict [("v", .dict [("decorators", .list []), ("value", .dict [("operator", .dict
        [("type", .str "function_accessor"), ("operands", .dict [("operand_1", .elem "x"),
          ("func_name", .str "listFoo"), ("operand_3", .str "a")])])])])])]) :=
  eq_of_outIs (by decide +kernel)

end Pycep
