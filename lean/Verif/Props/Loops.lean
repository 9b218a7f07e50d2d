import Verif.Props.Values
import Verif.Proofs.Possible
import Verif.Proofs.Examples
/-
C37: the conditions of loops, without exception.
-/
namespace Pycep

/-- **C37.** Whatever the condition of a loop is: it is reported as it is, unless it looks like the
representation of a call `if (...)`; then what is in the place of the first argument is reported. (Only a call
of `if` and an object with a key `function` can look like this, `C37_loops`.) -/
theorem C37_conditions {P : Parser} {text path v} (h : P.parse text path = .ok v) :
    ∃ t p, chosenText text path = .ok t ∧ Spells t p ∧
      ∀ {s n π hd a b}, p.At s n π (.loop (.mk hd (some a) b)) →
        ∃ w y, a.val P.addLineNumbers = .ok w ∧ v.at? (.key s :: .key n :: π ++ [.key "condition"]) = some y ∧
          (LooksLikeIf w → w.at? [.key "function", .key "parameters", .key "arg_1"] = some y) ∧
          (¬ LooksLikeIf w → y = w) := by
  obtain ⟨t, p, h1, h2, h3⟩ := parse_at h
  refine ⟨t, p, h1, h2, fun {s n π hd a b} ha => ?_⟩
  obtain ⟨u, hu, hat⟩ := h3 ha
  rw [Node.val, Loop.val] at hu
  obtain ⟨x, hx, hu⟩ := bind_ok' hu
  obtain ⟨w, hw, hu⟩ := bind_ok' hu
  obtain ⟨z, hz, hu⟩ := bind_ok' hu
  obtain ⟨y, hy, hu⟩ := bind_ok' hu
  cases hu
  rw [Expr.optVal] at hw
  have hy := inRule_ok hy
  refine ⟨w, y, hw, ?_, ?_⟩
  · have : (Val.dict [("loop_type", x), ("condition", y), ("config", z)]).at? [.key "condition"] = some y := by
      simp [Val.at?, Val.step?, dGet]
    rw [Val.at?_append, hat]
    exact this
  · by_cases hd : ∃ d, w = .dict d
    · obtain ⟨d, rfl⟩ := hd
      rcases loopCondition_object hy with ⟨h4, h5⟩ | ⟨h4, h5⟩
      · exact ⟨fun _ => h5, fun hn => absurd h4 hn⟩
      · exact ⟨fun hn => absurd hn h4, fun _ => h5⟩
    · have hl : ¬ LooksLikeIf w := by
        rintro ⟨u, h4, -⟩
        cases w <;> simp [Val.at?, Val.step?] at h4
        exact hd ⟨_, rfl⟩
      refine ⟨fun hn => absurd hn hl, fun _ => ?_⟩
      cases w <;> simp only [loopCondition] at hy <;> first | (cases hy; rfl) | exact absurd ⟨_, rfl⟩ hd

/-- an object that looks like a call of `if`: its text `arg_1` is reported as the condition, not the object -/
example : Parser.parse ⟨false⟩ (some "var a = [for x in y: {\n function: {\n  type: 'if'\n  parameters: {\n   arg_1: 7\n  }\n }\n} {\n}]\n") .none =
    .ok (.dict [("globals", .dict [("scope", .dict [("value", .str "resourceGroup")])]),
      ("variables", .dict [("a", .dict [("decorators", .list []), ("value", .dict [
        ("loop_type", .dict [("type", .str "array"),
          ("detail", .dict [("item_name", .str "x"), ("array_name", .elem "y")])]),
        ("condition", .int 7), ("config", .dict [])])])])]) :=
  eq_of_outIs (by decide +kernel)

end Pycep
