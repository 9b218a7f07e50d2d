import Verif.Proofs.Possible
import Verif.Props.Values
import Verif.Proofs.Examples
/-
C76: where the type published for values is right.
-/
namespace Pycep

/-- **C76.** At every place of the result where an expression, a loop, or a body of a resource or
module is reported, the value has the published type `PossibleValue` exactly if the expression (loop,
body) meets the conditions of `Fits`. -/
theorem C76_possible {P : Parser} {text path v} (h : P.parse text path = .ok v) :
    ∃ t p, chosenText text path = .ok t ∧ Spells t p ∧
      (∀ {s n π e}, p.At s n π (.expr e) →
        ∃ y, v.at? (.key s :: .key n :: π) = some y ∧ (y.Possible ↔ e.Fits P.addLineNumbers)) ∧
      (∀ {s n π l}, p.At s n π (.loop l) →
        ∃ y, v.at? (.key s :: .key n :: π) = some y ∧ (y.Possible ↔ l.Fits P.addLineNumbers)) ∧
      (∀ {s n π c}, p.At s n π (.config c) →
        ∃ y, v.at? (.key s :: .key n :: π) = some y ∧ (y.Possible ↔ c.Fits P.addLineNumbers)) := by
  obtain ⟨t, p, h1, h2, h3⟩ := parse_at h
  refine ⟨t, p, h1, h2, fun ha => ?_, fun ha => ?_, fun ha => ?_⟩
  · obtain ⟨y, hy, hat⟩ := h3 ha; exact ⟨y, hat, Expr.fits_iff _ hy⟩
  · obtain ⟨y, hy, hat⟩ := h3 ha; exact ⟨y, hat, Loop.fits_iff _ hy⟩
  · obtain ⟨y, hy, hat⟩ := h3 ha; exact ⟨y, hat, Config.fits_iff _ hy⟩

theorem possible_step {v u : Val} {s : PStep} (hv : v.Possible) (h : v.step? s = some u) : u.Possible := by
  cases hv with
  | atom ha => cases ha <;> cases s <;> cases h
  | list hl =>
    cases s with
    | key k => cases h
    | idx i => exact .atom (hl _ (List.mem_of_getElem? h))
  | dict hd =>
    cases s with
    | idx i => cases h
    | key k =>
      have : ∀ {d : List (String × Val)}, (∀ p ∈ d, p.2.Possible) → dGet k d = some u → u.Possible := by
        intro d hd h
        induction d with
        | nil => cases h
        | cons p d ih =>
          rw [dGet] at h
          split at h
          · cases h; exact hd p (by simp)
          · exact ih (fun q hq => hd q (by simp [hq])) h
      exact this hd h

/-- What has the published type has it in all its parts. -/
theorem C76_parts {v u : Val} {π : List PStep} (hv : v.Possible) (h : v.at? π = some u) : u.Possible := by
  induction π generalizing v with
  | nil => rw [Val.at?] at h; cases h; exact hv
  | cons s π ih =>
    rw [Val.at?] at h
    cases hs : v.step? s with
    | none => rw [hs] at h; cases h
    | some w => rw [hs] at h; exact ih (possible_step hv hs) h

/-- **C76.** So wherever `null` is reported, no value around it has the published type; the same holds
for an array one of whose elements is `null`, an array, or represented by a dictionary; and for a loop
without a condition. -/
theorem C76_never {P : Parser} {text path v} (h : P.parse text path = .ok v) :
    ∃ t p, chosenText text path = .ok t ∧ Spells t p ∧ ∀ {s n π σ y},
      v.at? (.key s :: .key n :: π) = some y →
      (p.At s n (π ++ σ) (.expr .null) ∨ (∃ es e, p.At s n (π ++ σ) (.expr (.array es)) ∧ e ∈ es ∧ ¬ e.Single) ∨
        (∃ hd b, p.At s n (π ++ σ) (.loop (.mk hd .none b)))) → ¬ y.Possible := by
  obtain ⟨t, p, h1, h2, h3, h4, h5⟩ := C76_possible h
  refine ⟨t, p, h1, h2, fun {s n π σ y} hat hbad hy => ?_⟩
  have key : ∀ {w}, v.at? (.key s :: .key n :: (π ++ σ)) = some w → w.Possible := by
    intro w hw
    rw [← List.cons_append, ← List.cons_append, Val.at?_append, hat] at hw
    exact C76_parts hy hw
  rcases hbad with hb | ⟨es, e, hb, he, hs⟩ | ⟨hd, b, hb⟩
  · obtain ⟨w, hw, hf⟩ := h3 hb
    have := hf.mp (key hw)
    rw [Expr.Fits] at this
    exact this
  · obtain ⟨w, hw, hf⟩ := h3 hb
    have := hf.mp (key hw)
    rw [Expr.Fits] at this
    exact hs (this e he)
  · obtain ⟨w, hw, hf⟩ := h4 hb
    have := hf.mp (key hw)
    rw [Loop.Fits] at this
    exact this

/-! ### Concrete cases -/

/-- an array of arrays: the value of the variable is not of the published type -/
example : ∃ w, Parser.parse ⟨false⟩ (some "var x = [[1]]\n") .none =
    .ok (.dict [("globals", .dict [("scope", .dict [("value", .str "resourceGroup")])]),
      ("variables", .dict [("x", .dict [("decorators", .list []), ("value", w)])])]) ∧ ¬ w.Possible := by
  refine ⟨.list [.list [.int 1]], eq_of_outIs (by decide +kernel), ?_⟩
  rw [possible_list]
  intro h
  cases h (.list [.int 1]) (by simp)

/-- a call with all arguments, in an object: of the published type -/
example : ∃ w, Parser.parse ⟨false⟩ (some "var x = {\n  a: first(y)\n  b: [1, 'z', q]\n}\n") .none =
    .ok (.dict [("globals", .dict [("scope", .dict [("value", .str "resourceGroup")])]),
      ("variables", .dict [("x", .dict [("decorators", .list []), ("value", w)])])]) ∧ w.Possible := by
  refine ⟨.dict [("a", .dict [("function", .dict [("type", .str "first"), ("parameters", .dict
    [("arg_1", .elem "y")])])]), ("b", .list [.int 1, .str "z", .elem "q"])], eq_of_outIs (by decide +kernel), ?_⟩
  simp [possible_dict, possible_list, Val.Possible.atom, Val.Atom.str, Val.Atom.elem, Val.Atom.int]

/-- an optional argument that is left out is reported as `None`, so the value is not of the published type -/
example : ∃ w, Parser.parse ⟨false⟩ (some "var y = loadTextContent('f')\n") .none =
    .ok (.dict [("globals", .dict [("scope", .dict [("value", .str "resourceGroup")])]),
      ("variables", .dict [("y", .dict [("decorators", .list []), ("value", w)])])]) ∧ ¬ w.Possible := by
  refine ⟨.dict [("function", .dict [("type", .str "load_text_content"), ("parameters", .dict
    [("file_path", .str "f"), ("encoding", .none)])])], eq_of_outIs (by decide +kernel), ?_⟩
  simp [possible_dict, not_possible_none]

end Pycep
