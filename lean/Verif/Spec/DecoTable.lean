import Verif.Spec.Sem
/-
Which decorators are known and what is reported about them.
-/
namespace Pycep

/-- decorators that carry an argument, with the type they are reported as -/
def carriers : List (String × String) :=
  [("allowed", "allowed"), ("batchSize", "batchSize"), ("description", "description"),
   ("minLength", "min_length"), ("maxLength", "max_length"), ("metadata", "metadata")]

/-- decorators without argument; an argument is ignored -/
def flags : List String := ["export", "sealed", "secure"]

/-- the two names of a decorator -/
def decoNames (n : String) : List String := [n, "sys." ++ n]

/-- the names of all known decorators, without prefix -/
def knownDecos : List String := carriers.map Prod.fst ++ flags ++ ["minValue", "maxValue"]

/-- `DecoVal d arg v`: the decorator named `d` with this argument is reported as `v` -/
inductive DecoVal (d : String) : Option Val → Val → Prop where
  | carrier {n t a} : (n, t) ∈ carriers → d ∈ decoNames n →
      DecoVal d (some a) (.dict [("type", .str t), ("argument", a)])
  | flag {n arg} : n ∈ flags → d ∈ decoNames n → DecoVal d arg (.dict [("type", .str n)])
  /-- `@minValue(a)`: unless `a` is an object or an operator, it is reported as it is -/
  | minValue {a} : d ∈ decoNames "minValue" → (∀ x, a ≠ .dict x) →
      DecoVal d (some a) (.dict [("type", .str "min_value"), ("argument", a)])
  /-- `@minValue(-i)` -/
  | minNegative {i : Int} : d ∈ decoNames "minValue" →
      DecoVal d (some (opVal "minus" [("integer_value", .int i)]))
        (.dict [("type", .str "min_value"), ("argument", .int (-i))])
  /-- `@minValue(-true)`, `@minValue(-false)` -/
  | minNegBool {b : Bool} : d ∈ decoNames "minValue" →
      DecoVal d (some (opVal "minus" [("integer_value", .bool b)]))
        (.dict [("type", .str "min_value"), ("argument", .int (if b then -1 else 0))])
  /-- `@minValue(-x)`, `@minValue(-'x')`: the name or text is lost -/
  | minNegText {a s} : d ∈ decoNames "minValue" → a = .str s ∨ a = .elem s →
      DecoVal d (some (opVal "minus" [("integer_value", a)]))
        (.dict [("type", .str "min_value"), ("argument", .str "")])
  /-- `@maxValue(true)`, `@maxValue(false)` -/
  | maxBool {b : Bool} : d ∈ decoNames "maxValue" →
      DecoVal d (some (.bool b))
        (.dict [("type", .str "max_value"), ("argument", .int (if b then 1 else 0))])
  /-- `@maxValue('12')` -/
  | maxText {n : Digits} : d ∈ decoNames "maxValue" → n.1.length ≤ intMaxStrDigits →
      DecoVal d (some (.str (String.ofList n.1)))
        (.dict [("type", .str "max_value"), ("argument", .int (decimal n.1))])
  /-- `@maxValue(i)` -/
  | maxValue {i : Int} : d ∈ decoNames "maxValue" →
      DecoVal d (some (.int i)) (.dict [("type", .str "max_value"), ("argument", .int i)])
  | unknown {a} : (∀ n ∈ knownDecos, d ∉ decoNames n) →
      DecoVal d (some a) (.dict [("type", .str d), ("argument", a)])
  | unknownBare : (∀ n ∈ knownDecos, d ∉ decoNames n) →
      DecoVal d .none (.dict [("type", .str d)])

end Pycep
