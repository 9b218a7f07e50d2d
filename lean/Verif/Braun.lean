/-
Balanced trees with logarithmic look-up by position, used for the generated tables.
-/
namespace Pycep

/-- Leaf or node: the root holds position 0, the left subtree the odd positions, the right subtree
the other even positions. -/
inductive Bt (α : Type) where
  | l
  | n (left : Bt α) (v : α) (right : Bt α)

/-- Entry at a position.  (Matching on the position makes the kernel evaluate it.) -/
def Bt.get {α} : Bt α → Nat → Option α
  | .l, _ => .none
  | .n a v b, i =>
    match i with
    | 0 => some v
    | j + 1 =>
      match j % 2 with
      | 0 => a.get (j / 2)
      | _ + 1 => b.get (j / 2)

end Pycep
