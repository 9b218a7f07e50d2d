import Verif.Spec.Reported
import Verif.Spec.Syntax
/-
Which sequences of tokens are ways to write a piece of syntax.
-/
namespace Pycep

/-- `n.Syn w`: `w` is a way to write the piece `n` (in front of some token) -/
def Node.Syn : Node → List Tok → Prop
  | .expr e, w => ∃ b n, ESyn b e w n
  | .loop l, w => ∃ n, LoopSyn l w n
  | .head h, w => ∃ n, HeadSyn h w n
  | .config c, w => ∃ n, ConfigSyn c w n
  | .type d, w => TypeSyn d w
  | .deco d, w => DecoSyn d w

end Pycep
