import Verif.Spec.Clear
import Verif.Spec.Layout
import Verif.Spec.Extents
import Verif.Spec.Syntax
/-
The program that is written in a text.
-/
namespace Pycep

/-- the text is a clear way to write the program -/
def Writes (t : String) (p : Program) : Prop :=
  ∃ w, Layout tEND t.toList 1 w ∧ ProgSyn p w tEND

/-- `Spells text p`: the text, cut into tokens each of which extends exactly as far as it should, is a way
to write the program `p`; and if the text is a clear way to write some program, then that program is `p`.

The first half leaves open which token is taken where several are possible: `for` may be a keyword or a
name.  The second half settles the matter for every text whose tokens are told apart in the usual way. -/
def Spells (text : String) (p : Program) : Prop :=
  (∃ w, ExactTiling 1 text.toList w ∧ ProgSyn p w tEND) ∧ ∀ q : Program, Writes text q → q.clear = true → q = p

end Pycep
