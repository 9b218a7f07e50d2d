import Verif.Spec.Syntax
import Verif.Spec.Layout
/-
When the text printed by `create_tree` can be read in one way only.
-/
namespace Pycep

/-- no token, apart from the line breaks themselves, goes over more than one line -/
def OneLine (w : List Tok) : Prop := ∀ u ∈ w, isBreak u.type = false → '\n' ∉ u.text

/-- the words `as None` occur -/
def AsNone (w : List Tok) : Prop :=
  ∃ a b u v, w = a ++ u :: v :: b ∧ Kw "as" u ∧ v.text = "None".toList

end Pycep
