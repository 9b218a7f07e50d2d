import Verif.Tree
/-
What a line of a document cannot begin with.
-/
namespace Pycep

/-- The characters of the operators that stand between two operands or behind one, except `-`, `!` and
`,`: with those a line can begin. -/
def infixChars : List Char := "=:?.+*/%&|<>".toList

end Pycep
