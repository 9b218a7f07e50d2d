import Verif.Grammar
import Verif.Spec.LALR
/-
What Lark's table generator (lark/parsers/grammar_analysis.py, lalr_analysis.py) starts from.  The
model itself runs on the finished table; these definitions are used to say what that table is.
-/
namespace Pycep

/-- the new root symbol of the augmented grammar -/
def rootSym : Nat := 128 + numNts

/-- The augmented grammar (lark/parsers/grammar_analysis.py `GrammarAnalyzer.__init__`): the compiled
rules, and `$root_start : start $END`. -/
def gram : Cfg := rules.map (fun r => (r.lhs, r.rhs)) ++ [(rootSym, [N.start, tEND])]

/-- The mark for the end behind `$END`, which no rule mentions. -/
def eof : Nat := numTerms

/-- Priorities of the rules: only `substract.1` (bicep.lark:156) has one. -/
def rulePrio (i : Nat) : Nat := if (rules[i]?.map Rule.lhs) = some N.substract then 1 else 0

/-- the table of the model -/
def table : LRTable := ⟨action, goto⟩

end Pycep
