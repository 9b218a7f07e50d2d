import Verif.SyntaxError
import Verif.Derivation
import Verif.Spec.Layout
import Verif.Spec.Syntax
import Verif.Spec.Clear
/-
Specification of the places of syntax errors: what a line and a column are, which sequences of
tokens are the beginning of something grammatical, and what has to be wrong at the place of an error.
-/
namespace Pycep

/-- the line one is on behind the text `x` (the first line is 1) -/
def lineAt (x : List Char) : Nat := 1 + x.count '\n'

/-- the column one is in behind the text `x` (the first column is 1) -/
def colAt (x : List Char) : Nat := 1 + (x.reverse.takeWhile (· != '\n')).length

/-- the exception points at the place behind the text `x` -/
def SynErr.Behind (e : SynErr) (x : List Char) : Prop :=
  e.pos = x.length ∧ e.line = lineAt x ∧ e.col = colAt x

/-- The tokens `w` are the beginning of a sequence of tokens that the grammar allows. -/
def Beginning (w : List Tok) : Prop :=
  ∃ w' t, (∀ u ∈ w', u.type < tEND ∧ TokText u.type u.text) ∧ Der [N.start] [t] (w ++ w')

/-- the type of the last token, `$END` if there is none -/
def prevType (w : List Tok) : Nat := (w.getLast?.map Tok.type).getD tEND

/-- `s` does not begin with anything that is skipped -/
def NoGap (s : List Char) : Prop := ∀ x s', Gap x s' → s ≠ x ++ s'

/-- No token that clearly stands at the beginning of `s` can continue `w` to the tokens of a
program. -/
def NoToken (w : List Tok) (s : List Char) : Prop :=
  ∀ t x s' l l' w' p, s = x ++ s' → Fits (prevType w) t x s' → p.clear = true →
    (∀ u ∈ w', u.type < tEND) → ¬ ProgSyn p (w ++ ⟨t, x, l, l'⟩ :: w') tEND

/-- A letter, a digit, an underscore, a blank, a tab, a line feed, `#` or a mark: characters with
which a token or a gap always begins. -/
def startsSome (c : Char) : Bool :=
  isAsciiAlnum c || "_ \t\n#@!:,.={<([->%+?})]/*|".toList.contains c

/-- What is the case when `e` is reported for the text `s`. -/
inductive WrongAt (s : List Char) (e : SynErr) : Prop where
  /-- Behind the tokens `w`, the text does not go on properly; a reported token stands there; if none is
  reported, then there is a character with which none begins by itself. -/
  | here (pre rest w) : s = pre ++ rest → Tiling 1 pre w → Beginning w → rest ≠ [] → NoGap rest →
      NoToken w rest → e.Behind pre →
      (∀ t x, e.token = some (t, x) → t < tEND ∧ TokText t x ∧ x <+: rest) →
      (e.token = .none → ∀ c r, rest = c :: r → startsSome c = false) → WrongAt s e
  /-- The text is not complete; the last token is reported. -/
  | incomplete (pre u rest w) : s = pre ++ u.text ++ rest → Tiling 1 pre w →
      Tiling 1 s (w ++ [u]) → Beginning (w ++ [u]) →
      (∀ p, p.clear = true → ¬ ProgSyn p (w ++ [u]) tEND) → e.Behind pre →
      e.token = some (tEND, []) → WrongAt s e

end Pycep
