import Verif.LarkGrammar
import Verif.Lexer
/-
Specification: how a text is cut into words according to the terminals of a Lark grammar file.  A
terminal is named by its position in the list of terminals.
-/
namespace Pycep

/-- Two regular expressions match in the same way, whatever `(?R)` stands for. -/
def Re.Same (a b : Re) : Prop := ∀ rec s k, a.run rec s k = b.run rec s k

namespace Lark

/-- The regular expression written `src` means `r`. -/
def Reads (src : List Char) (r : Re) : Prop :=
  ∃ rx, readRx src = some rx ∧ rx.toRe.Same r

/-- The regular expression of a pattern; a string stands for itself. -/
def Pat.regex : Pat → Option Re
  | .str s => some (Re.lit s)
  | .re s => (readRx s).map Rx.toRe

/-- The regular expression of a terminal. -/
def regexOf (terms : List TermDef) (t : Nat) : Option Re := terms[t]?.bind (·.pat.regex)

/-- `r` is a regular expression, `k` a string of the same priority that `r` matches as a whole. -/
def Covers (terms : List TermDef) (r k : Nat) : Prop :=
  ∃ n m p src s re, terms[r]? = some ⟨n, p, .re src⟩ ∧ terms[k]? = some ⟨m, p, .str s⟩ ∧
    regexOf terms r = some re ∧ Re.matchIn re re s = some []

/-- Where the terminals `acc` are acceptable, `k` is tried: it is one of them, and none of them
covers it. -/
def Tried (terms : List TermDef) (acc : List Nat) (k : Nat) : Prop :=
  k ∈ acc ∧ ∀ r ∈ acc, ¬ Covers terms r k

/-- The alternation of some terminals. -/
def alternation (terms : List TermDef) : List Nat → Option Re
  | [] => some (.nlook .eps)
  | t :: ts => do some (.alt (← regexOf terms t) (← alternation terms ts))

/-- `top` is the alternation of all terminals that are tried, in their order; `(?R)` stands for it. -/
def Whole (terms : List TermDef) (acc : List Nat) (top : Re) : Prop :=
  ∃ ids, ids.Pairwise (· < ·) ∧ (∀ k, k ∈ ids ↔ Tried terms acc k) ∧ alternation terms ids = some top

/-- `t` is the first of the terminals tried that matches at the beginning of `s`; it leaves `rest`. -/
def First (terms : List TermDef) (acc : List Nat) (s : List Char) (t : Nat) (rest : List Char) : Prop :=
  ∃ top re, Whole terms acc top ∧ Tried terms acc t ∧ regexOf terms t = some re ∧
    Re.matchIn top re s = some rest ∧
    ∀ k < t, Tried terms acc k → ∃ re, regexOf terms k = some re ∧ Re.matchIn top re s = .none

/-- `k` is an acceptable string that `t` covers, and `x` is that string. -/
def Keyword (terms : List TermDef) (acc : List Nat) (t : Nat) (x : List Char) (k : Nat) : Prop :=
  k ∈ acc ∧ Covers terms t k ∧ ∃ n p, terms[k]? = some ⟨n, p, .str x⟩

/-- The word `x` matched by `t` is a token of type `k`: a keyword, if there is one. -/
def Becomes (terms : List TermDef) (acc : List Nat) (t : Nat) (x : List Char) (k : Nat) : Prop :=
  Keyword terms acc t x k ∨ k = t ∧ ∀ k', ¬ Keyword terms acc t x k'

/-- `Cut terms ign acc pre l s w`: behind the tokens `pre`, the text `s`, which begins on line `l`,
is cut into the tokens `w` and the words of ignored terminals (`ign`).  Which terminals are
acceptable depends on the tokens before (`acc`). -/
inductive Cut (terms : List TermDef) (ign : Nat → Prop) (acc : List Tok → List Nat) :
    List Tok → Nat → List Char → List Tok → Prop where
  | nil {pre l} : Cut terms ign acc pre l [] []
  | skip {pre l x s t w} : x ≠ [] → First terms (acc pre) (x ++ s) t s → ign t →
      Cut terms ign acc pre (l + x.count '\n') s w → Cut terms ign acc pre l (x ++ s) w
  | tok {pre l x s t k w} : x ≠ [] → First terms (acc pre) (x ++ s) t s → ¬ ign t →
      Becomes terms (acc pre) t x k →
      Cut terms ign acc (pre ++ [⟨k, x, l, l + x.count '\n'⟩]) (l + x.count '\n') s w →
      Cut terms ign acc pre l (x ++ s) (⟨k, x, l, l + x.count '\n'⟩ :: w)

/-- The terminal is named by an `%ignore` of the grammar. -/
def Ignored (ss : List Stmt) (terms : List TermDef) (t : Nat) : Prop :=
  ∃ d, terms[t]? = some d ∧ d.name ∈ ignored ss

end Lark
end Pycep
