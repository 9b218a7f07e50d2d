import Verif.Tree
/-
Specification of LALR(1) parsing tables, as in the textbooks: valid LR(0) and LR(1) items of a
sequence of symbols, for an arbitrary context-free grammar.  Nothing here knows how Lark, or
`tools/lark_tables.py`, computes the table.
-/
namespace Pycep

/-- A context-free grammar: the rules (left-hand side, right-hand side), by number.  Symbols below
128 are terminals. -/
abbrev Cfg := List (Nat × List Nat)

/-- The sequence of symbols derives the empty sequence. -/
inductive Null (g : Cfg) : List Nat → Prop where
  | nil : Null g []
  | cons {A α β} : (A, α) ∈ g → Null g α → Null g β → Null g (A :: β)

/-- `First g α t`: the sequence of symbols `α` derives a sequence that begins with the terminal
`t`. -/
inductive First (g : Cfg) : List Nat → Nat → Prop where
  | tok {t β} : t < 128 → First g (t :: β) t
  | node {A α β t} : (A, α) ∈ g → First g α t → First g (A :: β) t
  | skip {A α β t} : (A, α) ∈ g → Null g α → First g β t → First g (A :: β) t

/-- `Valid0 g root γ i d`: behind the symbols `γ`, one may be inside rule `i`, at position `d` of
its right-hand side (the LR(0) items valid for `γ`). -/
inductive Valid0 (g : Cfg) (root : Nat) : List Nat → Nat → Nat → Prop where
  /-- in the beginning, at the beginning of the rules of the root symbol -/
  | start {i α} : g[i]? = some (root, α) → Valid0 g root [] i 0
  /-- in front of a nonterminal: also at the beginning of its rules -/
  | close {γ i d A α B j β} : Valid0 g root γ i d → g[i]? = some (A, α) → α[d]? = some B →
      g[j]? = some (B, β) → Valid0 g root γ j 0
  /-- one symbol further -/
  | step {γ i d A α X} : Valid0 g root γ i d → g[i]? = some (A, α) → α[d]? = some X →
      Valid0 g root (γ ++ [X]) i (d + 1)

/-- `Valid1 g root eof γ i d a`: the same, and the whole right-hand side of rule `i` may be followed
by the terminal `a` (the LR(1) items valid for `γ`); the root symbol is followed by `eof`. -/
inductive Valid1 (g : Cfg) (root eof : Nat) : List Nat → Nat → Nat → Nat → Prop where
  | start {i α} : g[i]? = some (root, α) → Valid1 g root eof [] i 0 eof
  | close {γ i d a A α B j β b} : Valid1 g root eof γ i d a → g[i]? = some (A, α) →
      α[d]? = some B → g[j]? = some (B, β) → First g (α.drop (d + 1) ++ [a]) b →
      Valid1 g root eof γ j 0 b
  | step {γ i d a A α X} : Valid1 g root eof γ i d a → g[i]? = some (A, α) → α[d]? = some X →
      Valid1 g root eof (γ ++ [X]) i (d + 1) a

/-- A table: what to do in a state on a terminal, and where to go on a nonterminal. -/
structure LRTable where
  action : Nat → Nat → Action
  goto : Nat → Nat → Option Nat

/-- The state reached from a state by one symbol. -/
def LRTable.next (T : LRTable) (s X : Nat) : Option Nat :=
  if X < 128 then
    match T.action s X with
    | .shift s' => some s'
    | _ => .none
  else T.goto s X

/-- The state reached from a state by a sequence of symbols. -/
def LRTable.follow (T : LRTable) (s : Nat) : List Nat → Option Nat
  | [] => some s
  | X :: γ => (T.next s X).bind fun s' => T.follow s' γ

/-- The states are the sets of valid LR(0) items: state 0 is the beginning, a sequence of symbols
leads to a state when it has valid items, and two sequences lead to the same state when they have
the same valid items.  Every state is reached. -/
structure LR0States (g : Cfg) (root : Nat) (T : LRTable) (states : Nat) : Prop where
  viable : ∀ γ, (∃ q, T.follow 0 γ = some q) ↔ ∃ i d, Valid0 g root γ i d
  same : ∀ γ γ' q q', T.follow 0 γ = some q → T.follow 0 γ' = some q' →
    (q = q' ↔ ∀ i d, Valid0 g root γ i d ↔ Valid0 g root γ' i d)
  reached : ∀ q, q < states ↔ ∃ γ, T.follow 0 γ = some q

/-- `Reduces g root eof T q r t`: for some sequence of symbols that leads to state `q`, the
right-hand side of rule `r` is complete and may be followed by `t` (the LALR(1) look-aheads: merged
over all sequences that lead to the same state). -/
def Reduces (g : Cfg) (root eof : Nat) (T : LRTable) (q r t : Nat) : Prop :=
  ∃ γ A α, T.follow 0 γ = some q ∧ g[r]? = some (A, α) ∧ Valid1 g root eof γ r α.length t

/-- The actions are those of the LALR(1) method.  Of several possible reductions the one of highest
priority is taken (`best`: there is always exactly one); a shift is preferred to any reduction. -/
structure LALRActions (g : Cfg) (root eof : Nat) (prio : Nat → Nat) (T : LRTable) (terms : Nat) :
    Prop where
  best : ∀ q r t, t < terms → Reduces g root eof T q r t →
    ∃ r₀, Reduces g root eof T q r₀ t ∧
      ∀ r', Reduces g root eof T q r' t → r' = r₀ ∨ prio r' < prio r₀
  reduce : ∀ q r t, t < terms → (∃ γ, T.follow 0 γ = some q) →
    (T.action q t = .reduce r ↔ (∀ s, T.action q t ≠ .shift s) ∧ Reduces g root eof T q r t ∧
      ∀ r', Reduces g root eof T q r' t → r' = r ∨ prio r' < prio r)

end Pycep
