import Verif.Spec.Json
/-
Results whose line numbers are larger by a constant.
-/
namespace Pycep

/-- A line number `k` lines further down; 0, which stands for no line, stays. -/
def laterLine (k : Nat) : Val → Val
  | .int n => if n = 0 then .int 0 else .int (n + k)
  | v => v

/-- an attribute of an entry: the two that are line numbers change -/
def movedItem (k : Nat) (p : String × Val) : String × Val :=
  if p.1 = "__start_line__" ∨ p.1 = "__end_line__" then (p.1, laterLine k p.2) else p

/-- an entry of a section -/
def movedEntry (k : Nat) : Val → Val
  | .dict attrs => .dict (attrs.map (movedItem k))
  | v => v

/-- a section of a result -/
def movedSection (k : Nat) : Val → Val
  | .dict es => .dict (es.map fun e => (e.1, movedEntry k e.2))
  | v => v

/-- The result with all line numbers of entries `k` larger, and nothing else changed: what is written inside an
entry stays, even under the name of a line number. -/
def movedResult (k : Nat) : Val → Val
  | .dict secs => .dict (secs.map fun s => (s.1, movedSection k s.2))
  | v => v

end Pycep
