import Verif.Grammar
import Verif.Table
/-
Tokens, parse trees, the table look-ups and the construction of tree nodes
(Lark's lexer.Token, tree.Tree and parse_tree_builder.py as configured by main.py:25:
`parser="lalr", propagate_positions=True`, `maybe_placeholders` left at its default `True`).
-/
namespace Pycep

/-- A token: terminal id, text, line of its first and of the position after its last character. -/
structure Tok where
  type : Nat
  text : List Char
  line : Nat
  endLine : Nat
  deriving DecidableEq, Repr, Inhabited

/-- `Token.type`: the name of the terminal. -/
def termName (t : Nat) : String :=
  match terminals[t]? with
  | some d => d.name
  | .none => "$END"

/-- Line information of a tree (`lark.tree.Meta`): own span and the span including brackets that a
`?rule` stripped (`container_line`, `container_end_line`).  Columns and offsets are not modelled. -/
structure Span where
  line : Nat
  endLine : Nat
  cLine : Nat
  cEndLine : Nat
  deriving DecidableEq, Repr, Inhabited

/-- Parse trees; `none` is the `None` placeholder of an absent `[...]`; the span of a node is
absent iff `Meta.empty`. -/
inductive Tree where
  | tok (t : Tok)
  | none
  | node (data : String) (kids : List Tree) (span : Option Span)
  deriving Inhabited, Repr

/-- Action of the LALR automaton. -/
inductive Action where
  | error
  | shift (s : Nat)
  | reduce (r : Nat)
  deriving DecidableEq, Repr

/-- Action table look-up. -/
def action (s t : Nat) : Action :=
  match if t < numTerms then ((actionRows.get s).getD 0 >>> (10 * t)) % 1024 else 0 with
  | 0 => .error
  | v + 1 => if v < numStates then .shift v else .reduce (v - numStates)

/-- Goto table look-up (`nt` is a symbol number, `128 ≤ nt`). -/
def goto (s nt : Nat) : Option Nat :=
  match if nt - 128 < numNts then ((gotoRows.get s).getD 0 >>> (10 * (nt - 128))) % 1024 else 0 with
  | 0 => .none
  | v + 1 => some v

/-! The big tables are only ever looked into by kernel-checked lemmas. -/
attribute [irreducible] action goto

/-- Span of a child as seen by `PropagatePositions._pp_get_meta`: (start line, end line). -/
def Tree.lines? : Tree → Option (Nat × Nat)
  | .tok t => some (t.line, t.endLine)
  | .none => .none
  | .node _ _ (some sp) => some (sp.cLine, sp.cEndLine)
  | .node _ _ .none => .none

/-- First child that has a position. -/
def firstLines : List Tree → Option (Nat × Nat)
  | [] => .none
  | c :: cs => match c.lines? with
    | some l => some l
    | .none => firstLines cs

/-- Children after filtering, inlining and inserting placeholders (`ChildFilterLALR`). -/
def keepKids (r : Rule) (kids : List Tree) : List Tree :=
  (r.keep.flatMap (fun (i, inline, nones) =>
    List.replicate nones Tree.none ++
      (match kids[i]? with
       | .none => []
       | some k => if inline then (match k with | .node _ ks _ => ks | _ => []) else [k]))) ++
    List.replicate r.tailNones Tree.none

/-- `PropagatePositions.__call__`: give the result of a reduction the span of its (unfiltered)
children; a node that already has a span (a child that replaced a `?rule`) only gets its container
span updated. -/
def setSpan (res : Tree) (kids : List Tree) : Tree :=
  match res with
  | .node d ks sp =>
    match firstLines kids, firstLines kids.reverse with
    | some f, some l => match sp with
      | .none => .node d ks (some ⟨f.1, l.2, f.1, l.2⟩)
      | some sp => .node d ks (some ⟨sp.line, sp.endLine, f.1, l.2⟩)
    | _, _ => res
  | _ => res

/-- The callback of a rule: `PropagatePositions(ChildFilter(ExpandSingleChild(Tree)))`. -/
def buildNode (r : Rule) (kids : List Tree) : Tree :=
  let ks := keepKids r kids
  let res := match r.expand1, ks with
    | true, [k] => k
    | _, _ => .node r.name ks .none
  setSpan res kids

end Pycep
