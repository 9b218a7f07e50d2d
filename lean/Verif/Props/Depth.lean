import Verif.Proofs.DepthVal
import Verif.Props.Size
import Verif.Props.Values
/-
C78: how deep trees and results are nested.
-/
namespace Pycep

/-- **C78, trees.** For every text that is handed to the transformer, the tree is between one and two times
as deep as the program is nested (`Program.nest`: expressions inside expressions, bodies inside bodies), with
one level for the document.  So the depth of the recursion over the tree does not depend on the number of
declarations, members, elements or arguments, but every operator of a chain adds to it. -/
theorem C78_tree {text path tree} (h : createTree' text path = .ok tree) :
    ∃ t p, chosenText text path = .ok t ∧ Spells t p ∧
      p.nest + 1 ≤ tree.height ∧ tree.height ≤ 2 * p.nest + 1 := by
  rcases createTree'_cases text path with ⟨e, h1, h2⟩ | ⟨t, m, h1, h2, h3, h4⟩ | ⟨t, h1, h2, _, h3⟩ |
    ⟨t, tr, p, h1, h2, hp, h3, h4, h5⟩
  · rw [h2] at h; cases h
  · rw [h3] at h; cases h
  · rw [h3] at h; cases h
  · rw [h5] at h
    cases h
    have hh := p.height_le
    rw [← h4, core_height] at hh
    exact ⟨t, p, h1, h3, hh⟩

/-- **C78, results.** At every place of the result where an expression, a loop or a body is reported, the
value has at most three levels of dictionaries and lists per level of nesting in the program. -/
theorem C78_values {P : Parser} {text path v} (h : P.parse text path = .ok v) :
    ∃ t p, chosenText text path = .ok t ∧ Spells t p ∧
      (∀ {s n π e}, p.At s n π (.expr e) →
        ∃ y, v.at? (.key s :: .key n :: π) = some y ∧ y.levels ≤ 3 * e.nest) ∧
      (∀ {s n π l}, p.At s n π (.loop l) →
        ∃ y, v.at? (.key s :: .key n :: π) = some y ∧ y.levels ≤ 3 * l.nest) ∧
      (∀ {s n π c}, p.At s n π (.config c) →
        ∃ y, v.at? (.key s :: .key n :: π) = some y ∧ y.levels ≤ 3 * c.nest) := by
  obtain ⟨t, p, h1, h2, h3⟩ := parse_at h
  refine ⟨t, p, h1, h2, fun ha => ?_, fun ha => ?_, fun ha => ?_⟩
  · obtain ⟨y, hy, hat⟩ := h3 ha; exact ⟨y, hat, Expr.levels_le hy⟩
  · obtain ⟨y, hy, hat⟩ := h3 ha; exact ⟨y, hat, Loop.levels_le hy⟩
  · obtain ⟨y, hy, hat⟩ := h3 ha; exact ⟨y, hat, Config.levels_le hy⟩

/-! ### Deep documents -/

/-- `[ [ [ x ] ] ]` -/
def deepArr : Nat → Expr
  | 0 => .ident (letter 'x' rfl)
  | n + 1 => .array [deepArr n]

def deepArrText : Nat → String
  | 0 => "x "
  | n + 1 => "[ " ++ deepArrText n ++ "] "

def deepText (n : Nat) : String := "var v = " ++ deepArrText n ++ "\n "

def deepVal : Nat → Val
  | 0 => .elem "x"
  | n + 1 => .list [deepVal n]

def deepProgram (n : Nat) : Program := [((0, 0), .var [] (letter 'v' rfl) .none (.expr (deepArr n)))]

theorem deepArr_val (ln : Bool) : ∀ n, (deepArr n).val ln = .ok (deepVal n)
  | 0 => by rw [deepArr, Expr.val]; rfl
  | n + 1 => by rw [deepArr, Expr.val, Expr.vals, deepArr_val ln n, Expr.vals]; rfl

theorem deepVal_levels : ∀ n, (deepVal n).levels = n
  | 0 => by simp [deepVal]
  | n + 1 => by rw [deepVal, levels_list, levelsList_cons, deepVal_levels n, levelsList_nil]; omega

theorem deepArr_nest : ∀ n, (deepArr n).nest = n + 1
  | 0 => by simp [deepArr, Expr.nest]
  | n + 1 => by rw [deepArr, Expr.nest, Expr.nests, deepArr_nest n, Expr.nests]; omega

theorem deepArr_ok : ∀ n, (deepArr n).ok
  | 0 => by rw [deepArr, Expr.ok]; unfold Ident.Other; decide +kernel
  | n + 1 => by rw [deepArr, Expr.ok, Expr.okL, Expr.okL]; exact ⟨deepArr_ok n, trivial⟩

theorem deepArr_clear : ∀ n, (deepArr n).clear = true
  | 0 => by rw [deepArr, Expr.clear]
  | n + 1 => by rw [deepArr, Expr.clear, Expr.clearL, deepArr_clear n, Expr.clearL]; rfl

theorem deepArr_bare : ∀ (n : Nat) (e : Expr), e.bare = (deepArr n).bare → e = deepArr n
  | 0, e, h => by cases e <;> rw [deepArr] at * <;> simp only [Expr.bare] at h <;> first | exact h | cases h
  | n + 1, e, h => by
    cases e <;> rw [deepArr] at * <;> simp only [Expr.bare] at h <;> try cases h
    rename_i es
    injection h with h1
    match es, h1 with
    | [], h1 => simp [Expr.bareL] at h1
    | [e], h1 =>
      simp only [Expr.bareL, List.cons.injEq, and_true] at h1
      rw [deepArr_bare n e h1]
    | _ :: _ :: _, h1 => simp [Expr.bareL] at h1

theorem deep_render (n : Nat) : (deepProgram n).render = deepText n := by
  have ht : ∀ n π, spaced ((deepArr n).opd noStyle π) = (deepArrText n).toList := by
    intro n
    induction n with
    | zero => intro π; rfl
    | succ n ih =>
      intro π
      have h1 : (deepArr (n + 1)).opd noStyle π = [kw T.LSQB] ++ ((deepArr n).opd noStyle (0 :: π) ++
          [kw T.RSQB]) := by
        rw [deepArr]
        simp [Expr.opd, Expr.toks, Expr.listToks, Expr.tailToks, wrap, Expr.simple, noStyle]
      rw [h1, deepArrText, String.toList_append, String.toList_append, ← ih (0 :: π), List.append_assoc,
        spaced_append, spaced_append]
      rfl
  have h2 : (deepProgram n).toks noStyle = [kw T.VAR, idTok (letter 'v' rfl), kw T.EQUAL] ++
      ((deepArr n).opd noStyle [1, 0] ++ [nl]) := by
    simp [deepProgram, Program.toks, progToks, Decl.toks, decoToks, typeToks, LoopOrExpr.toks]
  unfold Program.render Program.renderWith
  rw [h2, spaced_append, spaced_append, ht]
  apply String.toList_inj.mp
  rw [String.toList_ofList, deepText, String.toList_append, String.toList_append, List.append_assoc]
  rfl

theorem deepText_length (n : Nat) : (deepText n).length = 4 * n + 12 := by
  have : ∀ n, (deepArrText n).length = 4 * n + 2 := by
    intro n
    induction n with
    | zero => rfl
    | succ n ih =>
      rw [deepArrText, String.length_append, String.length_append, ih]
      rw [show ("[ " : String).length = 2 from rfl, show ("] " : String).length = 2 from rfl]; omega
  rw [deepText, String.length_append, String.length_append, this]
  rw [show ("var v = " : String).length = 8 from rfl, show ("\n " : String).length = 2 from rfl]; omega

/-- **C78, no bound.** For every `n` there is a document of `4 * n + 12` characters whose result has a value
with `n` levels: the depth of results, and of the recursion, grows in proportion to the document. -/
theorem C78_deep (P : Parser) (n : Nat) : (deepText n).length = 4 * n + 12 ∧
    ∃ v y tree, P.parse (some (deepText n)) .none = .ok v ∧
      v.at? [.key "variables", .key "v", .key "value"] = some y ∧ y.levels = n ∧
      createTree' (some (deepText n)) .none = .ok tree ∧ n + 1 ≤ tree.height := by
  refine ⟨deepText_length n, ?_⟩
  have hok : (deepProgram n).ok := by
    intro d hd
    simp only [deepProgram, List.mem_singleton] at hd
    subst hd
    refine ⟨by intro d hd; simp at hd, by simp, deepArr_ok _⟩
  have hcl : (deepProgram n).clear = true := by
    simp [deepProgram, Program.clear, Decl.clear, LoopOrExpr.clear, deepArr_clear]
  obtain ⟨p', h1, hsp, h2⟩ := parse_render P hok hcl (by simp [deepProgram])
  rw [deep_render] at h2
  have hp : ∃ l, p' = [(l, .var [] (letter 'v' rfl) .none (.expr (deepArr n)))] := by
    match p', h1 with
    | [(l, d)], h1 =>
      simp only [Program.bare, deepProgram, List.map_cons, List.map_nil, List.cons.injEq, Prod.mk.injEq, true_and,
        and_true] at h1
      cases d with
      | var ds x t e =>
        simp only [Decl.bare, Decl.var.injEq] at h1
        obtain ⟨e1, rfl, rfl, e2⟩ := h1
        cases ds with
        | cons d ds => simp [Deco.bareL] at e1
        | nil =>
          cases e with
          | loop l => simp [LoopOrExpr.bare] at e2
          | expr e =>
            simp only [LoopOrExpr.bare, LoopOrExpr.expr.injEq] at e2
            exact ⟨l, by rw [deepArr_bare _ _ e2]⟩
      | _ => simp [Decl.bare] at h1
    | [], h1 => simp [Program.bare, deepProgram] at h1
    | _ :: _ :: _, h1 => simp [Program.bare, deepProgram] at h1
  obtain ⟨l, rfl⟩ := hp
  have hv : ∃ v, Program.val P.addLineNumbers [(l, .var [] (letter 'v' rfl) .none (.expr (deepArr n)))] = .ok v ∧
      v.at? [.key "variables", .key "v", .key "value"] = some (deepVal n) := by
    refine ⟨_, by
      rw [Program.val, Program.outs, Decl.out, decoVals, LoopOrExpr.val, deepArr_val, Program.outs]
      rfl, ?_⟩
    generalize deepVal n = s
    cases P.addLineNumbers <;> rfl
  obtain ⟨v, hv, ha⟩ := hv
  rw [hv] at h2
  have hcl' : Program.clear [(l, .var [] (letter 'v' rfl) .none (.expr (deepArr n)))] = true := by
    simp [Program.clear, Decl.clear, LoopOrExpr.clear, deepArr_clear]
  rw [deep_render] at hsp
  obtain ⟨tr, hl, hc⟩ := hsp.tree hcl'
  have h3 := h2
  rw [parse_eq] at h3
  rcases createTree'_cases (some (deepText n)) .none with ⟨e, e1, e2⟩ | ⟨t, m, e1, e2, e3, e4⟩ | ⟨t, e1, e2, _, e3⟩ |
    ⟨t, tree, p, e1, e2, hp, e3, e4, e5⟩
  · rw [e2] at h3; cases h3
  · rw [e3] at h3; cases h3
  · rw [e3] at h3; cases h3
  · refine ⟨v, _, tree, h2, ha, deepVal_levels n, e5, ?_⟩
    have : t = deepText n := by
      have : chosenText (some (deepText n)) .none = .ok (deepText n) := rfl
      rw [this] at e1; cases e1; rfl
    subst this
    rw [hl] at hp
    cases hp
    have hh := (Program.height_le [(l, .var [] (letter 'v' rfl) .none (.expr (deepArr n)))]).1
    rw [← hc, core_height] at hh
    have : n + 1 ≤ Program.nest [(l, .var [] (letter 'v' rfl) .none (.expr (deepArr n)))] := by
      have := deepArr_nest n
      simp only [Program.nest, Decl.nest, LoopOrExpr.nest]
      omega
    omega

/-! ### Examples -/

/-- the document for two levels -/
example : deepText 2 = "var v = [ [ x ] ] \n " := by decide +kernel

/-- the height of the tree for a text -/
def heightOf (text : String) : Option Nat :=
  match createTree' (some text) .none with
  | .ok t => some t.height
  | .error _ => .none

/-- a chain with three operators and one with four: two more levels -/
example : heightOf "var a = x + x + x + x" = some 9 ∧ heightOf "var a = x + x + x + x + x" = some 11 := by
  decide +kernel

/-- lists do not get deeper by getting longer, nor do documents -/
example : heightOf "var a = [x\nx\nx\nx]" = some 4 ∧ heightOf "var a = [x\nx]\nvar b = [x]\nvar c = [x]" = some 4 := by
  decide +kernel

end Pycep
