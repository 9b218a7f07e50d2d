import Verif.Props.Complete
import Verif.Proofs.RenderSyn
import Verif.Proofs.Examples
/-
The canonical text of every program is parsed to its meaning (C48).
-/
namespace Pycep

/-! ### Line numbers do not matter for clearness, nor for the meaning without line numbers -/

mutual
theorem Expr.bare_lead : (e : Expr) → e.bare.lead = e.lead
  | .bin _ a _ => by simp only [Expr.bare, Expr.lead, Expr.bare_lead a]
  | .cond c _ _ => by simp only [Expr.bare, Expr.lead, Expr.bare_lead c]
  | .method a _ _ => by simp only [Expr.bare, Expr.lead, Expr.bare_lead a]
  | .lambda v _ => by simp only [Expr.bare, Expr.lead, Expr.bare_lead v]
  | .null | .tru | .fls | .int _ | .ident _ | .str _ | .multi _ => rfl
  | .array _ | .object _ | .call _ _ | .not _ | .minus _ | .lambdaN _ _ _ _ _ => by
    simp only [Expr.bare, Expr.lead]
end

mutual
theorem Expr.bare_clear : (e : Expr) → e.bare.clear = e.clear
  | .null | .tru | .fls | .int _ | .ident _ | .str _ | .multi _ => rfl
  | .array es => by simp only [Expr.bare, Expr.clear, Expr.bareL_clear es]
  | .object is => by simp only [Expr.bare, Expr.clear, Item.bareL_clear is]
  | .call _ es => by simp only [Expr.bare, Expr.clear, Expr.bareL_clear es]
  | .bin _ a b => by simp only [Expr.bare, Expr.clear, Expr.bare_clear a, Expr.bare_clear b]
  | .not a => by simp only [Expr.bare, Expr.clear, Expr.bare_clear a]
  | .minus a => by simp only [Expr.bare, Expr.clear, Expr.bare_clear a]
  | .cond c t f => by
    simp only [Expr.bare, Expr.clear, Expr.bare_clear c, Expr.bare_clear t, Expr.bare_clear f]
  | .method a _ args => by simp only [Expr.bare, Expr.clear, Expr.bare_clear a, Expr.bareO_clear args]
  | .lambda v e => by simp only [Expr.bare, Expr.clear, Expr.bare_clear v, Expr.bare_clear e]
  | .lambdaN v1 v2 v3 vs e => by
    simp only [Expr.bare, Expr.clear, Expr.bare_clear v1, Expr.bare_clear v2, Expr.bare_clear v3,
      Expr.bareL_clear vs, Expr.bare_clear e]
theorem Expr.bareL_clear : (es : List Expr) → Expr.clearL (Expr.bareL es) = Expr.clearL es
  | [] => rfl
  | e :: es => by simp only [Expr.bareL, Expr.clearL, Expr.bare_clear e, Expr.bareL_clear es]
theorem Expr.bare1_clear : (o : Option Expr) → Expr.clear1 (Expr.bare1 o) = Expr.clear1 o
  | .none => rfl
  | some e => by simp only [Expr.bare1, Expr.clear1, Expr.bare_clear e]
theorem Expr.bareO_clear : (es : List (Option Expr)) → Expr.clearO (Expr.bareO es) = Expr.clearO es
  | [] => rfl
  | e :: es => by simp only [Expr.bareO, Expr.clearO, Expr.bare1_clear e, Expr.bareO_clear es]
theorem Item.bare_clear : (i : Item) → i.bare.clear = i.clear
  | .pair _ v => by simp only [Item.bare, Item.clear, Expr.bare_clear v]
  | .pairLoop _ l => by simp only [Item.bare, Item.clear, Loop.bare_clear l]
  | .child _ _ _ _ c => by simp only [Item.bare, Item.clear, Config.bare_clear c]
theorem Item.bareL_clear : (is : List Item) → Item.clearL (Item.bareL is) = Item.clearL is
  | [] => rfl
  | i :: is => by simp only [Item.bareL, Item.clearL, Item.bare_clear i, Item.bareL_clear is]
theorem Loop.bare_clear : (l : Loop) → l.bare.clear = l.clear
  | .mk h c e => by
    have : (Expr.bare1 c).isNone = c.isNone := by cases c <;> rfl
    simp only [Loop.bare, Loop.clear, LoopHead.bare_clear h, Expr.bare1_clear c, Expr.bare_clear e,
      Expr.bare_lead, this]
theorem LoopHead.bare_clear : (h : LoopHead) → h.bare.clear = h.clear
  | .arr _ e => by simp only [LoopHead.bare, LoopHead.clear, Expr.bare_clear e]
  | .arrIdx _ _ e => by simp only [LoopHead.bare, LoopHead.clear, Expr.bare_clear e]
  | .obj _ e => by simp only [LoopHead.bare, LoopHead.clear, Expr.bare_clear e]
theorem Config.bare_clear : (c : Config) → c.bare.clear = c.clear
  | .obj is => by simp only [Config.bare, Config.clear, Item.bareL_clear is]
  | .loop l => by simp only [Config.bare, Config.clear, Loop.bare_clear l]
  | .cond c e => by simp only [Config.bare, Config.clear, Expr.bare_clear c, Expr.bare_clear e]
end

theorem Deco.bareL_clear (ds : List Deco) : (Deco.bareL ds).all Deco.clear = ds.all Deco.clear := by
  induction ds with
  | nil => rfl
  | cons d ds ih =>
    simp only [Deco.bareL, List.map_cons, List.all_cons] at ih ⊢
    rw [ih]
    simp only [Deco.clear, Expr.bare1_clear]

theorem LoopOrExpr.bare_clear (e : LoopOrExpr) : e.bare.clear = e.clear := by
  cases e with
  | expr e => exact Expr.bare_clear e
  | loop l => exact Loop.bare_clear l

theorem Decl.bare_clear (d : Decl) : d.bare.clear = d.clear := by
  cases d with
  | extension x c al => cases c <;> simp [Decl.bare, Decl.clear, Item.bareL_clear]
  | _ => simp [Decl.bare, Decl.clear, Deco.bareL_clear, LoopOrExpr.bare_clear, Expr.bare_clear,
      Expr.bare1_clear, Expr.bareL_clear, Config.bare_clear]

theorem Program.bare_clear (p : Program) : (Program.bare p).clear = p.clear := by
  simp [Program.bare, Program.clear, List.all_map, Function.comp_def, Decl.bare_clear]

mutual
theorem Expr.bare_val : (e : Expr) → e.bare.val false = e.val false
  | .null | .tru | .fls | .int _ | .ident _ | .str _ | .multi _ => rfl
  | .array es => by simp only [Expr.bare, Expr.val, Expr.bareL_val es]
  | .object is => by simp only [Expr.bare, Expr.val, Item.bareL_val is]
  | .call _ es => by simp only [Expr.bare, Expr.val, Expr.bareL_val es]
  | .bin _ a b => by simp only [Expr.bare, Expr.val, Expr.bare_val a, Expr.bare_val b]
  | .not a => by simp only [Expr.bare, Expr.val, Expr.bare_val a]
  | .minus a => by simp only [Expr.bare, Expr.val, Expr.bare_val a]
  | .cond c t f => by
    simp only [Expr.bare, Expr.val, Expr.bare_val c, Expr.bare_val t, Expr.bare_val f]
  | .method a _ args => by simp only [Expr.bare, Expr.val, Expr.bare_val a, Expr.bareO_val args]
  | .lambda v e => by simp only [Expr.bare, Expr.val, Expr.bare_val v, Expr.bare_val e]
  | .lambdaN v1 v2 v3 vs e => by
    simp only [Expr.bare, Expr.val, Expr.bare_val v1, Expr.bare_val v2, Expr.bare_val v3,
      Expr.bareL_val vs, Expr.bare_val e]
theorem Expr.bareL_val : (es : List Expr) → Expr.vals false (Expr.bareL es) = Expr.vals false es
  | [] => rfl
  | e :: es => by simp only [Expr.bareL, Expr.vals, Expr.bare_val e, Expr.bareL_val es]
theorem Expr.bare1_val : (o : Option Expr) → Expr.optVal false (Expr.bare1 o) = Expr.optVal false o
  | .none => rfl
  | some e => by simp only [Expr.bare1, Expr.optVal, Expr.bare_val e]
theorem Expr.bareO_val : (es : List (Option Expr)) →
    Expr.optVals false (Expr.bareO es) = Expr.optVals false es
  | [] => rfl
  | e :: es => by simp only [Expr.bareO, Expr.optVals, Expr.bare1_val e, Expr.bareO_val es]
theorem Item.bare_val : (i : Item) → i.bare.val false = i.val false
  | .pair _ v => by simp only [Item.bare, Item.val, Expr.bare_val v]
  | .pairLoop _ l => by simp only [Item.bare, Item.val, Loop.bare_val l]
  | .child _ _ _ _ c => by
    simp only [Item.bare, Item.val, Config.bare_val c, lineItems, Bool.false_eq_true, if_false]
theorem Item.bareL_val : (is : List Item) → Item.vals false (Item.bareL is) = Item.vals false is
  | [] => rfl
  | i :: is => by simp only [Item.bareL, Item.vals, Item.bare_val i, Item.bareL_val is]
theorem Loop.bare_val : (l : Loop) → l.bare.val false = l.val false
  | .mk h c e => by
    simp only [Loop.bare, Loop.val, LoopHead.bare_val h, Expr.bare1_val c, Expr.bare_val e]
theorem LoopHead.bare_val : (h : LoopHead) → h.bare.val false = h.val false
  | .arr _ e => by simp only [LoopHead.bare, LoopHead.val, Expr.bare_val e]
  | .arrIdx _ _ e => by simp only [LoopHead.bare, LoopHead.val, Expr.bare_val e]
  | .obj _ e => by simp only [LoopHead.bare, LoopHead.val, Expr.bare_val e]
theorem Config.bare_val : (c : Config) → c.bare.val false = c.val false
  | .obj is => by simp only [Config.bare, Config.val, Item.bareL_val is]
  | .loop l => by simp only [Config.bare, Config.val, Loop.bare_val l]
  | .cond c e => by simp only [Config.bare, Config.val, Expr.bare_val c, Expr.bare_val e]
end

theorem Deco.bareL_val (ds : List Deco) : decoVals false (Deco.bareL ds) = decoVals false ds := by
  induction ds with
  | nil => rfl
  | cons d ds ih =>
    obtain ⟨x, o⟩ := d
    simp only [Deco.bareL, List.map_cons, decoVals] at ih ⊢
    rw [ih]
    cases o with
    | none => rfl
    | some e => simp only [Deco.val, Expr.bare1, Expr.bare_val]

theorem LoopOrExpr.bare_val (e : LoopOrExpr) : e.bare.val false = e.val false := by
  cases e with
  | expr e => exact Expr.bare_val e
  | loop l => exact Loop.bare_val l

theorem Expr.bareL_isEmpty (es : List Expr) : (Expr.bareL es).isEmpty = es.isEmpty := by
  cases es <;> rfl

theorem Decl.bare_out (d : Decl) (l l' : Lines) : d.bare.out false l = d.out false l' := by
  cases d with
  | extension x c al =>
    cases c <;> simp [Decl.bare, Decl.out, configItem, Item.bareL_val, lineItems]
  | importFrom i is b =>
    have : ImportItem.entry false l b = ImportItem.entry false l' b := by
      funext j; simp [ImportItem.entry, lineItems]
    simp only [Decl.bare, Decl.out, this]
  | _ => simp only [Decl.bare, Decl.out, Deco.bareL_val, LoopOrExpr.bare_val, Expr.bare_val,
      Expr.bare1_val, Expr.bareL_val, Config.bare_val, typeVal, Expr.bareL_isEmpty, lineItems,
      Bool.false_eq_true, if_false]

theorem Program.bare_val (p : Program) : (Program.bare p).val false = p.val false := by
  have : ∀ p : Program, Program.outs false (Program.bare p) = Program.outs false p := by
    intro p
    induction p with
    | nil => rfl
    | cons d p ih =>
      obtain ⟨l, d⟩ := d
      simp only [Program.bare, List.map_cons, Program.outs] at ih ⊢
      rw [ih, Decl.bare_out d (0, 0) l]
  simp only [Program.val, this]

/-! ### The canonical text -/

theorem spaced_append : ∀ a b : List Lexeme, spaced (a ++ b) = spaced a ++ spaced b
  | [], _ => rfl
  | (t, x) :: a, b => by simp [spaced, spaced_append a b]

theorem render_ne {β : Styles} {p : Program} (h : p ≠ []) : p.renderWith β ≠ "" := by
  cases p with
  | nil => exact absurd rfl h
  | cons d p =>
    intro e
    have e := congrArg String.toList e
    simp [Program.renderWith, Program.toks, progToks, spaced_append, nl, spaced] at e

/-- The text of a program, with any choice of redundant brackets and `!`, is a clear way to write the
program, with some line numbers. -/
theorem render_writes (β : Styles) {p : Program} (ok : p.ok) :
    ∃ p' : Program, Program.bare p' = Program.bare p ∧ Writes (p.renderWith β) p' := by
  obtain ⟨p', h1, h2⟩ := Program.syn p ok _ (sh_place (p.toks β) 1)
  refine ⟨p', h1, _, ?_, h2 tEND⟩
  have := (Program.good (β := β) ok).layout 1
  simpa [Program.renderWith] using this

theorem parse_renderWith (P : Parser) (β : Styles) {p : Program} (ok : p.ok) (hc : p.clear = true) (hne : p ≠ []) :
    ∃ p' : Program, Program.bare p' = Program.bare p ∧ Writes (p.renderWith β) p' ∧
      P.parse (some (p.renderWith β)) .none = liftV (p'.val P.addLineNumbers) := by
  obtain ⟨p', h1, h2⟩ := render_writes β ok
  have hc' : p'.clear = true := by rw [← Program.bare_clear, h1, Program.bare_clear, hc]
  refine ⟨p', h1, h2, parse_writes P ?_ (Program.good ok).valid h2 hc'⟩
  unfold chosenText
  simp [render_ne hne]
  rfl

/-- **C48, with or without line numbers.** The outcome of `parse` on the canonical text of a program
is the meaning of the program that differs from it only by having the line numbers of the text. -/
theorem parse_render (P : Parser) {p : Program} (ok : p.ok) (hc : p.clear = true) (hne : p ≠ []) :
    ∃ p' : Program, Program.bare p' = Program.bare p ∧ Writes p.render p' ∧
      P.parse (some p.render) .none = liftV (p'.val P.addLineNumbers) :=
  parse_renderWith P noStyle ok hc hne

/-- **C43, for every position.** For every choice of redundant brackets around, and of `!` behind, the
expressions of a program, the outcome of `parse` is the meaning of the program, which does not depend
on the choice. -/
theorem brackets_irrelevant (β : Styles) {p : Program} (ok : p.ok) (hc : p.clear = true) (hne : p ≠ []) :
    (Parser.mk false).parse (some (p.renderWith β)) .none = liftV (p.val false) := by
  obtain ⟨p', h1, _, h2⟩ := parse_renderWith (Parser.mk false) β ok hc hne
  rw [h2, ← Program.bare_val p', h1, Program.bare_val]

/-- **C48, without line numbers.** The outcome of `parse` on the canonical text of a program is the
meaning of the program. -/
theorem parse_render_plain {p : Program} (ok : p.ok) (hc : p.clear = true) (hne : p ≠ []) :
    (Parser.mk false).parse (some p.render) .none = liftV (p.val false) :=
  brackets_irrelevant noStyle ok hc hne

/-! ### An example -/

/-- an identifier of one letter -/
def letter (c : Char) (h : isAsciiAlpha c = true) : Ident := ⟨[c], c, [], rfl, .inl h, by simp⟩

/-- `param p string` and `var x = { k: [1, 'a b', f(y)] }` -/
def exProgram : Program :=
  [((0, 0), .param [] (letter 'p' rfl) (.mk (.name (letter 't' rfl)) 1) .none),
   ((0, 0), .var [] (letter 'x' rfl) .none (.expr (.object [.pair (.ident (letter 'k' rfl))
     (.array [.int ⟨['1'], by decide⟩, .str ['a', ' ', 'b'],
       .call ⟨['f'], [], ['f'], rfl, .inl rfl, by decide, by decide⟩ [.ident (letter 'y' rfl)]])])))]

example : exProgram.render = "param p t [ ] \n var x = { \n k : [ 1 , 'a b' , f( y ) ] \n } \n " ∧ exProgram.ok ∧
    exProgram.clear = true := by
  refine ⟨by decide +kernel, ?_, by decide⟩
  have hl : ∀ ks c h, (∀ k ∈ ks, [c] ≠ fixedChars k) → (letter c h).Other ks := fun ks c h hk => hk
  have hk : ∀ c ∈ ['t', 'k', 'y'], ∀ k ∈ keywordIds, [c] ≠ fixedChars k := by decide +kernel
  have hk' : ∀ k ∈ T.RESOURCE :: T.FOR :: literals, k ∈ keywordIds := by decide +kernel
  intro d hd
  simp only [exProgram, List.mem_cons, List.not_mem_nil, or_false] at hd
  rcases hd with rfl | rfl
  · exact ⟨(by intro d hd; cases hd), hl _ _ _ (hk _ (by simp)), trivial⟩
  · refine ⟨(by intro d hd; cases hd), by simp, ⟨hl _ _ _ fun k h => hk _ (by simp) k (hk' k h), trivial, ⟨?_, ?_⟩,
      ⟨hl _ _ _ fun k h => hk _ (by simp) k (hk' k (by simp [h])), trivial⟩, trivial⟩, trivial⟩
    · exact .chr (by decide) (by decide) (by decide) (by decide) (.chr (by decide) (by decide) (by decide) (by decide)
        (.chr (by decide) (by decide) (by decide) (by decide) .nil))
    · unfold NoQuotes3; decide

example : Parser.parse ⟨false⟩ (some exProgram.render) .none =
    .ok (.dict [("globals", .dict [("scope", .dict [("value", .str "resourceGroup")])]),
      ("parameters", .dict [("p", .dict [("decorators", .list []), ("type",
        .dict [("type", .str "array"), ("item_type", .str "t")]), ("default", .none)])]),
      ("variables", .dict [("x", .dict [("decorators", .list []), ("value", .dict [("k", .list [.int 1, .str "a b",
        .dict [("function", .dict [("type", .str "f"), ("parameters", .dict [("arg_1", .elem "y")])])]])])])])]) :=
  eq_of_outIs (by decide +kernel)

/-- brackets around the integer and the object, `!` behind the call, both for the string -/
def exStyles : Styles := fun π =>
  if π = [1, 0, 1] then ⟨true, false⟩
  else if π = [0, 0, 0, 1, 0, 1] then ⟨true, false⟩
  else if π = [0, 1, 0, 0, 1, 0, 1] then ⟨true, true⟩
  else if π = [0, 1, 1, 0, 0, 1, 0, 1] then ⟨false, true⟩
  else {}

example : exProgram.renderWith exStyles =
    "param p t [ ] \n var x = ( { \n k : [ ( 1 ) , ( 'a b' ) ! , f( y ) ! ] \n } ) \n " := by decide +kernel

end Pycep
