import Verif.Props.Canonical
/-
Texts further down: the same tokens on later lines spell the same program on later lines.
-/
namespace Pycep

mutual
/-- the expression, `k` lines further down -/
def Expr.down (k : Nat) : Expr → Expr
  | .array es => .array (Expr.downL k es)
  | .object is => .object (Item.downL k is)
  | .call f es => .call f (Expr.downL k es)
  | .bin op a b => .bin op (a.down k) (b.down k)
  | .not a => .not (a.down k)
  | .minus a => .minus (a.down k)
  | .cond c t f => .cond (c.down k) (t.down k) (f.down k)
  | .method a f args => .method (a.down k) f (Expr.downO k args)
  | .lambda v e => .lambda (v.down k) (e.down k)
  | .lambdaN v1 v2 v3 vs e => .lambdaN (v1.down k) (v2.down k) (v3.down k) (Expr.downL k vs) (e.down k)
  | .null => .null
  | .tru => .tru
  | .fls => .fls
  | .int d => .int d
  | .ident x => .ident x
  | .str b => .str b
  | .multi b => .multi b
/-- `Expr.down` of a list -/
def Expr.downL (k : Nat) : List Expr → List Expr
  | [] => []
  | e :: es => (e.down k) :: Expr.downL k es
/-- `Expr.down` of an optional expression -/
def Expr.down1 (k : Nat) : Option Expr → Option Expr
  | .none => .none
  | some e => some (e.down k)
/-- `Expr.down` of a list of optional expressions -/
def Expr.downO (k : Nat) : List (Option Expr) → List (Option Expr)
  | [] => []
  | e :: es => Expr.down1 k e :: Expr.downO k es
/-- `Expr.down` of an object member -/
def Item.down (k : Nat) : Item → Item
  | .pair x v => .pair x (v.down k)
  | .pairLoop x l => .pairLoop x (l.down k)
  | .child l x b ex c => .child (l.1 + k, l.2 + k) x b ex (c.down k)
/-- `Item.down` of a list -/
def Item.downL (k : Nat) : List Item → List Item
  | [] => []
  | i :: is => (i.down k) :: Item.downL k is
/-- `Expr.down` of a loop -/
def Loop.down (k : Nat) : Loop → Loop
  | .mk h c e => .mk (h.down k) (Expr.down1 k c) (e.down k)
/-- `Expr.down` of a loop head -/
def LoopHead.down (k : Nat) : LoopHead → LoopHead
  | .arr x e => .arr x (e.down k)
  | .arrIdx x i e => .arrIdx x i (e.down k)
  | .obj x e => .obj x (e.down k)
/-- `Expr.down` of a resource or module body -/
def Config.down (k : Nat) : Config → Config
  | .obj is => .obj (Item.downL k is)
  | .loop l => .loop (l.down k)
  | .cond c e => .cond (c.down k) (e.down k)
end

/-- `Expr.down` of decorators -/
def Deco.downL (k : Nat) (ds : List Deco) : List Deco := ds.map (fun d => ⟨d.name, Expr.down1 k d.arg⟩)

/-- `Expr.down` of the value of a variable or output -/
def LoopOrExpr.down (k : Nat) : LoopOrExpr → LoopOrExpr
  | .expr e => .expr (e.down k)
  | .loop l => .loop (l.down k)

/-- `Expr.down` of a declaration -/
def Decl.down (k : Nat) : Decl → Decl
  | .scope b => .scope b
  | .importNs b => .importNs b
  | .importFrom i is b => .importFrom i is b
  | .extension x c al => .extension x (c.map (Item.downL k)) al
  | .metadata x b => .metadata x b
  | .param ds x t o => .param (Deco.downL k ds) x t (Expr.down1 k o)
  | .var ds x t e => .var (Deco.downL k ds) x t (e.down k)
  | .output ds x t e => .output (Deco.downL k ds) x t (e.down k)
  | .resource ds x b ex c => .resource (Deco.downL k ds) x b ex (c.down k)
  | .module ds x b c => .module (Deco.downL k ds) x b (c.down k)
  | .typ ds x e es => .typ (Deco.downL k ds) x (e.down k) (Expr.downL k es)
  | .func ds x ps t e => .func (Deco.downL k ds) x ps t (e.down k)

/-- The program, `k` lines further down. -/
def Program.down (k : Nat) (p : Program) : Program := p.map (fun d => ((d.1.1 + k, d.1.2 + k), d.2.down k))


/-! ### Only lines change -/

mutual
theorem Expr.down_bare (k : Nat) : (e : Expr) → (e.down k).bare = e.bare
  | .null | .tru | .fls | .int _ | .ident _ | .str _ | .multi _ => rfl
  | .array es => by simp only [Expr.bare, Expr.down, Expr.downL_bare k es]
  | .object is => by simp only [Expr.bare, Expr.down, Item.downL_bare k is]
  | .call _ es => by simp only [Expr.bare, Expr.down, Expr.downL_bare k es]
  | .bin _ a b => by simp only [Expr.bare, Expr.down, Expr.down_bare k a, Expr.down_bare k b]
  | .not a => by simp only [Expr.bare, Expr.down, Expr.down_bare k a]
  | .minus a => by simp only [Expr.bare, Expr.down, Expr.down_bare k a]
  | .cond c t f => by
    simp only [Expr.bare, Expr.down, Expr.down_bare k c, Expr.down_bare k t, Expr.down_bare k f]
  | .method a _ args => by simp only [Expr.bare, Expr.down, Expr.down_bare k a, Expr.downO_bare k args]
  | .lambda v e => by simp only [Expr.bare, Expr.down, Expr.down_bare k v, Expr.down_bare k e]
  | .lambdaN v1 v2 v3 vs e => by
    simp only [Expr.bare, Expr.down, Expr.down_bare k v1, Expr.down_bare k v2, Expr.down_bare k v3,
      Expr.downL_bare k vs, Expr.down_bare k e]
theorem Expr.downL_bare (k : Nat) : (es : List Expr) → Expr.bareL (Expr.downL k es) = Expr.bareL es
  | [] => rfl
  | e :: es => by simp only [Expr.bareL, Expr.downL, Expr.down_bare k e, Expr.downL_bare k es]
theorem Expr.down1_bare (k : Nat) : (o : Option Expr) → Expr.bare1 (Expr.down1 k o) = Expr.bare1 o
  | .none => rfl
  | some e => by simp only [Expr.bare1, Expr.down1, Expr.down_bare k e]
theorem Expr.downO_bare (k : Nat) : (es : List (Option Expr)) → Expr.bareO (Expr.downO k es) = Expr.bareO es
  | [] => rfl
  | e :: es => by simp only [Expr.bareO, Expr.downO, Expr.down1_bare k e, Expr.downO_bare k es]
theorem Item.down_bare (k : Nat) : (i : Item) → (i.down k).bare = i.bare
  | .pair _ v => by simp only [Item.bare, Item.down, Expr.down_bare k v]
  | .pairLoop _ l => by simp only [Item.bare, Item.down, Loop.down_bare k l]
  | .child _ _ _ _ c => by simp only [Item.bare, Item.down, Config.down_bare k c]
theorem Item.downL_bare (k : Nat) : (is : List Item) → Item.bareL (Item.downL k is) = Item.bareL is
  | [] => rfl
  | i :: is => by simp only [Item.bareL, Item.downL, Item.down_bare k i, Item.downL_bare k is]
theorem Loop.down_bare (k : Nat) : (l : Loop) → (l.down k).bare = l.bare
  | .mk h c e => by
    simp only [Loop.bare, Loop.down, LoopHead.down_bare k h, Expr.down1_bare k c, Expr.down_bare k e]
theorem LoopHead.down_bare (k : Nat) : (h : LoopHead) → (h.down k).bare = h.bare
  | .arr _ e => by simp only [LoopHead.bare, LoopHead.down, Expr.down_bare k e]
  | .arrIdx _ _ e => by simp only [LoopHead.bare, LoopHead.down, Expr.down_bare k e]
  | .obj _ e => by simp only [LoopHead.bare, LoopHead.down, Expr.down_bare k e]
theorem Config.down_bare (k : Nat) : (c : Config) → (c.down k).bare = c.bare
  | .obj is => by simp only [Config.bare, Config.down, Item.downL_bare k is]
  | .loop l => by simp only [Config.bare, Config.down, Loop.down_bare k l]
  | .cond c e => by simp only [Config.bare, Config.down, Expr.down_bare k c, Expr.down_bare k e]
end

theorem Deco.downL_bare (k : Nat) (ds : List Deco) : Deco.bareL (Deco.downL k ds) = Deco.bareL ds := by
  simp [Deco.bareL, Deco.downL, Expr.down1_bare]

theorem LoopOrExpr.down_bare (k : Nat) (e : LoopOrExpr) : (e.down k).bare = e.bare := by
  cases e with
  | expr e => simp only [LoopOrExpr.down, LoopOrExpr.bare, Expr.down_bare]
  | loop l => simp only [LoopOrExpr.down, LoopOrExpr.bare, Loop.down_bare]

theorem Decl.down_bare (k : Nat) (d : Decl) : (d.down k).bare = d.bare := by
  cases d with
  | extension x c al => cases c <;> simp [Decl.bare, Decl.down, Item.downL_bare]
  | _ => simp [Decl.bare, Decl.down, Deco.downL_bare, LoopOrExpr.down_bare, Expr.down_bare,
      Expr.down1_bare, Expr.downL_bare, Config.down_bare]

theorem Program.down_bare (k : Nat) (p : Program) : Program.bare (Program.down k p) = Program.bare p := by
  simp [Program.bare, Program.down, Decl.down_bare]

theorem Program.down_clear (k : Nat) (p : Program) : Program.clear (Program.down k p) = p.clear := by
  rw [← Program.bare_clear, Program.down_bare, Program.bare_clear]

/-! ### Tokens further down -/

/-- the same token, `k` lines further down -/
def Tok.down (k : Nat) (u : Tok) : Tok := ⟨u.type, u.text, u.line + k, u.endLine + k⟩

theorem nextT_down (k : Nat) (w : List Tok) (n : Nat) : nextT (w.map (Tok.down k)) n = nextT w n := by
  cases w <;> rfl

theorem breaks_down {k w} (h : Breaks w) : Breaks (w.map (Tok.down k)) := by
  intro u hu
  obtain ⟨v, hv, rfl⟩ := List.mem_map.mp hu
  exact h v hv

theorem optBreak_down {k w} (h : OptBreak w) : OptBreak (w.map (Tok.down k)) := by
  rcases h with rfl | ⟨u, rfl, h⟩
  · exact .inl rfl
  · exact .inr ⟨u.down k, rfl, h⟩

theorem optNewline_down {k w} (h : OptNewline w) : OptNewline (w.map (Tok.down k)) := by
  rcases h with rfl | ⟨u, rfl, h⟩
  · exact .inl rfl
  · exact .inr ⟨u.down k, rfl, h⟩

theorem optMark_down {k w} (h : OptMark w) : OptMark (w.map (Tok.down k)) := by
  rcases h with rfl | ⟨u, rfl, h⟩
  · exact .inl rfl
  · exact .inr ⟨u.down k, rfl, h⟩

theorem linesOf_down {k l w} (h : LinesOf l w) : LinesOf (l.1 + k, l.2 + k) (w.map (Tok.down k)) := by
  obtain ⟨u, v, hu, hv, rfl⟩ := h
  exact ⟨u.down k, v.down k, by simp [hu], by simp [hv], rfl⟩

theorem keySyn_down {k x u} (h : KeySyn x u) : KeySyn x (Tok.down k u) := by
  cases h with
  | resource h => exact .resource h
  | ident h => exact .ident h
  | word h => exact .word h
  | quoted h => exact .quoted h

theorem existing_down {k x w} (h : ExistingSyn x w) : ExistingSyn x (w.map (Tok.down k)) := by
  cases h with
  | no => exact .no
  | yes h => exact .yes h

theorem downL_append (k : Nat) (a b : List Expr) : Expr.downL k (a ++ b) = Expr.downL k a ++ Expr.downL k b := by
  induction a with
  | nil => rfl
  | cons e a ih => simp only [List.cons_append, Expr.downL, ih]

theorem itemsDown_append (k : Nat) (a b : List Item) : Item.downL k (a ++ b) = Item.downL k a ++ Item.downL k b := by
  induction a with
  | nil => rfl
  | cons e a ih => simp only [List.cons_append, Item.downL, ih]

theorem downO_some (k : Nat) (a : List Expr) : Expr.downO k (a.map some) = (Expr.downL k a).map some := by
  induction a with
  | nil => rfl
  | cons e a ih => simp only [List.map_cons, Expr.downO, Expr.downL, Expr.down1, ih]

theorem Tok.down_type (k : Nat) (u : Tok) : (Tok.down k u).type = u.type := rfl

/-- closes the premises that mention what follows -/
macro "nxt " h:term : term => `(by
  have h' := $h
  simpa only [List.map_append, nextT_append, nextT_down, nextT_nil, nextT_cons, Tok.down_type] using h')

mutual
theorem ESyn.down (k : Nat) {b e w n} : ESyn b e w n → ESyn b (e.down k) (w.map (Tok.down k)) n
  | .null h1 h2 => by simpa only [List.map_append] using .null (optNewline_down h1) (u := Tok.down k _) h2
  | .tru h1 h2 => by simpa only [List.map_append] using .tru (optNewline_down h1) (u := Tok.down k _) h2
  | .fls h1 h2 => by simpa only [List.map_append] using .fls (optNewline_down h1) (u := Tok.down k _) h2
  | .int h1 h2 => by simpa only [List.map_append] using .int (optNewline_down h1) (u := Tok.down k _) h2
  | .ident h1 h2 => by simpa only [List.map_append] using .ident (optNewline_down h1) (u := Tok.down k _) h2
  | .str h1 h2 => by simpa only [List.map_append] using .str (optNewline_down h1) (u := Tok.down k _) h2
  | .multi h => .multi (u := Tok.down k _) h
  | .array h1 h2 h3 h4 => by
    simp only [List.map_append, List.map_cons, List.map_nil, Expr.down]
    exact .array h1 (breaks_down h2) (Elems.down k h3) h4
  | .object h => by
    rw [Expr.down]
    exact .object (ObjSyn.down k h)
  | .call h1 h2 => by
    simp only [List.map_append, Expr.down]
    exact .call (optNewline_down h1) (CallSyn.down k h2)
  | .bin h1 h2 h3 h4 h5 => by
    simp only [List.map_append, List.map_cons, Expr.down]
    exact .bin h1 (ESyn.down k h2) h3 (ESyn.down k h4) h5
  | .safe h1 h2 h3 h4 h5 => by
    simp only [List.map_append, List.map_cons, Expr.down]
    exact .safe (ESyn.down k h1) h2 h3 (ESyn.down k h4) h5
  | .index h1 h2 h3 h4 => by
    simp only [List.map_append, List.map_cons, List.map_nil, Expr.down]
    exact .index (ESyn.down k h1) h2 (ESyn.down k h3) h4
  | .safeIndex h1 h2 h3 h4 h5 => by
    simp only [List.map_append, List.map_cons, List.map_nil, Expr.down]
    exact .safeIndex (ESyn.down k h1) h2 h3 (ESyn.down k h4) h5
  | .not h1 h2 h3 => by
    simp only [List.map_cons, Expr.down]
    exact .not h1 (ESyn.down k h2) h3
  | .minus h1 h2 h3 => by
    simp only [List.map_cons, Expr.down]
    exact .minus h1 (ESyn.down k h2) h3
  | .cond h1 h2 h3 h4 h5 h6 => by
    simp only [List.map_append, List.map_cons, Expr.down]
    exact .cond (ESyn.down k h1) h2 (ESyn.down k h3) h4 (ESyn.down k h5) h6
  | .method h1 h2 h3 h4 h5 h6 => by
    simp only [List.map_append, List.map_cons, List.map_nil, Expr.down]
    exact .method (ESyn.down k h1) h2 h3 h4 (MArgs.down k h5) h6
  | .lambda h1 h2 h3 h4 => by
    simp only [List.map_append, List.map_cons, Expr.down]
    exact .lambda (ESyn.down k h1) h2 (ESyn.down k h3) h4
  | .lambdaN h1 h2 h3 h4 h5 h6 h7 h8 h9 => by
    simp only [List.map_append, List.map_cons, Expr.down]
    exact .lambdaN h1 (ESyn.down k h2) h3 (nxt (ESyn.down k h4)) (ETail.down k h5) h6 h7 (ESyn.down k h8) h9
  | .plain h1 h2 => .plain (ESyn.down k h1) h2
  | .paren h1 h2 h3 h4 => by
    simp only [List.map_append, List.map_cons, List.map_nil]
    exact .paren h1 (ESyn.down k h2) h3 h4
  | .bang h1 h2 => by
    simp only [List.map_append, List.map_cons, List.map_nil]
    exact .bang (ESyn.down k h1) h2
  | .parenBang h1 h2 h3 h4 => by
    simp only [List.map_append, List.map_cons, List.map_nil]
    exact .parenBang h1 (ESyn.down k h2) h3 h4
theorem ETail.down (k : Nat) {es w n} : ETail es w n → ETail (Expr.downL k es) (w.map (Tok.down k)) n
  | .nil => .nil
  | .snoc h1 h2 h3 h4 => by
    simp only [List.map_append, List.map_cons, downL_append, Expr.downL]
    exact .snoc (ETail.down k h1) h2 (ESyn.down k h3) h4
theorem Elems.down (k : Nat) {es w n} : Elems es w n → Elems (Expr.downL k es) (w.map (Tok.down k)) n
  | .nil => .nil
  | .snoc h1 h2 h3 h4 h5 => by
    simp only [List.map_append, downL_append, Expr.downL]
    exact .snoc (nxt (Elems.down k h1)) (nxt (ESyn.down k h2)) (nxt (ETail.down k h3)) (breaks_down h4)
      (by rw [nextT_down]; exact h5)
theorem CallSyn.down (k : Nat) {f es w n} : CallSyn f es w n → CallSyn f (Expr.downL k es) (w.map (Tok.down k)) n
  | .args h1 h2 h3 h4 h5 h6 => by
    simp only [List.map_append, List.map_cons, List.map_nil, Expr.downL]
    exact .args h1 (optBreak_down h2) (nxt (ESyn.down k h3)) (nxt (FTail.down k h4)) (optBreak_down h5) h6
  | .noArg h1 h2 h3 h4 h5 => by
    simp only [List.map_append, List.map_cons, List.map_nil]
    exact .noArg h1 (optBreak_down h2) (nxt (FTail.down k h3)) (optBreak_down h4) h5
theorem FTail.down (k : Nat) {es w n} : FTail es w n → FTail (Expr.downL k es) (w.map (Tok.down k)) n
  | .nil => .nil
  | .snoc h1 h2 h3 h4 h5 => by
    simp only [List.map_append, List.map_cons, downL_append, Expr.downL]
    exact .snoc (FTail.down k h1) h2 (optBreak_down h3) (ESyn.down k h4) h5
theorem MArgs.down (k : Nat) {es w n} : MArgs es w n → MArgs (Expr.downO k es) (w.map (Tok.down k)) n
  | .empty => .empty
  | .one h => .one (ESyn.down k h)
  | .many h1 h2 => by
    have h2' := ETail.down k h2
    simp only [downL_append, Expr.downL] at h2'
    simp only [List.map_append, downO_some, downL_append, Expr.downL, List.cons_append]
    simpa only [List.map_append, List.map_cons, List.map_nil, List.cons_append] using
      MArgs.many (nxt (ESyn.down k h1)) h2'
  | .lead h => by
    have h' := ETail.down k h
    simp only [downL_append, Expr.downL] at h'
    simp only [downO_some, downL_append, Expr.downL]
    exact .lead h'
theorem ObjSyn.down (k : Nat) {is w n} : ObjSyn is w n → ObjSyn (Item.downL k is) (w.map (Tok.down k)) n
  | .mk h1 h2 h3 h4 => by
    simp only [List.map_append, List.map_cons, List.map_nil]
    exact .mk h1 (breaks_down h2) (Items.down k h3) h4
theorem Items.down (k : Nat) {is w n} : Items is w n → Items (Item.downL k is) (w.map (Tok.down k)) n
  | .nil => .nil
  | .pairs h1 h2 h3 h4 => by
    simp only [List.map_append, itemsDown_append, Item.downL]
    exact .pairs (nxt (Items.down k h1)) (nxt (PairSyn.down k h2)) (nxt (PTail.down k h3)) (breaks_down h4)
  | .child h1 h2 h3 => by
    simp only [List.map_append, itemsDown_append, Item.downL]
    exact .child (nxt (Items.down k h1)) (nxt (ChildSyn.down k h2)) (breaks_down h3)
theorem PTail.down (k : Nat) {is w n} : PTail is w n → PTail (Item.downL k is) (w.map (Tok.down k)) n
  | .nil => .nil
  | .snoc h1 h2 h3 => by
    simp only [List.map_append, List.map_cons, itemsDown_append, Item.downL]
    exact .snoc (PTail.down k h1) h2 (PairSyn.down k h3)
theorem PairSyn.down (k : Nat) {i w n} : PairSyn i w n → PairSyn (i.down k) (w.map (Tok.down k)) n
  | .expr h1 h2 h3 h4 => by
    simp only [List.map_cons, Item.down]
    exact .expr (keySyn_down h1) h2 (ESyn.down k h3) h4
  | .exprOpt h1 h2 h3 h4 h5 h6 => by
    simp only [List.map_append, List.map_cons, List.map_nil, Item.down]
    exact .exprOpt (keySyn_down h1) h2 (ESyn.down k h3) h4 h5 h6
  | .loop h1 h2 h3 => by
    simp only [List.map_cons, Item.down]
    exact .loop (keySyn_down h1) h2 (LoopSyn.down k h3)
  | .loopOpt h1 h2 h3 h4 => by
    simp only [List.map_append, List.map_cons, List.map_nil, Item.down]
    exact .loopOpt (keySyn_down h1) h2 (LoopSyn.down k h3) h4
theorem ChildSyn.down (k : Nat) {i w n} : ChildSyn i w n → ChildSyn (i.down k) (w.map (Tok.down k)) n
  | .mk h1 h2 h3 h4 h5 h6 h7 h8 h9 h10 => by
    have h11 := linesOf_down (k := k) h10
    simp only [List.map_append, List.map_cons] at h11
    simp only [List.map_append, List.map_cons, Item.down]
    exact .mk h1 h2 h3 (existing_down h4) h5 (nxt (ConfigSyn.down k h6)) (breaks_down h7)
      (by simpa using h8) h9 h11
theorem LoopSyn.down (k : Nat) {l w n} : LoopSyn l w n → LoopSyn (l.down k) (w.map (Tok.down k)) n
  | .plain h1 h2 h3 h4 h5 h6 h7 h8 => by
    simp only [List.map_append, List.map_cons, List.map_nil, Loop.down, Expr.down1]
    exact .plain h1 (optBreak_down h2) h3 (HeadSyn.down k h4) h5 (nxt (ESyn.down k h6)) (optBreak_down h7) h8
  | .filter h1 h2 h3 h4 h5 h6 h7 h8 h9 => by
    simp only [List.map_append, List.map_cons, List.map_nil, Loop.down, Expr.down1]
    exact .filter h1 (optBreak_down h2) h3 (HeadSyn.down k h4) h5 (nxt (ESyn.down k h6)) (nxt (ESyn.down k h7))
      (optBreak_down h8) h9
theorem HeadSyn.down (k : Nat) {h w n} : HeadSyn h w n → HeadSyn (h.down k) (w.map (Tok.down k)) n
  | .arr h1 h2 h3 h4 => by
    simp only [List.map_cons, LoopHead.down]
    exact .arr h1 h2 (ESyn.down k h3) h4
  | .arrIdx h1 h2 h3 h4 h5 h6 h7 h8 => by
    simp only [List.map_cons, LoopHead.down]
    exact .arrIdx h1 h2 h3 h4 h5 h6 (ESyn.down k h7) h8
  | .obj h1 h2 h3 h4 h5 h6 => by
    simp only [List.map_append, List.map_cons, List.map_nil, LoopHead.down]
    exact .obj h1 h2 h3 h4 (ESyn.down k h5) h6
theorem ConfigSyn.down (k : Nat) {c w n} : ConfigSyn c w n → ConfigSyn (c.down k) (w.map (Tok.down k)) n
  | .obj h => by rw [Config.down]; exact .obj (ObjSyn.down k h)
  | .loop h => by rw [Config.down]; exact .loop (LoopSyn.down k h)
  | .cond h1 h2 h3 h4 h5 h6 h7 => by
    simp only [List.map_append, List.map_cons, Config.down]
    exact .cond (optBreak_down h1) h2 h3 (ESyn.down k h4) h5 (ESyn.down k h6) h7
end

theorem Suffixes.down (k : Nat) {m w} (h : Suffixes m w) : Suffixes m (w.map (Tok.down k)) := by
  induction h with
  | zero => exact .zero
  | succ _ h1 h2 ih =>
    simp only [List.map_append, List.map_cons, List.map_nil]
    exact .succ ih h1 h2

mutual
theorem TypeSyn.down (k : Nat) {d w} : TypeSyn d w → TypeSyn d (w.map (Tok.down k))
  | .mk h1 h2 => by
    rw [List.map_append]
    exact .mk (BaseSyn.down k h1) (h2.down k)
theorem BaseSyn.down (k : Nat) {d w} : BaseSyn d w → BaseSyn d (w.map (Tok.down k))
  | .name h => .name (u := Tok.down k _) h
  | .union h1 h2 h3 h4 => by
    simp only [List.map_append, List.map_cons, List.map_nil]
    exact .union h1 (TypeSyn.down k h2) (TypeTail.down k h3) h4
theorem TypeTail.down (k : Nat) {d w} : TypeTail d w → TypeTail d (w.map (Tok.down k))
  | .nil => .nil
  | .snoc h1 h2 h3 => by
    simp only [List.map_append, List.map_cons]
    exact .snoc (TypeTail.down k h1) h2 (TypeSyn.down k h3)
end

theorem DecoSyn.down (k : Nat) {d w} (h : DecoSyn d w) :
    DecoSyn ⟨d.name, Expr.down1 k d.arg⟩ (w.map (Tok.down k)) := by
  cases h with
  | noArg h1 h2 h3 h4 h5 h6 h7 h8 =>
    simp only [List.map_append, List.map_cons]
    exact .noArg h1 h2 h3 (breaks_down h4) (by simpa using h5) h6 (breaks_down h7) (by simpa using h8)
  | arg h1 h2 h3 h4 h5 h6 h7 h8 h9 =>
    simp only [List.map_append, List.map_cons]
    exact .arg h1 h2 h3 (optBreak_down h4) (nxt (ESyn.down k h5)) (optBreak_down h6) h7 (breaks_down h8)
      (by simpa using h9)

theorem DecosSyn.down (k : Nat) {ds w} (h : DecosSyn ds w) :
    DecosSyn (Deco.downL k ds) (w.map (Tok.down k)) := by
  induction h with
  | nil => exact .nil
  | snoc _ h ih =>
    simp only [Deco.downL, List.map_append, List.map_cons, List.map_nil] at ih ⊢
    exact .snoc ih (h.down k)

theorem ValueSyn.down (k : Nat) {e w n} (h : ValueSyn e w n) : ValueSyn (e.down k) (w.map (Tok.down k)) n := by
  cases h with
  | expr h h' => exact .expr (h.down k) h'
  | loop h => exact .loop (h.down k)

theorem ImportSyn.down (k : Nat) {i w} (h : ImportSyn i w) : ImportSyn i (w.map (Tok.down k)) := by
  cases h with
  | name h => exact .name h
  | star h => exact .star h
  | nameAs h1 h2 h3 => exact .nameAs h1 h2 h3
  | starAs h1 h2 h3 => exact .starAs h1 h2 h3

theorem ImportTail.down (k : Nat) {i w} (h : ImportTail i w) : ImportTail i (w.map (Tok.down k)) := by
  induction h with
  | nil => exact .nil
  | snoc _ h1 h2 ih =>
    simp only [List.map_append, List.map_cons]
    exact .snoc ih h1 (h2.down k)

theorem ParamTail.down (k : Nat) {i w} (h : ParamTail i w) : ParamTail i (w.map (Tok.down k)) := by
  induction h with
  | nil => exact .nil
  | snoc _ h1 h2 h3 ih =>
    simp only [List.map_append, List.map_cons]
    exact .snoc ih h1 h2 (h3.down k)

theorem ParamsSyn.down (k : Nat) {i w} (h : ParamsSyn i w) : ParamsSyn i (w.map (Tok.down k)) := by
  cases h with
  | nil => exact .nil
  | mk h1 h2 h3 =>
    simp only [List.map_append, List.map_cons]
    exact .mk h1 (h2.down k) (h3.down k)

theorem AltTail.down (k : Nat) {es w n} (h : AltTail es w n) :
    AltTail (Expr.downL k es) (w.map (Tok.down k)) n := by
  induction h with
  | nil => exact .nil
  | snoc _ h1 h2 h3 ih =>
    simp only [List.map_append, List.map_cons, downL_append, Expr.downL]
    exact .snoc ih h1 (h2.down k) h3

theorem WithSyn.down (k : Nat) {c w n} (h : WithSyn c w n) :
    WithSyn (c.map (Item.downL k)) (w.map (Tok.down k)) n := by
  cases h with
  | no => exact .no
  | yes h1 h2 => exact .yes h1 (h2.down k)

theorem AsSyn.down (k : Nat) {x w} (h : AsSyn x w) : AsSyn x (w.map (Tok.down k)) := by
  cases h with
  | no => exact .no
  | yes h1 h2 => exact .yes h1 h2

theorem VarType.down (k : Nat) {t w} (h : VarType t w) : VarType t (w.map (Tok.down k)) := by
  cases h with
  | no => exact .no
  | yes h1 h2 =>
    rw [List.map_append]
    exact .yes (h1.down k) (optMark_down h2)

theorem DefaultSyn.down (k : Nat) {o w n} (h : DefaultSyn o w n) :
    DefaultSyn (Expr.down1 k o) (w.map (Tok.down k)) n := by
  cases h with
  | no => exact .no
  | yes h1 h2 h3 => exact .yes h1 (h2.down k) h3

theorem DeclSyn.down (k : Nat) {d w n} (h : DeclSyn d w n) : DeclSyn (d.down k) (w.map (Tok.down k)) n := by
  cases h with
  | scope h1 h2 h3 => exact .scope h1 h2 h3
  | importNs h1 h2 => exact .importNs h1 h2
  | importOne h1 h2 h3 h4 =>
    simp only [List.map_append, List.map_cons, List.map_nil]
    exact .importOne h1 (h2.down k) h3 h4
  | importList h1 h2 h3 h4 h5 h6 h7 =>
    simp only [List.map_append, List.map_cons, List.map_nil]
    exact .importList h1 h2 (h3.down k) (h4.down k) h5 h6 h7
  | extension h1 h2 h3 h4 =>
    simp only [List.map_append, List.map_cons]
    exact .extension h1 h2 (nxt (h3.down k)) (h4.down k)
  | metadata h1 h2 h3 h4 => exact .metadata h1 h2 h3 h4
  | param h1 h2 h3 h4 h5 h6 =>
    simp only [List.map_append, List.map_cons]
    exact .param (h1.down k) h2 h3 (h4.down k) (optMark_down h5) (h6.down k)
  | var h1 h2 h3 h4 h5 h6 =>
    simp only [List.map_append, List.map_cons]
    exact .var (h1.down k) h2 h3 (h4.down k) h5 (h6.down k)
  | output h1 h2 h3 h4 h5 h6 h7 =>
    simp only [List.map_append, List.map_cons]
    exact .output (h1.down k) h2 h3 (h4.down k) (optMark_down h5) h6 (h7.down k)
  | resource h1 h2 h3 h4 h5 h6 h7 =>
    simp only [List.map_append, List.map_cons]
    exact .resource (h1.down k) h2 h3 h4 (existing_down h5) h6 (h7.down k)
  | module h1 h2 h3 h4 h5 h6 =>
    simp only [List.map_append, List.map_cons]
    exact .module (h1.down k) h2 h3 h4 h5 (h6.down k)
  | typ h1 h2 h3 h4 h5 h6 h7 =>
    simp only [List.map_append, List.map_cons]
    exact .typ (h1.down k) h2 h3 h4 (nxt (h5.down k)) (h6.down k) h7
  | func h1 h2 h3 h4 h5 h6 h7 h8 h9 h10 =>
    simp only [List.map_append, List.map_cons]
    exact .func (h1.down k) h2 h3 h4 (h5.down k) h6 (h7.down k) h8 (h9.down k) h10

/-- The same tokens `k` lines further down spell the program `k` lines further down. -/
theorem ProgSyn.down (k : Nat) {p w n} (h : ProgSyn p w n) : ProgSyn (p.down k) (w.map (Tok.down k)) n := by
  induction h with
  | nil => exact .nil
  | decl _ h1 h2 ih =>
    simp only [Program.down, List.map_append, List.map_cons, List.map_nil] at ih ⊢
    exact .decl (nxt ih) (h1.down k) (linesOf_down h2)
  | nl _ h ih =>
    simp only [List.map_append, List.map_cons, List.map_nil]
    exact .nl ih h

/-! ### What follows a declaration -/

theorem CallSyn.follow {f es w n n'} : CallSyn f es w n → CallSyn f es w n'
  | .args h1 h2 h3 h4 h5 h6 => .args h1 h2 h3 h4 h5 h6
  | .noArg h1 h2 h3 h4 h5 => .noArg h1 h2 h3 h4 h5

theorem ObjSyn.follow {is w n n'} : ObjSyn is w n → ObjSyn is w n'
  | .mk h1 h2 h3 h4 => .mk h1 h2 h3 h4

theorem LoopSyn.follow {l w n n'} : LoopSyn l w n → LoopSyn l w n'
  | .plain h1 h2 h3 h4 h5 h6 h7 h8 => .plain h1 h2 h3 h4 h5 h6 h7 h8
  | .filter h1 h2 h3 h4 h5 h6 h7 h8 h9 => .filter h1 h2 h3 h4 h5 h6 h7 h8 h9

theorem ESyn.follow {b e w n n'} (hi : NoInfix n') (hb : NoBang n') : ESyn b e w n → ESyn b e w n'
  | .null h1 h2 => .null h1 h2
  | .tru h1 h2 => .tru h1 h2
  | .fls h1 h2 => .fls h1 h2
  | .int h1 h2 => .int h1 h2
  | .ident h1 h2 => .ident h1 h2
  | .str h1 h2 => .str h1 h2
  | .multi h => .multi h
  | .array h1 h2 h3 h4 => .array h1 h2 h3 h4
  | .object h => .object h.follow
  | .call h1 h2 => .call h1 h2.follow
  | .bin h1 h2 h3 h4 _ => .bin h1 h2 h3 (ESyn.follow hi hb h4) hi
  | .safe h1 h2 h3 h4 _ => .safe h1 h2 h3 (ESyn.follow hi hb h4) hi
  | .index h1 h2 h3 h4 => .index h1 h2 h3 h4
  | .safeIndex h1 h2 h3 h4 h5 => .safeIndex h1 h2 h3 h4 h5
  | .not h1 h2 _ => .not h1 (ESyn.follow hi hb h2) hi
  | .minus h1 h2 _ => .minus h1 (ESyn.follow hi hb h2) hi
  | .cond h1 h2 h3 h4 h5 _ => .cond h1 h2 h3 h4 (ESyn.follow hi hb h5) hi
  | .method h1 h2 h3 h4 h5 h6 => .method h1 h2 h3 h4 h5 h6
  | .lambda h1 h2 h3 _ => .lambda h1 h2 (ESyn.follow hi hb h3) hi
  | .lambdaN h1 h2 h3 h4 h5 h6 h7 h8 _ => .lambdaN h1 h2 h3 h4 h5 h6 h7 (ESyn.follow hi hb h8) hi
  | .plain h1 _ => .plain (ESyn.follow hi hb h1) hb
  | .paren h1 h2 h3 _ => .paren h1 h2 h3 hb
  | .bang h1 h2 => .bang h1 h2
  | .parenBang h1 h2 h3 h4 => .parenBang h1 h2 h3 h4

theorem ConfigSyn.follow {c w n n'} (hi : NoInfix n') (hb : NoBang n') : ConfigSyn c w n → ConfigSyn c w n'
  | .obj h => .obj h.follow
  | .loop h => .loop h.follow
  | .cond h1 h2 h3 h4 h5 h6 _ => .cond h1 h2 h3 h4 h5 (h6.follow hi hb) hi

theorem ValueSyn.follow {c w n n'} (hi : NoInfix n') (hb : NoBang n') : ValueSyn c w n → ValueSyn c w n'
  | .expr h _ => .expr (h.follow hi hb) hi
  | .loop h => .loop h.follow

theorem DefaultSyn.follow {c w n n'} (hi : NoInfix n') (hb : NoBang n') : DefaultSyn c w n → DefaultSyn c w n'
  | .no => .no
  | .yes h1 h2 _ => .yes h1 (h2.follow hi hb) hi

theorem WithSyn.follow {c w n n'} : WithSyn c w n → WithSyn c w n'
  | .no => .no
  | .yes h1 h2 => .yes h1 h2.follow

theorem AltTail.follow {es w n n'} (hi : NoInfix n') (hb : NoBang n') : AltTail es w n → AltTail es w n'
  | .nil => .nil
  | .snoc h1 h2 h3 _ => .snoc h1 h2 (h3.follow hi hb) hi

theorem DeclSyn.follow {d w n n'} (hi : NoInfix n') (hb : NoBang n') : DeclSyn d w n → DeclSyn d w n'
  | .scope h1 h2 h3 => .scope h1 h2 h3
  | .importNs h1 h2 => .importNs h1 h2
  | .importOne h1 h2 h3 h4 => .importOne h1 h2 h3 h4
  | .importList h1 h2 h3 h4 h5 h6 h7 => .importList h1 h2 h3 h4 h5 h6 h7
  | .extension h1 h2 h3 h4 => .extension h1 h2 h3.follow h4
  | .metadata h1 h2 h3 h4 => .metadata h1 h2 h3 h4
  | .param h1 h2 h3 h4 h5 h6 => .param h1 h2 h3 h4 h5 (h6.follow hi hb)
  | .var h1 h2 h3 h4 h5 h6 => .var h1 h2 h3 h4 h5 (h6.follow hi hb)
  | .output h1 h2 h3 h4 h5 h6 h7 => .output h1 h2 h3 h4 h5 h6 (h7.follow hi hb)
  | .resource h1 h2 h3 h4 h5 h6 h7 => .resource h1 h2 h3 h4 h5 h6 (h7.follow hi hb)
  | .module h1 h2 h3 h4 h5 h6 => .module h1 h2 h3 h4 h5 (h6.follow hi hb)
  | @DeclSyn.typ _ _ _ _ _ _ _ _ _ w2 _ h1 h2 h3 h4 h5 h6 _ => by
    refine .typ h1 h2 h3 h4 ?_ (h6.follow hi hb) hi
    cases w2 with
    | nil => exact h5.follow hi hb
    | cons u w => exact h5
  | .func h1 h2 h3 h4 h5 h6 h7 h8 h9 _ => .func h1 h2 h3 h4 h5 h6 h7 h8 (h9.follow hi hb) hi

theorem ProgSyn.follow {p w n n'} (h : ProgSyn p w n) (hi : NoInfix n') (hb : NoBang n') : ProgSyn p w n' := by
  cases h with
  | nil => exact .nil
  | @decl p l d w1 w2 _ h1 h2 h3 =>
    refine .decl ?_ (h2.follow hi hb) h3
    cases w2 with
    | nil => obtain ⟨_, _, h, _⟩ := h3; simp at h
    | cons u w => exact h1
  | nl h1 h2 => exact .nl h1 h2

end Pycep
