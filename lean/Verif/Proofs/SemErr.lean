import Verif.Spec.Sem
/-
Where the meaning of a program can be an exception.
-/
namespace Pycep

/-- the rules whose method can raise -/
def failing : List String :=
  ["scope", "type_api_pair", "module_path", "resource", "decorator", "function", "loop", "int_type"]

/-- an exception of one of the constructs that can fail -/
def Visits (er : VErr) : Prop := ∃ r x, er = .visit r x ∧ r ∈ failing

/-- all exceptions of a computation come from constructs that can fail -/
def EOK {α} (x : Except VErr α) : Prop := ∀ er, x = .error er → Visits er

theorem EOK.ok {α} (a : α) : EOK (.ok a) := fun _ h => nomatch h

theorem EOK.bind' {α β} {x : Except VErr α} {f : α → Except VErr β} (h : EOK x)
    (h' : ∀ a, x = .ok a → EOK (f a)) : EOK (x >>= f) := by
  intro er e
  cases hx : x with
  | error er' =>
    rw [hx] at e
    cases e
    exact h _ hx
  | ok a => rw [hx] at e; exact h' a hx er e

theorem EOK.bind {α β} {x : Except VErr α} {f : α → Except VErr β} (h : EOK x)
    (h' : ∀ a, EOK (f a)) : EOK (x >>= f) := .bind' h (fun a _ => h' a)

theorem EOK.inRule {α} {r : String} (y : Except PyErr α) (hr : r ∈ failing) : EOK (Pycep.inRule r y) := by
  intro er h
  cases y with
  | ok => cases h
  | error e => cases h; exact ⟨_, _, rfl, hr⟩

theorem EOK.err {α} {r : String} {e : PyErr} (hr : r ∈ failing) : EOK (.error (.visit r e) : Except VErr α) := by
  intro er h; cases h; exact ⟨_, _, rfl, hr⟩

theorem EOK.ite {α} {p : Prop} [Decidable p] {x y : Except VErr α} (h : EOK x) (h' : EOK y) :
    EOK (if p then x else y) := by
  split
  · exact h
  · exact h'

mutual
theorem Expr.eok (ln : Bool) : (e : Expr) → EOK (e.val ln)
  | .null => by unfold Expr.val; exact .ok _
  | .tru => by unfold Expr.val; exact .ok _
  | .fls => by unfold Expr.val; exact .ok _
  | .int _ => by unfold Expr.val; exact .ite (.ok _) (.err (by decide))
  | .ident _ => by unfold Expr.val; exact .ok _
  | .str _ => by unfold Expr.val; exact .ok _
  | .multi _ => by unfold Expr.val; exact .ok _
  | .array es => by unfold Expr.val; exact .bind (Expr.eoks ln es) fun _ => .ok _
  | .object is => by unfold Expr.val; exact .bind (Item.eoks ln is) fun _ => .ok _
  | .call _ es => by
    unfold Expr.val
    exact .bind (Expr.eoks ln es) fun _ => .bind (.inRule _ (by decide)) fun _ => .ok _
  | .bin _ a b => by unfold Expr.val; exact .bind (a.eok ln) fun _ => .bind (b.eok ln) fun _ => .ok _
  | .not a => by unfold Expr.val; exact .bind (a.eok ln) fun _ => .ok _
  | .minus a => by unfold Expr.val; exact .bind (a.eok ln) fun _ => .ok _
  | .cond c t f => by
    unfold Expr.val
    exact .bind (c.eok ln) fun _ => .bind (t.eok ln) fun _ => .bind (f.eok ln) fun _ => .ok _
  | .method a _ args => by
    unfold Expr.val
    exact .bind (a.eok ln) fun _ => .bind (Expr.optEoks ln args) fun _ => .ok _
  | .lambda v e => by unfold Expr.val; exact .bind (v.eok ln) fun _ => .bind (e.eok ln) fun _ => .ok _
  | .lambdaN v1 v2 v3 vs e => by
    unfold Expr.val
    exact .bind (v1.eok ln) fun _ => .bind (v2.eok ln) fun _ => .bind (v3.eok ln) fun _ =>
      .bind (Expr.eoks ln vs) fun _ => .bind (e.eok ln) fun _ => .ok _
theorem Expr.eoks (ln : Bool) : (es : List Expr) → EOK (Expr.vals ln es)
  | [] => by unfold Expr.vals; exact .ok _
  | e :: es => by unfold Expr.vals; exact .bind (e.eok ln) fun _ => .bind (Expr.eoks ln es) fun _ => .ok _
theorem Expr.optEok (ln : Bool) : (e : Option Expr) → EOK (Expr.optVal ln e)
  | .none => by unfold Expr.optVal; exact .ok _
  | some e => by unfold Expr.optVal; exact e.eok ln
theorem Expr.optEoks (ln : Bool) : (es : List (Option Expr)) → EOK (Expr.optVals ln es)
  | [] => by unfold Expr.optVals; exact .ok _
  | e :: es => by
    unfold Expr.optVals
    exact .bind (Expr.optEok ln e) fun _ => .bind (Expr.optEoks ln es) fun _ => .ok _
theorem Item.eok (ln : Bool) : (i : Item) → EOK (i.val ln)
  | .pair _ e => by unfold Item.val; exact .bind (e.eok ln) fun _ => .ok _
  | .pairLoop _ l => by unfold Item.val; exact .bind (l.eok ln) fun _ => .ok _
  | .child _ _ _ _ c => by unfold Item.val; exact .bind (c.eok ln) fun _ => .ok _
theorem Item.eoks (ln : Bool) : (is : List Item) → EOK (Item.vals ln is)
  | [] => by unfold Item.vals; exact .ok _
  | i :: is => by unfold Item.vals; exact .bind (i.eok ln) fun _ => .bind (Item.eoks ln is) fun _ => .ok _
theorem Loop.eok (ln : Bool) : (l : Loop) → EOK (l.val ln)
  | .mk h c b => by
    unfold Loop.val
    exact .bind (h.eok ln) fun _ => .bind (Expr.optEok ln c) fun _ => .bind (b.eok ln) fun _ =>
      .bind (.inRule _ (by decide)) fun _ => .ok _
theorem LoopHead.eok (ln : Bool) : (h : LoopHead) → EOK (h.val ln)
  | .arr _ e => by unfold LoopHead.val; exact .bind (e.eok ln) fun _ => .ok _
  | .arrIdx _ _ e => by unfold LoopHead.val; exact .bind (e.eok ln) fun _ => .ok _
  | .obj _ e => by unfold LoopHead.val; exact .bind (e.eok ln) fun _ => .ok _
theorem Config.eok (ln : Bool) : (c : Config) → EOK (c.val ln)
  | .obj is => by unfold Config.val; exact .bind (Item.eoks ln is) fun _ => .ok _
  | .loop l => by unfold Config.val; exact l.eok ln
  | .cond c e => by unfold Config.val; exact .bind (c.eok ln) fun _ => .bind (e.eok ln) fun _ => .ok _
end

theorem Deco.eok (ln : Bool) (d : Deco) : EOK (d.val ln) := by
  unfold Deco.val
  simp only
  split
  · exact .bind (Expr.eok ln _) fun _ => .bind (.ok _) fun _ => .inRule _ (by decide)
  · exact .bind (.ok _) fun _ => .inRule _ (by decide)

theorem decoEoks (ln : Bool) : (ds : List Deco) → EOK (decoVals ln ds)
  | [] => by unfold decoVals; exact .ok _
  | d :: ds => by unfold decoVals; exact .bind (d.eok ln) fun _ => .bind (decoEoks ln ds) fun _ => .ok _

theorem LoopOrExpr.eok (ln : Bool) (v : LoopOrExpr) : EOK (v.val ln) := by
  cases v
  · exact Expr.eok ln _
  · exact Loop.eok ln _

/-- Every classification of a module reference has a type and details. -/
theorem classify_items {fp : String} {v : Val} (h : classifyModulePath fp = .ok v) :
    ∃ (t : String) (d : List (String × Val)), v = .dict [("type", .str t), ("detail", .dict d)] := by
  unfold classifyModulePath at h
  repeat' split at h
  all_goals first
    | (cases h; exact ⟨_, _, rfl⟩)
    | cases h

theorem Decl.eok (ln : Bool) (l : Lines) (d : Decl) : EOK (d.out ln l) := by
  cases d with
  | scope b =>
    simp only [Decl.out]
    exact .ite (.ok _) (.err (by decide))
  | importNs b => exact .ok _
  | importFrom i is b => exact .ok _
  | extension name config al =>
    refine .bind ?_ fun _ => .ok _
    cases config with
    | none => exact .ok _
    | some is => exact .bind (Item.eoks ln is) fun _ => .ok _
  | metadata => exact .ok _
  | param ds _ _ e => exact .bind (decoEoks ln ds) fun _ => .bind (Expr.optEok ln e) fun _ => .ok _
  | var ds _ _ e => exact .bind (decoEoks ln ds) fun _ => .bind (e.eok ln) fun _ => .ok _
  | output ds _ _ e => exact .bind (decoEoks ln ds) fun _ => .bind (e.eok ln) fun _ => .ok _
  | resource ds name ta ex c =>
    exact .bind (decoEoks ln ds) fun _ => .bind (.inRule _ (by decide)) fun _ => .bind (c.eok ln) fun _ =>
      .bind (.inRule _ (by decide)) fun _ => .ok _
  | module ds name path c =>
    refine .bind (decoEoks ln ds) fun _ => .bind' (.inRule _ (by decide)) fun p hp => .bind (c.eok ln) fun _ => ?_
    have : ∃ t d, p = .dict [("type", .str t), ("detail", .dict d)] := by
      cases hc : classifyModulePath (txt path) with
      | error e => rw [hc] at hp; cases hp
      | ok v => rw [hc] at hp; cases hp; exact classify_items hc
    obtain ⟨t, d, rfl⟩ := this
    exact .ok _
  | typ ds _ e es =>
    refine .bind (decoEoks ln ds) fun _ => .bind ?_ fun _ => .ok _
    unfold typeVal
    exact .ite (e.eok ln) (.bind (e.eok ln) fun _ => .bind (Expr.eoks ln es) fun _ => .ok _)
  | func ds _ _ _ b => exact .bind (decoEoks ln ds) fun _ => .bind (b.eok ln) fun _ => .ok _

theorem Program.eok (ln : Bool) (p : Program) : EOK (p.val ln) := by
  refine .bind ?_ fun _ => .ok _
  induction p with
  | nil => exact .ok _
  | cons d p ih =>
    obtain ⟨l, d⟩ := d
    exact .bind (d.eok ln l) fun _ => .bind ih fun _ => .ok _

end Pycep
