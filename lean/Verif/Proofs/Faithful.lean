import Verif.Proofs.FunInj
import Verif.Proofs.Place
/-
Faithful pieces of syntax are reported alike if and only if they are the same.
-/
namespace Pycep

/-- what represents a faithful expression, and what is known about its pieces -/
inductive Shape (ln : Bool) : Expr → Val → Prop where
  | null : Shape ln .null .none
  | tru : Shape ln .tru (.bool true)
  | fls : Shape ln .fls (.bool false)
  | int {d} : Shape ln (.int d) (.int (decimal d.1))
  | ident {x} : Shape ln (.ident x) (.elem (txt x.1))
  | text {e b} : e.text? = some b → Shape ln e (.str (txt b))
  | array {es vs} : Expr.vals ln es = .ok vs → Expr.FaithfulAll es → Shape ln (.array es) (.list vs)
  | object {is ps} : Item.vals ln is = .ok ps → ps.map Prod.fst ∉ reservedKeys → Item.FaithfulAll is →
      Shape ln (.object is) (.dict ps)
  | call {f es vs data} : Expr.vals ln es = .ok vs → FunVal (String.ofList f.1) vs data → Expr.FaithfulAll es →
      Telling (String.ofList f.1) vs → Shape ln (.call f es) (.dict [("function", data)])
  | bin {op a b x y} : a.val ln = .ok x → b.val ln = .ok y → a.Faithful → b.Faithful →
      Shape ln (.bin op a b) (opVal op.label [("operand_1", x), ("operand_2", y)])
  | not {a x} : a.val ln = .ok x → a.Faithful → Shape ln (.not a) (opVal "not" [("bool_value", x)])
  | minus {a x} : a.val ln = .ok x → a.Faithful → Shape ln (.minus a) (opVal "minus" [("integer_value", x)])
  | cond {a b c x y z} : a.val ln = .ok x → b.val ln = .ok y → c.val ln = .ok z → a.Faithful → b.Faithful →
      c.Faithful → Shape ln (.cond a b c)
        (opVal "conditional" [("condition", x), ("true_value", y), ("false_value", z)])
  | method {a f args x vs} : a.val ln = .ok x → Expr.optVals ln args = .ok vs → a.Faithful →
      Expr.FaithfulArgs args → Shape ln (.method a f args) (opVal "function_accessor"
        (("operand_1", x) :: ("func_name", .str (txt f.1)) :: numbered "operand_" 2 vs))
  | lambda {x e b} : e.val ln = .ok b → e.Faithful → Shape ln (.lambda (.ident x) e)
      (.dict [("type", .str "lambda_expression"), ("detail", .dict [("var_1", .str (txt x.1)), ("expression", b)])])
  | lambdaN {x1 x2 x3 e b} {xs : List Ident} : e.val ln = .ok b → e.Faithful →
      Shape ln (.lambdaN (.ident x1) (.ident x2) (.ident x3) (xs.map .ident) e)
        (.dict [("type", .str "lambda_expression"), ("detail", .dict (numbered "var_" 1
          ((x1 :: x2 :: x3 :: xs).map (fun x => .str (txt x.1))) ++ [("expression", b)]))])

/-- only `null` is represented by `None` -/
theorem val_none {ln : Bool} {e : Expr} (h : e.val ln = .ok .none) : e = .null := by
  cases e with
  | null => rfl
  | tru | fls | ident | str | multi => rw [Expr.val] at h; cases h
  | int d => rw [Expr.val] at h; split at h <;> cases h
  | array | object | not | minus =>
    rw [Expr.val] at h; obtain ⟨_, _, h⟩ := bind_ok' h; cases h
  | call | bin | method | lambda =>
    rw [Expr.val] at h; obtain ⟨_, _, h⟩ := bind_ok' h; obtain ⟨_, _, h⟩ := bind_ok' h; cases h
  | cond =>
    rw [Expr.val] at h; obtain ⟨_, _, h⟩ := bind_ok' h; obtain ⟨_, _, h⟩ := bind_ok' h
    obtain ⟨_, _, h⟩ := bind_ok' h; cases h
  | lambdaN =>
    rw [Expr.val] at h; obtain ⟨_, _, h⟩ := bind_ok' h; obtain ⟨_, _, h⟩ := bind_ok' h
    obtain ⟨_, _, h⟩ := bind_ok' h; obtain ⟨_, _, h⟩ := bind_ok' h; obtain ⟨_, _, h⟩ := bind_ok' h; cases h

theorem vals_none {ln : Bool} : ∀ {es : List Expr} {vs : List Val}, Expr.vals ln es = .ok vs → .null ∉ es →
    Val.none ∉ vs
  | [], vs, h, _ => by rw [Expr.vals] at h; cases h; simp
  | e :: es, vs, h, hn => by
    rw [Expr.vals] at h
    obtain ⟨x, hx, h⟩ := bind_ok' h
    obtain ⟨xs, hxs, h⟩ := bind_ok' h
    cases h
    simp only [List.mem_cons, not_or] at hn ⊢
    refine ⟨?_, vals_none hxs hn.2⟩
    rintro rfl
    exact hn.1 (val_none hx).symm

/-- arguments that are not empty are represented by values that are not empty -/
theorem blank_truthy {ln : Bool} {e : Expr} {v : Val} (h : e.val ln = .ok v) (hb : e.blank = false) :
    v.truthy = true := by
  cases e with
  | null => cases hb
  | fls => cases hb
  | tru => rw [Expr.val] at h; cases h; rfl
  | ident x => rw [Expr.val] at h; cases h; exact txt_ne_empty (ident_ne_nil x)
  | str b =>
    rw [Expr.val] at h; cases h
    exact txt_ne_empty (by rintro rfl; cases hb)
  | multi b =>
    rw [Expr.val] at h; cases h
    exact txt_ne_empty (by intro e; simp [Expr.blank, e] at hb)
  | int d =>
    rw [Expr.val] at h; split at h <;> cases h
    simp only [Expr.blank, beq_eq_false_iff_ne] at hb
    simp only [Val.truthy, bne_iff_ne, ne_eq]
    exact_mod_cast hb
  | array es =>
    rw [Expr.val] at h; obtain ⟨vs, hvs, h⟩ := bind_ok' h; cases h
    cases es with
    | nil => cases hb
    | cons e es =>
      rw [Expr.vals] at hvs; obtain ⟨_, _, hvs⟩ := bind_ok' hvs; obtain ⟨_, _, hvs⟩ := bind_ok' hvs; cases hvs; rfl
  | object is =>
    rw [Expr.val] at h; obtain ⟨vs, hvs, h⟩ := bind_ok' h; cases h
    simp only [Val.truthy, lastWins_isEmpty]
    cases is with
    | nil => cases hb
    | cons e es =>
      rw [Item.vals] at hvs; obtain ⟨_, _, hvs⟩ := bind_ok' hvs; obtain ⟨_, _, hvs⟩ := bind_ok' hvs; cases hvs; rfl
  | not | minus =>
    rw [Expr.val] at h; obtain ⟨_, _, h⟩ := bind_ok' h; cases h; rfl
  | call | bin | method | lambda =>
    rw [Expr.val] at h; obtain ⟨_, _, h⟩ := bind_ok' h; obtain ⟨_, _, h⟩ := bind_ok' h; cases h; rfl
  | cond =>
    rw [Expr.val] at h; obtain ⟨_, _, h⟩ := bind_ok' h; obtain ⟨_, _, h⟩ := bind_ok' h
    obtain ⟨_, _, h⟩ := bind_ok' h; cases h; rfl
  | lambdaN =>
    rw [Expr.val] at h; obtain ⟨_, _, h⟩ := bind_ok' h; obtain ⟨_, _, h⟩ := bind_ok' h
    obtain ⟨_, _, h⟩ := bind_ok' h; obtain ⟨_, _, h⟩ := bind_ok' h; obtain ⟨_, _, h⟩ := bind_ok' h; cases h; rfl

theorem args_truthy {ln : Bool} : ∀ {args : List (Option Expr)} {vs : List Val}, Expr.optVals ln args = .ok vs →
    Expr.FaithfulArgs args → ∀ v ∈ vs, v.truthy = true
  | [], vs, h, _ => by rw [Expr.optVals] at h; cases h; simp
  | .none :: es, vs, h, hf => by rw [Expr.FaithfulArgs] at hf; exact hf.elim
  | some e :: es, vs, h, hf => by
    rw [Expr.FaithfulArgs] at hf
    rw [Expr.optVals] at h
    obtain ⟨x, hx, h⟩ := bind_ok' h
    obtain ⟨xs, hxs, h⟩ := bind_ok' h
    cases h
    intro v hv
    rcases List.mem_cons.mp hv with rfl | hv
    · rw [Expr.optVal] at hx; exact blank_truthy hx hf.2.1
    · exact args_truthy hxs hf.2.2 v hv

theorem numbered_truthy {vs : List Val} (h : ∀ v ∈ vs, v.truthy = true) (pre : String) (n : Nat) :
    (numbered pre n vs).filter (fun p => p.2.truthy) = numbered pre n vs := by
  rw [List.filter_eq_self]
  intro p hp
  apply h
  rw [← numbered_vals pre n vs]
  exact List.mem_map_of_mem hp

theorem idents_of : ∀ {vs : List Expr}, (∀ v ∈ vs, ∃ x, v = .ident x) → ∃ xs : List Ident, vs = xs.map .ident
  | [], _ => ⟨[], rfl⟩
  | v :: vs, h => by
    obtain ⟨x, rfl⟩ := h v (by simp)
    obtain ⟨xs, rfl⟩ := idents_of (vs := vs) (fun w hw => h w (List.mem_cons_of_mem _ hw))
    exact ⟨x :: xs, rfl⟩

theorem identVals (ln : Bool) : ∀ xs : List Ident, Expr.vals ln (xs.map .ident) = .ok (xs.map (fun x => .elem (txt x.1)))
  | [] => by rw [List.map_nil, Expr.vals]; rfl
  | x :: xs => by rw [List.map_cons, Expr.vals, identVals ln xs, Expr.val]; rfl

theorem shape {ln : Bool} {e : Expr} {v : Val} (hf : e.Faithful) (h : e.val ln = .ok v) : Shape ln e v := by
  cases e with
  | null => rw [Expr.val] at h; cases h; exact .null
  | tru => rw [Expr.val] at h; cases h; exact .tru
  | fls => rw [Expr.val] at h; cases h; exact .fls
  | int d => rw [Expr.val] at h; split at h <;> cases h; exact .int
  | ident => rw [Expr.val] at h; cases h; exact .ident
  | str b => rw [Expr.val] at h; cases h; exact .text rfl
  | multi b => rw [Expr.val] at h; cases h; exact .text rfl
  | array es =>
    rw [Expr.val] at h; rw [Expr.Faithful] at hf
    obtain ⟨_, h1, h⟩ := bind_ok' h; cases h; exact .array h1 hf
  | object is =>
    rw [Expr.val] at h; rw [Expr.Faithful] at hf
    obtain ⟨ps, h1, h⟩ := bind_ok' h; cases h
    have hk := (items_mem h1).1
    rw [lastWins_of_nodup (by rw [hk]; exact hf.1)]
    exact .object h1 (by rw [hk]; exact hf.2.1) hf.2.2
  | call f es =>
    rw [Expr.val] at h; rw [Expr.Faithful] at hf
    obtain ⟨vs, h1, h⟩ := bind_ok' h
    obtain ⟨data, h2, h⟩ := bind_ok' h; cases h
    refine .call h1 (funVal_iff.mp (inRule_ok h2)) hf.1 ?_
    intro s hs hn
    obtain ⟨h3, h4⟩ := hf.2 s hs hn
    refine ⟨?_, vals_none h1 h4⟩
    rw [← (vals_getElem h1).1]; exact h3
  | bin op a b =>
    rw [Expr.val] at h; rw [Expr.Faithful] at hf
    obtain ⟨_, h1, h⟩ := bind_ok' h; obtain ⟨_, h2, h⟩ := bind_ok' h; cases h
    exact .bin h1 h2 hf.1 hf.2
  | not a =>
    rw [Expr.val] at h; rw [Expr.Faithful] at hf
    obtain ⟨_, h1, h⟩ := bind_ok' h; cases h; exact .not h1 hf
  | minus a =>
    rw [Expr.val] at h; rw [Expr.Faithful] at hf
    obtain ⟨_, h1, h⟩ := bind_ok' h; cases h; exact .minus h1 hf
  | cond a b c =>
    rw [Expr.val] at h; rw [Expr.Faithful] at hf
    obtain ⟨_, h1, h⟩ := bind_ok' h; obtain ⟨_, h2, h⟩ := bind_ok' h
    obtain ⟨_, h3, h⟩ := bind_ok' h; cases h
    exact .cond h1 h2 h3 hf.1 hf.2.1 hf.2.2
  | method a f args =>
    rw [Expr.val] at h; rw [Expr.Faithful] at hf
    obtain ⟨_, h1, h⟩ := bind_ok' h; obtain ⟨_, h2, h⟩ := bind_ok' h; cases h
    rw [numbered_truthy (args_truthy h2 hf.2)]
    exact .method h1 h2 hf.1 hf.2
  | lambda x e =>
    rw [Expr.Faithful] at hf
    obtain ⟨⟨x, rfl⟩, hf⟩ := hf
    rw [Expr.val] at h
    obtain ⟨_, h1, h⟩ := bind_ok' h; obtain ⟨_, h2, h⟩ := bind_ok' h; cases h
    rw [Expr.val] at h1; cases h1
    exact .lambda h2 hf
  | lambdaN v1 v2 v3 vs e =>
    rw [Expr.Faithful] at hf
    obtain ⟨hv, hf⟩ := hf
    obtain ⟨xs, hxs⟩ := idents_of hv
    match xs, hxs with
    | x1 :: x2 :: x3 :: xs, hxs =>
      simp only [List.map_cons, List.cons.injEq] at hxs
      obtain ⟨rfl, rfl, rfl, rfl⟩ := hxs
      rw [Expr.val] at h
      obtain ⟨_, h1, h⟩ := bind_ok' h; obtain ⟨_, h2, h⟩ := bind_ok' h; obtain ⟨_, h3, h⟩ := bind_ok' h
      obtain ⟨_, h4, h⟩ := bind_ok' h; obtain ⟨_, h5, h⟩ := bind_ok' h
      rw [Expr.val] at h1 h2 h3; rw [identVals] at h4
      cases h1; cases h2; cases h3; cases h4; cases h
      have := Shape.lambdaN (ln := ln) (x1 := x1) (x2 := x2) (x3 := x3) (xs := xs) h5 hf
      simp only [List.map_cons, List.map_map] at this ⊢
      exact this
    | [], hxs | [_], hxs | [_, _], hxs => simp at hxs

theorem clash {ps d : List (String × Val)} (h : ps.map Prod.fst ∉ reservedKeys) (e : Val.dict ps = .dict d)
    (hd : d.map Prod.fst ∈ reservedKeys) : False := by cases e; exact h hd

theorem label_inj {op op' : BinOp} (h : op.label = op'.label) : op = op' := by
  revert h; cases op <;> cases op' <;> decide

theorem txt_inj {a b : List Char} (h : txt a = txt b) : a = b := String.ofList_injective h

theorem numbered_inj {pre : String} {n : Nat} {vs ws : List Val} (h : numbered pre n vs = numbered pre n ws) : vs = ws := by
  rw [← numbered_vals pre n vs, h, numbered_vals]

theorem idents_inj : ∀ {xs ys : List Ident}, xs.map (fun x => Val.str (txt x.1)) = ys.map (fun x => Val.str (txt x.1)) → xs = ys
  | [], [], _ => rfl
  | [], _ :: _, h => by cases h
  | _ :: _, [], h => by cases h
  | x :: xs, y :: ys, h => by
    simp only [List.map_cons, List.cons.injEq, Val.str.injEq] at h
    rw [idents_inj h.2, Subtype.ext (txt_inj h.1)]

/-- closes the cases of values that differ -/
macro "differ" hv:ident : tactic => `(tactic| first
  | (simp [opVal] at $hv:ident; done)
  | exact (clash ‹_› ($hv:ident) (by simp [reservedKeys])).elim
  | exact (clash ‹_› ($hv:ident).symm (by simp [reservedKeys])).elim)

/-- an expression is not reported like a loop -/
theorem expr_ne_loop {ln ln' : Bool} {e : Expr} {l : Loop} {v : Val} (hf : e.Faithful) (h : e.val ln = .ok v)
    (h' : l.val ln' = .ok v) : False := by
  cases l with
  | mk hd c b =>
    rw [Loop.val] at h'
    obtain ⟨_, _, h'⟩ := bind_ok' h'; obtain ⟨_, _, h'⟩ := bind_ok' h'; obtain ⟨_, _, h'⟩ := bind_ok' h'
    obtain ⟨_, _, h'⟩ := bind_ok' h'; cases h'
    have h2 := shape hf h; clear h
    generalize hv : Val.dict _ = v at h2
    cases h2
    all_goals differ hv

theorem loop_always {ln : Bool} {h : LoopHead} {b : Expr} {v : Val} (hv : Loop.val ln (.mk h .none b) = .ok v) :
    ∃ x y, h.val ln = .ok x ∧ b.val ln = .ok y ∧
      v = .dict [("loop_type", x), ("condition", .none), ("config", y)] := by
  rw [Loop.val] at hv
  obtain ⟨x, hx, hv⟩ := bind_ok' hv; obtain ⟨c, hc, hv⟩ := bind_ok' hv; obtain ⟨y, hy, hv⟩ := bind_ok' hv
  obtain ⟨d, hd, hv⟩ := bind_ok' hv; cases hv
  rw [Expr.optVal] at hc; cases hc
  have := inRule_ok hd; cases this
  exact ⟨x, y, hx, hy, rfl⟩

theorem loop_if {ln : Bool} {h : LoopHead} {f : FunName} {c b : Expr} {v : Val} (hf : f.1 = ['i', 'f']) (hn : c ≠ .null)
    (hv : Loop.val ln (.mk h (some (.call f [c])) b) = .ok v) :
    ∃ x y z, h.val ln = .ok x ∧ c.val ln = .ok y ∧ b.val ln = .ok z ∧ Val.none ≠ y ∧
      v = .dict [("loop_type", x), ("condition", y), ("config", z)] := by
  rw [Loop.val] at hv
  obtain ⟨x, hx, hv⟩ := bind_ok' hv; obtain ⟨w, hw, hv⟩ := bind_ok' hv; obtain ⟨z, hz, hv⟩ := bind_ok' hv
  obtain ⟨d, hd, hv⟩ := bind_ok' hv; cases hv
  rw [Expr.optVal, Expr.val] at hw
  obtain ⟨vs, hvs, hw⟩ := bind_ok' hw; obtain ⟨data, hdata, hw⟩ := bind_ok' hw; cases hw
  rw [Expr.vals] at hvs
  obtain ⟨y, hy, hvs⟩ := bind_ok' hvs; obtain ⟨ys, hys, hvs⟩ := bind_ok' hvs; cases hvs
  rw [Expr.vals] at hys; cases hys
  have hF := funVal_iff.mp (inRule_ok hdata)
  rw [hf] at hF
  have hd := inRule_ok hd
  cases hF with
  | known hs hn _ => exact ((signature_type_ne_if _ hs).2 hn).elim
  | bare hs hn _ => exact ((signature_type_ne_if _ hs).2 hn).elim
  | unknown _ =>
    rw [show txt ['i', 'f'] = "if" from rfl, loopCondition_if [] y] at hd
    simp only [Except.ok.injEq] at hd
    subst hd
    exact ⟨x, y, z, hx, hy, hz, fun e => hn (val_none (e ▸ hy)), rfl⟩

/-- what represents a faithful loop -/
theorem loop_shape {ln : Bool} {v : Val} : (l : Loop) → l.Faithful → l.val ln = .ok v →
    (∃ h b x y, l = .mk h .none b ∧ v = .dict [("loop_type", x), ("condition", .none), ("config", y)] ∧
      h.Faithful ∧ b.Faithful ∧ h.val ln = .ok x ∧ b.val ln = .ok y) ∨
    (∃ h f c b x y z, l = .mk h (some (.call f [c])) b ∧
      v = .dict [("loop_type", x), ("condition", y), ("config", z)] ∧ h.Faithful ∧ f.1 = ['i', 'f'] ∧ c.Faithful ∧
      b.Faithful ∧ h.val ln = .ok x ∧ c.val ln = .ok y ∧ b.val ln = .ok z ∧ Val.none ≠ y)
  | .mk h .none b, hf, hv => by
    rw [Loop.Faithful] at hf
    obtain ⟨x, y, hx, hy, rfl⟩ := loop_always hv
    exact .inl ⟨h, b, x, y, rfl, rfl, hf.1, hf.2, hx, hy⟩
  | .mk h (some (.call f [c])) b, hf, hv => by
    rw [Loop.Faithful] at hf
    obtain ⟨x, y, z, hx, hy, hz, hne, rfl⟩ := loop_if hf.2.1 hf.2.2.1 hv
    exact .inr ⟨h, f, c, b, x, y, z, rfl, rfl, hf.1, hf.2.1, hf.2.2.2.1, hf.2.2.2.2, hx, hy, hz, hne⟩
  | .mk _ (some .null) _, hf, _
  | .mk _ (some .tru) _, hf, _
  | .mk _ (some .fls) _, hf, _
  | .mk _ (some (.int _)) _, hf, _
  | .mk _ (some (.ident _)) _, hf, _
  | .mk _ (some (.str _)) _, hf, _
  | .mk _ (some (.multi _)) _, hf, _
  | .mk _ (some (.array _)) _, hf, _
  | .mk _ (some (.object _)) _, hf, _
  | .mk _ (some (.bin _ _ _)) _, hf, _
  | .mk _ (some (.not _)) _, hf, _
  | .mk _ (some (.minus _)) _, hf, _
  | .mk _ (some (.cond _ _ _)) _, hf, _
  | .mk _ (some (.method _ _ _)) _, hf, _
  | .mk _ (some (.lambda _ _)) _, hf, _
  | .mk _ (some (.lambdaN _ _ _ _ _)) _, hf, _
  | .mk _ (some (.call _ [])) _, hf, _
  | .mk _ (some (.call _ (_ :: _ :: _))) _, hf, _ => by simp [Loop.Faithful] at hf

mutual
theorem alike_expr : (e : Expr) → e.Faithful → {ln : Bool} → {v : Val} → e.val ln = .ok v → (e' : Expr) → e'.Faithful →
    {ln' : Bool} → e'.val ln' = .ok v → Expr.Same e e'
  | .null, hf, ln, v, h, e', hf', ln', h' => by
    rw [Expr.val] at h; cases h
    rw [val_none h']; exact .null
  | .tru, hf, ln, v, h, e', hf', ln', h' => by
    rw [Expr.val] at h; cases h
    have h2 := shape hf' h'; clear h'
    generalize hv : Val.bool true = v at h2
    cases h2
    case tru => exact .tru
    all_goals differ hv
  | .fls, hf, ln, v, h, e', hf', ln', h' => by
    rw [Expr.val] at h; cases h
    have h2 := shape hf' h'; clear h'
    generalize hv : Val.bool false = v at h2
    cases h2
    case fls => exact .fls
    all_goals differ hv
  | .int d, hf, ln, v, h, e', hf', ln', h' => by
    rw [Expr.val] at h; split at h <;> cases h
    have h2 := shape hf' h'; clear h'
    generalize hv : Val.int _ = v at h2
    cases h2
    case int => simp only [Val.int.injEq, Nat.cast_inj] at hv; exact .int hv
    all_goals differ hv
  | .ident x, hf, ln, v, h, e', hf', ln', h' => by
    rw [Expr.val] at h; cases h
    have h2 := shape hf' h'; clear h'
    generalize hv : Val.elem _ = v at h2
    cases h2
    case ident y =>
      simp only [Val.elem.injEq] at hv
      rw [Subtype.ext (txt_inj hv)]; exact .ident
    all_goals differ hv
  | .str b, hf, ln, v, h, e', hf', ln', h' => by
    rw [Expr.val] at h; cases h
    have h2 := shape hf' h'; clear h'
    generalize hv : Val.str _ = v at h2
    cases h2
    case text ht => simp only [Val.str.injEq] at hv; rw [← txt_inj hv] at ht; exact .text rfl ht
    all_goals differ hv
  | .multi b, hf, ln, v, h, e', hf', ln', h' => by
    rw [Expr.val] at h; cases h
    have h2 := shape hf' h'; clear h'
    generalize hv : Val.str _ = v at h2
    cases h2
    case text ht => simp only [Val.str.injEq] at hv; rw [← txt_inj hv] at ht; exact .text rfl ht
    all_goals differ hv
  | .array es, hf, ln, v, h, e', hf', ln', h' => by
    rw [Expr.Faithful] at hf
    rw [Expr.val] at h; obtain ⟨vs, hvs, h⟩ := bind_ok' h; cases h
    have h2 := shape hf' h'; clear h'
    generalize hv : Val.list _ = v at h2
    cases h2
    case array h1 h2 => cases hv; exact .array (alike_exprs es hf hvs _ h2 h1)
    all_goals differ hv
  | .object is, hf, ln, v, h, e', hf', ln', h' => by
    have h1 := shape hf h
    rw [Expr.Faithful] at hf
    have h2 := shape hf' h'; clear h'
    cases h1 with
    | text ht => cases ht
    | object h1 hr _ =>
    clear h
    generalize hv : Val.dict _ = v at h2
    cases h2
    case object h2 _ h3 => cases hv; exact .object (alike_items is hf.2.2 h1 _ h3 h2)
    all_goals differ hv
  | .call f es, hf, ln, v, h, e', hf', ln', h' => by
    have h1 := shape hf h
    rw [Expr.Faithful] at hf
    have h2 := shape hf' h'; clear h'
    cases h1 with
    | text ht => cases ht
    | call h1 hF _ hT =>
    clear h
    generalize hv : Val.dict _ = v at h2
    cases h2
    case call h2 hF' h3 hT' =>
      cases hv
      obtain ⟨rfl, hfg⟩ := funVal_inj hF hF' hT hT'
      refine .call ?_ (alike_exprs es hf.1 h1 _ h3 h2)
      rcases hfg with hfg | hfg
      · exact .inl (Subtype.ext (String.ofList_injective hfg))
      · exact .inr hfg
    all_goals differ hv
  | .bin op a b, hf, ln, v, h, e', hf', ln', h' => by
    rw [Expr.Faithful] at hf
    rw [Expr.val] at h; obtain ⟨x, hx, h⟩ := bind_ok' h; obtain ⟨y, hy, h⟩ := bind_ok' h; cases h
    have h2 := shape hf' h'; clear h'
    generalize hv : opVal _ _ = v at h2
    cases h2
    case bin h1 h2 h3 h4 =>
      simp only [opVal, Val.dict.injEq, List.cons.injEq, Prod.mk.injEq, Val.str.injEq, true_and, and_true] at hv
      obtain ⟨hl, rfl, rfl⟩ := hv
      obtain rfl := label_inj hl
      exact .bin (alike_expr a hf.1 hx _ h3 h1) (alike_expr b hf.2 hy _ h4 h2)
    all_goals differ hv
  | .not a, hf, ln, v, h, e', hf', ln', h' => by
    rw [Expr.Faithful] at hf
    rw [Expr.val] at h; obtain ⟨x, hx, h⟩ := bind_ok' h; cases h
    have h2 := shape hf' h'; clear h'
    generalize hv : opVal _ _ = v at h2
    cases h2
    case not h1 h2 => cases hv; exact .not (alike_expr a hf hx _ h2 h1)
    all_goals differ hv
  | .minus a, hf, ln, v, h, e', hf', ln', h' => by
    rw [Expr.Faithful] at hf
    rw [Expr.val] at h; obtain ⟨x, hx, h⟩ := bind_ok' h; cases h
    have h2 := shape hf' h'; clear h'
    generalize hv : opVal _ _ = v at h2
    cases h2
    case minus h1 h2 => cases hv; exact .minus (alike_expr a hf hx _ h2 h1)
    all_goals differ hv
  | .cond a b c, hf, ln, v, h, e', hf', ln', h' => by
    rw [Expr.Faithful] at hf
    rw [Expr.val] at h; obtain ⟨x, hx, h⟩ := bind_ok' h; obtain ⟨y, hy, h⟩ := bind_ok' h
    obtain ⟨z, hz, h⟩ := bind_ok' h; cases h
    have h2 := shape hf' h'; clear h'
    generalize hv : opVal _ _ = v at h2
    cases h2
    case cond h1 h2 h3 h4 h5 h6 =>
      cases hv
      exact .cond (alike_expr a hf.1 hx _ h4 h1) (alike_expr b hf.2.1 hy _ h5 h2) (alike_expr c hf.2.2 hz _ h6 h3)
    all_goals differ hv
  | .method a f args, hf, ln, v, h, e', hf', ln', h' => by
    have h1 := shape hf h
    rw [Expr.Faithful] at hf
    have h2 := shape hf' h'; clear h'
    cases h1 with
    | text ht => cases ht
    | @method _ _ _ x vs hx hvs _ _ =>
    clear h
    generalize hv : opVal _ _ = v at h2
    cases h2
    case method a' f' args' x' vs' h1 h2 h3 h4 =>
      simp only [opVal, Val.dict.injEq, List.cons.injEq, Prod.mk.injEq, Val.str.injEq, true_and, and_true] at hv
      obtain ⟨rfl, hf1, hn⟩ := hv
      obtain rfl := numbered_inj hn
      obtain ⟨es, es', rfl, rfl, hs⟩ := alike_args args hf.2 hvs _ h4 h2
      rw [Subtype.ext (txt_inj hf1)]
      exact .method (alike_expr a hf.1 hx _ h3 h1) hs
    all_goals differ hv
  | .lambda y e, hf, ln, v, h, e', hf', ln', h' => by
    have h1 := shape hf h
    rw [Expr.Faithful] at hf
    have h2 := shape hf' h'; clear h'
    cases h1 with
    | text ht => cases ht
    | lambda hb _ =>
    clear h
    generalize hv : Val.dict _ = v at h2
    cases h2
    case lambda h1 h2 =>
      simp only [Val.dict.injEq, List.cons.injEq, Prod.mk.injEq, Val.str.injEq, true_and, and_true] at hv
      obtain ⟨hx, rfl⟩ := hv
      rw [Subtype.ext (txt_inj hx)]
      exact .lambda (alike_expr e hf.2 hb _ h2 h1)
    case lambdaN => simp [numbered] at hv
    all_goals differ hv
  | .lambdaN _ _ _ _ e, hf, ln, v, h, e', hf', ln', h' => by
    have h1 := shape hf h
    rw [Expr.Faithful] at hf
    have h2 := shape hf' h'; clear h'
    cases h1 with
    | text ht => cases ht
    | lambdaN hb _ =>
    clear h
    generalize hv : Val.dict _ = v at h2
    cases h2
    case lambdaN h1 h2 =>
      simp only [Val.dict.injEq, List.cons.injEq, Prod.mk.injEq, true_and, and_true] at hv
      obtain ⟨hx, hv⟩ := List.append_inj' hv rfl
      have hx := idents_inj (numbered_inj hx)
      cases hv
      simp only [List.cons.injEq] at hx
      obtain ⟨rfl, rfl, rfl, rfl⟩ := hx
      exact .lambdaN (alike_expr e hf.2 hb _ h2 h1)
    case lambda => simp [numbered] at hv
    all_goals differ hv
theorem alike_exprs : (es : List Expr) → Expr.FaithfulAll es → {ln : Bool} → {vs : List Val} → Expr.vals ln es = .ok vs →
    (es' : List Expr) → Expr.FaithfulAll es' → {ln' : Bool} → Expr.vals ln' es' = .ok vs → List.Forall₂ Expr.Same es es'
  | [], _, ln, vs, h, es', hf', ln', h' => by
    rw [Expr.vals] at h; cases h
    cases es' with
    | nil => exact .nil
    | cons => rw [Expr.vals] at h'; obtain ⟨_, _, h'⟩ := bind_ok' h'; obtain ⟨_, _, h'⟩ := bind_ok' h'; cases h'
  | e :: es, hf, ln, vs, h, es', hf', ln', h' => by
    rw [Expr.vals] at h; obtain ⟨x, hx, h⟩ := bind_ok' h; obtain ⟨xs, hxs, h⟩ := bind_ok' h; cases h
    rw [Expr.FaithfulAll] at hf
    cases es' with
    | nil => rw [Expr.vals] at h'; cases h'
    | cons e' es' =>
      rw [Expr.vals] at h'; obtain ⟨y, hy, h'⟩ := bind_ok' h'; obtain ⟨ys, hys, h'⟩ := bind_ok' h'; cases h'
      rw [Expr.FaithfulAll] at hf'
      exact .cons (alike_expr e hf.1 hx _ hf'.1 hy) (alike_exprs es hf.2 hxs _ hf'.2 hys)
theorem alike_args : (es : List (Option Expr)) → Expr.FaithfulArgs es → {ln : Bool} → {vs : List Val} →
    Expr.optVals ln es = .ok vs → (es' : List (Option Expr)) → Expr.FaithfulArgs es' → {ln' : Bool} →
    Expr.optVals ln' es' = .ok vs → ∃ l l', es = l.map some ∧ es' = l'.map some ∧ List.Forall₂ Expr.Same l l'
  | [], _, ln, vs, h, es', hf', ln', h' => by
    rw [Expr.optVals] at h; cases h
    cases es' with
    | nil => exact ⟨[], [], rfl, rfl, .nil⟩
    | cons => rw [Expr.optVals] at h'; obtain ⟨_, _, h'⟩ := bind_ok' h'; obtain ⟨_, _, h'⟩ := bind_ok' h'; cases h'
  | .none :: es, hf, ln, vs, h, es', hf', ln', h' => by rw [Expr.FaithfulArgs] at hf; exact hf.elim
  | some e :: es, hf, ln, vs, h, es', hf', ln', h' => by
    rw [Expr.optVals] at h; obtain ⟨x, hx, h⟩ := bind_ok' h; obtain ⟨xs, hxs, h⟩ := bind_ok' h; cases h
    rw [Expr.FaithfulArgs] at hf
    rw [Expr.optVal] at hx
    cases es' with
    | nil => rw [Expr.optVals] at h'; cases h'
    | cons e' es' =>
      rw [Expr.optVals] at h'; obtain ⟨y, hy, h'⟩ := bind_ok' h'; obtain ⟨ys, hys, h'⟩ := bind_ok' h'; cases h'
      cases e' with
      | none => rw [Expr.FaithfulArgs] at hf'; exact hf'.elim
      | some e' =>
        rw [Expr.FaithfulArgs] at hf'
        rw [Expr.optVal] at hy
        obtain ⟨l, l', rfl, rfl, hl⟩ := alike_args es hf.2.2 hxs _ hf'.2.2 hys
        exact ⟨e :: l, e' :: l', rfl, rfl, .cons (alike_expr e hf.1 hx _ hf'.1 hy) hl⟩
theorem alike_items : (is : List Item) → Item.FaithfulAll is → {ln : Bool} → {ps : List (String × Val)} →
    Item.vals ln is = .ok ps → (is' : List Item) → Item.FaithfulAll is' → {ln' : Bool} → Item.vals ln' is' = .ok ps →
    List.Forall₂ Item.Same is is'
  | [], _, ln, vs, h, es', hf', ln', h' => by
    rw [Item.vals] at h; cases h
    cases es' with
    | nil => exact .nil
    | cons => rw [Item.vals] at h'; obtain ⟨_, _, h'⟩ := bind_ok' h'; obtain ⟨_, _, h'⟩ := bind_ok' h'; cases h'
  | e :: es, hf, ln, vs, h, es', hf', ln', h' => by
    rw [Item.vals] at h; obtain ⟨x, hx, h⟩ := bind_ok' h; obtain ⟨xs, hxs, h⟩ := bind_ok' h; cases h
    rw [Item.FaithfulAll] at hf
    cases es' with
    | nil => rw [Item.vals] at h'; cases h'
    | cons e' es' =>
      rw [Item.vals] at h'; obtain ⟨y, hy, h'⟩ := bind_ok' h'; obtain ⟨ys, hys, h'⟩ := bind_ok' h'; cases h'
      rw [Item.FaithfulAll] at hf'
      exact .cons (alike_item e hf.1 hx _ hf'.1 hy) (alike_items es hf.2 hxs _ hf'.2 hys)
theorem alike_item : (i : Item) → i.Faithful → {ln : Bool} → {p : String × Val} → i.val ln = .ok p →
    (i' : Item) → i'.Faithful → {ln' : Bool} → i'.val ln' = .ok p → Item.Same i i'
  | .pair k e, hf, ln, p, h, i', hf', ln', h' => by
    rw [Item.Faithful] at hf
    rw [Item.val] at h; obtain ⟨x, hx, h⟩ := bind_ok' h; cases h
    cases i' with
    | pair k' e' =>
      rw [Item.Faithful] at hf'
      rw [Item.val] at h'; obtain ⟨y, hy, h'⟩ := bind_ok' h'
      simp only [Except.ok.injEq, Prod.mk.injEq] at h'
      obtain ⟨hk, rfl⟩ := h'
      exact .pair hk.symm (alike_expr e hf hx _ hf' hy)
    | pairLoop k' l =>
      rw [Item.Faithful] at hf'
      rw [Item.val] at h'; obtain ⟨y, hy, h'⟩ := bind_ok' h'
      simp only [Except.ok.injEq, Prod.mk.injEq] at h'
      obtain ⟨hk, rfl⟩ := h'
      exact (expr_ne_loop hf hx hy).elim
    | child => rw [Item.Faithful] at hf'; exact hf'.elim
  | .pairLoop k l, hf, ln, p, h, i', hf', ln', h' => by
    rw [Item.Faithful] at hf
    rw [Item.val] at h; obtain ⟨x, hx, h⟩ := bind_ok' h; cases h
    cases i' with
    | pair k' e' =>
      rw [Item.Faithful] at hf'
      rw [Item.val] at h'; obtain ⟨y, hy, h'⟩ := bind_ok' h'
      simp only [Except.ok.injEq, Prod.mk.injEq] at h'
      obtain ⟨hk, rfl⟩ := h'
      exact (expr_ne_loop hf' hy hx).elim
    | pairLoop k' l' =>
      rw [Item.Faithful] at hf'
      rw [Item.val] at h'; obtain ⟨y, hy, h'⟩ := bind_ok' h'
      simp only [Except.ok.injEq, Prod.mk.injEq] at h'
      obtain ⟨hk, rfl⟩ := h'
      exact .pairLoop hk.symm (alike_loop l hf hx _ hf' hy)
    | child => rw [Item.Faithful] at hf'; exact hf'.elim
  | .child .., hf, _, _, _, _, _, _, _ => by rw [Item.Faithful] at hf; exact hf.elim
theorem alike_loop : (l : Loop) → l.Faithful → {ln : Bool} → {v : Val} → l.val ln = .ok v →
    (l' : Loop) → l'.Faithful → {ln' : Bool} → l'.val ln' = .ok v → Loop.Same l l'
  | .mk h .none b, hf, ln, v, hv, l', hf', ln', hv' => by
    rw [Loop.Faithful] at hf
    obtain ⟨x, y, hx, hy, rfl⟩ := loop_always hv
    rcases loop_shape l' hf' hv' with ⟨h', b', x', y', rfl, e, g1, g2, hx', hy'⟩ | ⟨h', f', c', b', x', y', z', rfl, e, g1, g2, g3, g4, hx', hy', hz', hne⟩
    · cases e
      exact .always (alike_head h hf.1 hx _ g1 hx') (alike_expr b hf.2 hy _ g2 hy')
    · cases e; exact (hne rfl).elim
  | .mk h (some (.call f [c])) b, hf, ln, v, hv, l', hf', ln', hv' => by
    rw [Loop.Faithful] at hf
    obtain ⟨x, y, z, hx, hy, hz, hne, rfl⟩ := loop_if hf.2.1 hf.2.2.1 hv
    rcases loop_shape l' hf' hv' with ⟨h', b', x', y', rfl, e, g1, g2, hx', hy'⟩ | ⟨h', f', c', b', x', y', z', rfl, e, g1, g2, g3, g4, hx', hy', hz', hne'⟩
    · cases e; exact (hne rfl).elim
    · cases e
      rw [show f' = f from Subtype.ext (g2.trans hf.2.1.symm)]
      exact .filter (alike_head h hf.1 hx _ g1 hx') (alike_expr c hf.2.2.2.1 hy _ g3 hy') (alike_expr b hf.2.2.2.2 hz _ g4 hz')
  | .mk _ (some .null) _, hf, _, _, _, _, _, _, _
  | .mk _ (some .tru) _, hf, _, _, _, _, _, _, _
  | .mk _ (some .fls) _, hf, _, _, _, _, _, _, _
  | .mk _ (some (.int _)) _, hf, _, _, _, _, _, _, _
  | .mk _ (some (.ident _)) _, hf, _, _, _, _, _, _, _
  | .mk _ (some (.str _)) _, hf, _, _, _, _, _, _, _
  | .mk _ (some (.multi _)) _, hf, _, _, _, _, _, _, _
  | .mk _ (some (.array _)) _, hf, _, _, _, _, _, _, _
  | .mk _ (some (.object _)) _, hf, _, _, _, _, _, _, _
  | .mk _ (some (.bin _ _ _)) _, hf, _, _, _, _, _, _, _
  | .mk _ (some (.not _)) _, hf, _, _, _, _, _, _, _
  | .mk _ (some (.minus _)) _, hf, _, _, _, _, _, _, _
  | .mk _ (some (.cond _ _ _)) _, hf, _, _, _, _, _, _, _
  | .mk _ (some (.method _ _ _)) _, hf, _, _, _, _, _, _, _
  | .mk _ (some (.lambda _ _)) _, hf, _, _, _, _, _, _, _
  | .mk _ (some (.lambdaN _ _ _ _ _)) _, hf, _, _, _, _, _, _, _
  | .mk _ (some (.call _ [])) _, hf, _, _, _, _, _, _, _
  | .mk _ (some (.call _ (_ :: _ :: _))) _, hf, _, _, _, _, _, _, _ => by simp [Loop.Faithful] at hf
theorem alike_head : (l : LoopHead) → l.Faithful → {ln : Bool} → {v : Val} → l.val ln = .ok v →
    (l' : LoopHead) → l'.Faithful → {ln' : Bool} → l'.val ln' = .ok v → LoopHead.Same l l'
  | .arr x e, hf, ln, v, h, l', hf', ln', h' => by
    rw [LoopHead.Faithful] at hf
    rw [LoopHead.val] at h; obtain ⟨y, hy, h⟩ := bind_ok' h; cases h
    cases l' <;> rw [LoopHead.val] at h' <;> obtain ⟨z, hz, h'⟩ := bind_ok' h' <;> rw [LoopHead.Faithful] at hf' <;>
      simp only [Except.ok.injEq, Val.dict.injEq, List.cons.injEq, Prod.mk.injEq, Val.str.injEq, true_and, and_true] at h'
    case arr =>
      obtain ⟨hx, rfl⟩ := h'
      rw [Subtype.ext (txt_inj hx)]
      exact .arr (alike_expr e hf hy _ hf' hz)
    all_goals simp at h'
  | .arrIdx x i e, hf, ln, v, h, l', hf', ln', h' => by
    rw [LoopHead.Faithful] at hf
    rw [LoopHead.val] at h; obtain ⟨y, hy, h⟩ := bind_ok' h; cases h
    cases l' <;> rw [LoopHead.val] at h' <;> obtain ⟨z, hz, h'⟩ := bind_ok' h' <;> rw [LoopHead.Faithful] at hf' <;>
      simp only [Except.ok.injEq, Val.dict.injEq, List.cons.injEq, Prod.mk.injEq, Val.str.injEq, true_and, and_true] at h'
    case arrIdx =>
      obtain ⟨hx, hi, rfl⟩ := h'
      rw [Subtype.ext (txt_inj hx), Subtype.ext (txt_inj hi)]
      exact .arrIdx (alike_expr e hf hy _ hf' hz)
    all_goals simp at h'
  | .obj x e, hf, ln, v, h, l', hf', ln', h' => by
    rw [LoopHead.Faithful] at hf
    obtain ⟨y, rfl⟩ := hf
    rw [LoopHead.val, Expr.val] at h; cases h
    cases l' <;> rw [LoopHead.val] at h' <;> obtain ⟨z, hz, h'⟩ := bind_ok' h' <;> rw [LoopHead.Faithful] at hf' <;>
      simp only [Except.ok.injEq, Val.dict.injEq, List.cons.injEq, Prod.mk.injEq, Val.str.injEq, true_and, and_true] at h'
    case obj =>
      obtain ⟨y', rfl⟩ := hf'
      rw [Expr.val] at hz; cases hz
      rw [Subtype.ext (txt_inj h'.1), show y' = y from Subtype.ext (txt_inj h'.2)]
      exact .obj
    all_goals simp at h'
end

/-! ### Conversely -/

theorem text_val {e : Expr} {b : List Char} (h : e.text? = some b) (ln : Bool) : e.val ln = .ok (.str (txt b)) := by
  cases e <;> cases h <;> rw [Expr.val]

theorem funVal_sameFun {f g : FunName} (h : SameFun f g) {args : List Val} {v v' : Val}
    (h1 : FunVal (String.ofList f.1) args v) (h2 : FunVal (String.ofList g.1) args v') : v = v' := by
  rcases h with rfl | ⟨s, hs, hf, hg⟩
  · rw [← funVal_iff] at h1 h2; rw [h1] at h2; cases h2; rfl
  · have hu {x} (t : Signature) (ht : t ∈ signatures) (hx : x ∈ s.names) (hx' : x ∈ t.names) : t = s :=
      signature_unique ht hx' hs hx
    cases h1 with
    | known hs1 hf1 hr1 =>
      obtain rfl := hu _ hs1 hf hf1
      cases h2 with
      | known hs2 hf2 hr2 =>
        obtain rfl := hu _ hs2 hg hf2
        rw [hr1] at hr2; cases hr2; rfl
      | bare hs2 hf2 hr2 =>
        obtain rfl := hu _ hs2 hg hf2
        rw [hr1] at hr2; cases hr2
      | unknown hn => exact (hn _ hs hg).elim
    | bare hs1 hf1 hr1 =>
      obtain rfl := hu _ hs1 hf hf1
      cases h2 with
      | known hs2 hf2 hr2 =>
        obtain rfl := hu _ hs2 hg hf2
        rw [hr1] at hr2; cases hr2
      | bare hs2 hf2 hr2 =>
        obtain rfl := hu _ hs2 hg hf2
        rfl
      | unknown hn => exact (hn _ hs hg).elim
    | unknown hn => exact (hn _ hs hf).elim

theorem Expr.Same.method_inv {a : Expr} {f : ListName} {args : List (Option Expr)} {e' : Expr}
    (h : Expr.Same (.method a f args) e') : ∃ es a' es', args = es.map some ∧ e' = .method a' f (es'.map some) ∧
      Expr.Same a a' ∧ List.Forall₂ Expr.Same es es' := by
  generalize he : Expr.method a f args = e at h
  cases h <;> cases he
  case text => simp_all [Expr.text?]
  case method h1 h2 => exact ⟨_, _, _, rfl, rfl, ‹_›, ‹_›⟩

theorem Expr.Same.lambda_inv {x e e' : Expr} (h : Expr.Same (.lambda x e) e') :
    ∃ y b', x = .ident y ∧ e' = .lambda (.ident y) b' ∧ Expr.Same e b' := by
  generalize he : Expr.lambda x e = e at h
  cases h <;> cases he
  case text => simp_all [Expr.text?]
  case lambda h => exact ⟨_, _, rfl, rfl, h⟩

theorem Expr.Same.lambdaN_inv {x1 x2 x3 e e' : Expr} {xs : List Expr} (h : Expr.Same (.lambdaN x1 x2 x3 xs e) e') :
    ∃ b', (∀ x ∈ x1 :: x2 :: x3 :: xs, ∃ y, x = .ident y) ∧ e' = .lambdaN x1 x2 x3 xs b' ∧ Expr.Same e b' := by
  generalize he : Expr.lambdaN x1 x2 x3 xs e = e at h
  cases h <;> cases he
  case text => simp_all [Expr.text?]
  case lambdaN h => exact ⟨_, by
    intro x hx
    simp only [List.mem_cons, List.mem_map] at hx
    rcases hx with rfl | rfl | rfl | ⟨y, _, rfl⟩ <;> exact ⟨_, rfl⟩, rfl, h⟩

theorem ident_vals_eq {ln ln' : Bool} {xs : List Expr} (h : ∀ x ∈ xs, ∃ y, x = .ident y) :
    Expr.vals ln xs = Expr.vals ln' xs := by
  obtain ⟨ys, rfl⟩ := idents_of h
  rw [identVals, identVals]

theorem ident_val_eq {ln ln' : Bool} {x : Expr} (h : ∃ y, x = .ident y) : x.val ln = x.val ln' := by
  obtain ⟨y, rfl⟩ := h
  rw [Expr.val, Expr.val]

mutual
theorem val_same : (e : Expr) → {e' : Expr} → e.Same e' → {ln ln' : Bool} → {v v' : Val} → e.val ln = .ok v →
    e'.val ln' = .ok v' → v = v'
  | .null, e', hs, ln, ln', v, v', h, h' => by
    cases hs with
    | null => rw [Expr.val] at h h'; cases h; cases h'; rfl
    | text ht => cases ht
  | .tru, e', hs, ln, ln', v, v', h, h' => by
    cases hs with
    | tru => rw [Expr.val] at h h'; cases h; cases h'; rfl
    | text ht => cases ht
  | .fls, e', hs, ln, ln', v, v', h, h' => by
    cases hs with
    | fls => rw [Expr.val] at h h'; cases h; cases h'; rfl
    | text ht => cases ht
  | .int d, e', hs, ln, ln', v, v', h, h' => by
    cases hs with
    | int hd => rw [Expr.val] at h h'; split at h <;> cases h; split at h' <;> cases h'; rw [hd]
    | text ht => cases ht
  | .ident x, e', hs, ln, ln', v, v', h, h' => by
    cases hs with
    | ident => rw [Expr.val] at h h'; cases h; cases h'; rfl
    | text ht => cases ht
  | .str b, e', hs, ln, ln', v, v', h, h' => by
    cases hs with
    | text ht ht' => rw [text_val ht] at h; rw [text_val ht'] at h'; cases h; cases h'; rfl
  | .multi b, e', hs, ln, ln', v, v', h, h' => by
    cases hs with
    | text ht ht' => rw [text_val ht] at h; rw [text_val ht'] at h'; cases h; cases h'; rfl
  | .array es, e', hs, ln, ln', v, v', h, h' => by
    cases hs with
    | array hs =>
      rw [Expr.val] at h h'
      obtain ⟨_, h1, h⟩ := bind_ok' h; obtain ⟨_, h2, h'⟩ := bind_ok' h'; cases h; cases h'
      rw [vals_same es hs h1 h2]
    | text ht => cases ht
  | .object is, e', hs, ln, ln', v, v', h, h' => by
    cases hs with
    | object hs =>
      rw [Expr.val] at h h'
      obtain ⟨_, h1, h⟩ := bind_ok' h; obtain ⟨_, h2, h'⟩ := bind_ok' h'; cases h; cases h'
      rw [itemVals_same is hs h1 h2]
    | text ht => cases ht
  | .call f es, e', hs, ln, ln', v, v', h, h' => by
    cases hs with
    | call hf hs =>
      rw [Expr.val] at h h'
      obtain ⟨_, h1, h⟩ := bind_ok' h; obtain ⟨_, h2, h'⟩ := bind_ok' h'
      obtain ⟨_, h3, h⟩ := bind_ok' h; obtain ⟨_, h4, h'⟩ := bind_ok' h'
      cases h; cases h'
      obtain rfl := vals_same es hs h1 h2
      rw [funVal_sameFun hf (funVal_iff.mp (inRule_ok h3)) (funVal_iff.mp (inRule_ok h4))]
    | text ht => cases ht
  | .bin op a b, e', hs, ln, ln', v, v', h, h' => by
    cases hs with
    | bin ha hb =>
      rw [Expr.val] at h h'
      obtain ⟨_, h1, h⟩ := bind_ok' h; obtain ⟨_, h2, h'⟩ := bind_ok' h'
      obtain ⟨_, h3, h⟩ := bind_ok' h; obtain ⟨_, h4, h'⟩ := bind_ok' h'
      cases h; cases h'
      rw [val_same a ha h1 h2, val_same b hb h3 h4]
    | text ht => cases ht
  | .not a, e', hs, ln, ln', v, v', h, h' => by
    cases hs with
    | not ha =>
      rw [Expr.val] at h h'
      obtain ⟨_, h1, h⟩ := bind_ok' h; obtain ⟨_, h2, h'⟩ := bind_ok' h'
      cases h; cases h'
      rw [val_same a ha h1 h2]
    | text ht => cases ht
  | .minus a, e', hs, ln, ln', v, v', h, h' => by
    cases hs with
    | minus ha =>
      rw [Expr.val] at h h'
      obtain ⟨_, h1, h⟩ := bind_ok' h; obtain ⟨_, h2, h'⟩ := bind_ok' h'
      cases h; cases h'
      rw [val_same a ha h1 h2]
    | text ht => cases ht
  | .cond a b c, e', hs, ln, ln', v, v', h, h' => by
    cases hs with
    | cond ha hb hc =>
      rw [Expr.val] at h h'
      obtain ⟨_, h1, h⟩ := bind_ok' h; obtain ⟨_, h2, h'⟩ := bind_ok' h'
      obtain ⟨_, h3, h⟩ := bind_ok' h; obtain ⟨_, h4, h'⟩ := bind_ok' h'
      obtain ⟨_, h5, h⟩ := bind_ok' h; obtain ⟨_, h6, h'⟩ := bind_ok' h'
      cases h; cases h'
      rw [val_same a ha h1 h2, val_same b hb h3 h4, val_same c hc h5 h6]
    | text ht => cases ht
  | .method a f args, e', hs, ln, ln', v, v', h, h' => by
    obtain ⟨es, a', es', hargs, rfl, ha, hes⟩ := hs.method_inv
    rw [Expr.val] at h h'
    obtain ⟨_, h1, h⟩ := bind_ok' h; obtain ⟨_, h2, h'⟩ := bind_ok' h'
    obtain ⟨_, h3, h⟩ := bind_ok' h; obtain ⟨_, h4, h'⟩ := bind_ok' h'
    cases h; cases h'
    rw [val_same a ha h1 h2, optVals_same args hargs hes h3 h4]
  | .lambda x e, e', hs, ln, ln', v, v', h, h' => by
    obtain ⟨y, b', hx, rfl, hb⟩ := hs.lambda_inv
    rw [Expr.val] at h h'
    obtain ⟨_, h1, h⟩ := bind_ok' h; obtain ⟨_, h2, h'⟩ := bind_ok' h'
    obtain ⟨_, h3, h⟩ := bind_ok' h; obtain ⟨_, h4, h'⟩ := bind_ok' h'
    cases h; cases h'
    rw [hx, Expr.val] at h1; rw [Expr.val] at h2; cases h1; cases h2
    rw [val_same e hb h3 h4]
  | .lambdaN x1 x2 x3 xs e, e', hs, ln, ln', v, v', h, h' => by
    obtain ⟨b', hx, rfl, hb⟩ := hs.lambdaN_inv
    rw [Expr.val] at h h'
    obtain ⟨y1, h1, h⟩ := bind_ok' h; obtain ⟨_, g1, h'⟩ := bind_ok' h'
    obtain ⟨y2, h2, h⟩ := bind_ok' h; obtain ⟨_, g2, h'⟩ := bind_ok' h'
    obtain ⟨y3, h3, h⟩ := bind_ok' h; obtain ⟨_, g3, h'⟩ := bind_ok' h'
    obtain ⟨ys, h4, h⟩ := bind_ok' h; obtain ⟨_, g4, h'⟩ := bind_ok' h'
    obtain ⟨b, h5, h⟩ := bind_ok' h; obtain ⟨_, g5, h'⟩ := bind_ok' h'
    cases h; cases h'
    rw [ident_val_eq (ln' := ln) (hx _ (by simp))] at g1 g2 g3
    rw [ident_vals_eq (ln' := ln) (fun x h => hx x (by simp [h]))] at g4
    rw [g1] at h1; rw [g2] at h2; rw [g3] at h3; rw [g4] at h4
    cases h1; cases h2; cases h3; cases h4
    rw [val_same e hb h5 g5]
theorem vals_same : (es : List Expr) → {es' : List Expr} → List.Forall₂ Expr.Same es es' → {ln ln' : Bool} →
    {vs vs' : List Val} → Expr.vals ln es = .ok vs → Expr.vals ln' es' = .ok vs' → vs = vs'
  | [], es', hs, ln, ln', vs, vs', h, h' => by
    cases hs; rw [Expr.vals] at h h'; cases h; cases h'; rfl
  | e :: es, es', hs, ln, ln', vs, vs', h, h' => by
    cases hs with
    | cons hs1 hs2 =>
      rw [Expr.vals] at h h'
      obtain ⟨_, h1, h⟩ := bind_ok' h; obtain ⟨_, h2, h'⟩ := bind_ok' h'
      obtain ⟨_, h3, h⟩ := bind_ok' h; obtain ⟨_, h4, h'⟩ := bind_ok' h'
      cases h; cases h'
      rw [val_same e hs1 h1 h2, vals_same es hs2 h3 h4]
theorem optVals_same : (args : List (Option Expr)) → {es es' : List Expr} → args = es.map some →
    List.Forall₂ Expr.Same es es' → {ln ln' : Bool} → {vs vs' : List Val} → Expr.optVals ln args = .ok vs →
    Expr.optVals ln' (es'.map some) = .ok vs' → vs = vs'
  | [], es, es', he, hs, ln, ln', vs, vs', h, h' => by
    cases es with
    | nil => cases hs; rw [List.map_nil] at h'; rw [Expr.optVals] at h h'; cases h; cases h'; rfl
    | cons => cases he
  | .none :: args, es, es', he, hs, ln, ln', vs, vs', h, h' => by
    cases es <;> cases he
  | some e :: args, es, es', he, hs, ln, ln', vs, vs', h, h' => by
    cases es with
    | nil => cases he
    | cons e1 es =>
      simp only [List.map_cons, List.cons.injEq, Option.some.injEq] at he
      cases hs with
      | cons hs1 hs2 =>
        rw [List.map_cons] at h'
        rw [Expr.optVals, Expr.optVal] at h h'
        obtain ⟨_, h1, h⟩ := bind_ok' h; obtain ⟨_, h2, h'⟩ := bind_ok' h'
        obtain ⟨_, h3, h⟩ := bind_ok' h; obtain ⟨_, h4, h'⟩ := bind_ok' h'
        cases h; cases h'
        rw [← he.1] at hs1
        rw [val_same e hs1 h1 h2, optVals_same args he.2 hs2 h3 h4]
theorem itemVals_same : (is : List Item) → {is' : List Item} → List.Forall₂ Item.Same is is' → {ln ln' : Bool} →
    {ps ps' : List (String × Val)} → Item.vals ln is = .ok ps → Item.vals ln' is' = .ok ps' → ps = ps'
  | [], es', hs, ln, ln', vs, vs', h, h' => by
    cases hs; rw [Item.vals] at h h'; cases h; cases h'; rfl
  | e :: es, es', hs, ln, ln', vs, vs', h, h' => by
    cases hs with
    | cons hs1 hs2 =>
      rw [Item.vals] at h h'
      obtain ⟨_, h1, h⟩ := bind_ok' h; obtain ⟨_, h2, h'⟩ := bind_ok' h'
      obtain ⟨_, h3, h⟩ := bind_ok' h; obtain ⟨_, h4, h'⟩ := bind_ok' h'
      cases h; cases h'
      rw [itemVal_same e hs1 h1 h2, itemVals_same es hs2 h3 h4]
theorem itemVal_same : (i : Item) → {i' : Item} → i.Same i' → {ln ln' : Bool} → {p p' : String × Val} →
    i.val ln = .ok p → i'.val ln' = .ok p' → p = p'
  | .pair k e, i', hs, ln, ln', v, v', h, h' => by
    cases hs with
    | pair hk hs =>
      rw [Item.val] at h h'
      obtain ⟨_, h1, h⟩ := bind_ok' h; obtain ⟨_, h2, h'⟩ := bind_ok' h'
      cases h; cases h'
      rw [hk, val_same e hs h1 h2]
  | .pairLoop k l, i', hs, ln, ln', v, v', h, h' => by
    cases hs with
    | pairLoop hk hs =>
      rw [Item.val] at h h'
      obtain ⟨_, h1, h⟩ := bind_ok' h; obtain ⟨_, h2, h'⟩ := bind_ok' h'
      cases h; cases h'
      rw [hk, loopVal_same l hs h1 h2]
  | .child .., i', hs, _, _, _, _, _, _ => by cases hs
theorem loopVal_same : (l : Loop) → {l' : Loop} → l.Same l' → {ln ln' : Bool} → {v v' : Val} →
    l.val ln = .ok v → l'.val ln' = .ok v' → v = v'
  | .mk h c b, l', hs, ln, ln', v, v', hv, hv' => by
    cases hs with
    | always hh hb =>
      rw [Loop.val] at hv hv'
      obtain ⟨_, h1, hv⟩ := bind_ok' hv; obtain ⟨_, g1, hv'⟩ := bind_ok' hv'
      obtain ⟨_, h2, hv⟩ := bind_ok' hv; obtain ⟨_, g2, hv'⟩ := bind_ok' hv'
      obtain ⟨_, h3, hv⟩ := bind_ok' hv; obtain ⟨_, g3, hv'⟩ := bind_ok' hv'
      obtain ⟨_, h4, hv⟩ := bind_ok' hv; obtain ⟨_, g4, hv'⟩ := bind_ok' hv'
      rw [Expr.optVal] at h2 g2
      cases hv; cases hv'; cases h2; cases g2
      rw [h4] at g4; cases g4
      rw [headVal_same h hh h1 g1, val_same b hb h3 g3]
    | @filter _ f c _ _ c' _ hh hc hb =>
      rw [Loop.val] at hv hv'
      obtain ⟨_, h1, hv⟩ := bind_ok' hv; obtain ⟨_, g1, hv'⟩ := bind_ok' hv'
      obtain ⟨_, h2, hv⟩ := bind_ok' hv; obtain ⟨_, g2, hv'⟩ := bind_ok' hv'
      obtain ⟨_, h3, hv⟩ := bind_ok' hv; obtain ⟨_, g3, hv'⟩ := bind_ok' hv'
      obtain ⟨_, h4, hv⟩ := bind_ok' hv; obtain ⟨_, g4, hv'⟩ := bind_ok' hv'
      rw [Expr.optVal] at h2 g2
      cases hv; cases hv'
      obtain rfl := val_same (.call f [c]) (.call (.inl rfl) (.cons hc .nil)) h2 g2
      rw [h4] at g4; cases g4
      rw [headVal_same h hh h1 g1, val_same b hb h3 g3]
theorem headVal_same : (l : LoopHead) → {l' : LoopHead} → l.Same l' → {ln ln' : Bool} → {v v' : Val} →
    l.val ln = .ok v → l'.val ln' = .ok v' → v = v'
  | .arr x e, l', hs, ln, ln', v, v', h, h' => by
    cases hs with
    | arr hs =>
      rw [LoopHead.val] at h h'
      obtain ⟨_, h1, h⟩ := bind_ok' h; obtain ⟨_, h2, h'⟩ := bind_ok' h'
      cases h; cases h'
      rw [val_same e hs h1 h2]
  | .arrIdx x i e, l', hs, ln, ln', v, v', h, h' => by
    cases hs with
    | arrIdx hs =>
      rw [LoopHead.val] at h h'
      obtain ⟨_, h1, h⟩ := bind_ok' h; obtain ⟨_, h2, h'⟩ := bind_ok' h'
      cases h; cases h'
      rw [val_same e hs h1 h2]
  | .obj x e, l', hs, ln, ln', v, v', h, h' => by
    cases hs with
    | obj =>
      rw [LoopHead.val, Expr.val] at h h'
      cases h; cases h'; rfl
end

end Pycep
