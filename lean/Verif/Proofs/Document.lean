import Verif.Spec.Document
import Verif.Props.Faithful
import Verif.Props.Funcs
import Verif.Props.Decls
import Verif.Props.Join
/-
What is reported about a declaration determines the declaration.
-/
namespace Pycep

/-! ### Decorators -/

/-- the type a decorator is reported as -/
def decoLabel (x : String) : String :=
  ((carriers ++ flags.map (fun n => (n, n)) ++ [("minValue", "min_value"), ("maxValue", "max_value")]).find?
    (fun p => x ∈ decoNames p.1)).elim x Prod.snd

theorem decoLabel_known : ∀ n ∈ knownDecos, ∀ x ∈ decoNames n, ∀ m ∈ knownDecos, ∀ y ∈ decoNames m,
    decoLabel x = decoLabel y ↔ n = m := by decide +kernel

theorem decoLabel_unknown {x : String} (h : ∀ n ∈ knownDecos, x ∉ decoNames n) : decoLabel x = x := by
  unfold decoLabel
  rw [List.find?_eq_none.mpr]
  · rfl
  · intro p hp
    simp only [decide_eq_true_eq]
    refine h _ ?_
    have : ∀ p ∈ carriers ++ flags.map (fun n => (n, n)) ++ [("minValue", "min_value"), ("maxValue", "max_value")],
        p.1 ∈ knownDecos := by decide +kernel
    exact this p hp

theorem decoLabel_clash {n : String} (hn : n ∈ knownDecos) {x : String} (hx : x ∈ decoNames n) {y : DecoName}
    (hy : ∀ m ∈ knownDecos, String.ofList y.1 ∉ decoNames m) : decoLabel x ≠ String.ofList y.1 := by
  have key : ∀ n ∈ knownDecos, ∀ x ∈ decoNames n, (∃ m ∈ knownDecos, decoLabel x ∈ decoNames m) ∨
      ('_' ∈ (decoLabel x).toList ∧ ¬ "sys.".toList.isPrefixOf (decoLabel x).toList) := by decide +kernel
  intro e
  rcases key n hn x hx with ⟨m, hm, hxm⟩ | ⟨hu, hs⟩
  · exact hy m hm (e ▸ hxm)
  · rw [e, String.toList_ofList] at hu hs
    obtain ⟨p, z, hyz, hp, _, hz⟩ := y.2
    have : '_' ∈ p ++ z := hyz ▸ hu
    rcases List.mem_append.mp this with h | h
    · rcases hp with rfl | rfl
      · cases h
      · revert h; decide
    · have := hz _ h
      revert this; decide

theorem decoLabel_iff {x y : DecoName} :
    decoLabel (String.ofList x.1) = decoLabel (String.ofList y.1) ↔ SameDeco x y := by
  by_cases hx : ∃ n ∈ knownDecos, String.ofList x.1 ∈ decoNames n
  · obtain ⟨n, hn, hx⟩ := hx
    by_cases hy : ∃ m ∈ knownDecos, String.ofList y.1 ∈ decoNames m
    · obtain ⟨m, hm, hy⟩ := hy
      rw [decoLabel_known n hn _ hx m hm _ hy]
      constructor
      · rintro rfl
        exact .inr ⟨n, hn, hx, hy⟩
      · rintro (rfl | ⟨k, hk, hxk, hyk⟩)
        · exact (decoLabel_known n hn _ hx m hm _ hy).mp rfl
        · exact ((decoLabel_known n hn _ hx k hk _ hxk).mp rfl).trans
            ((decoLabel_known k hk _ hyk m hm _ hy).mp rfl)
    · have hy' : ∀ m ∈ knownDecos, String.ofList y.1 ∉ decoNames m := fun m hm h => hy ⟨m, hm, h⟩
      rw [decoLabel_unknown hy']
      refine ⟨fun e => (decoLabel_clash hn hx hy' e).elim, ?_⟩
      rintro (rfl | ⟨k, hk, _, h⟩)
      · exact (hy' n hn hx).elim
      · exact (hy' k hk h).elim
  · have hx' : ∀ m ∈ knownDecos, String.ofList x.1 ∉ decoNames m := fun m hm h => hx ⟨m, hm, h⟩
    rw [decoLabel_unknown hx']
    by_cases hy : ∃ m ∈ knownDecos, String.ofList y.1 ∈ decoNames m
    · obtain ⟨m, hm, hy⟩ := hy
      refine ⟨fun e => (decoLabel_clash hm hy hx' e.symm).elim, ?_⟩
      rintro (rfl | ⟨k, hk, h, _⟩)
      · exact (hx' m hm hy).elim
      · exact (hx' k hk h).elim
    · have hy' : ∀ m ∈ knownDecos, String.ofList y.1 ∉ decoNames m := fun m hm h => hy ⟨m, hm, h⟩
      rw [decoLabel_unknown hy']
      constructor
      · intro e; exact .inl (Subtype.ext (String.ofList_injective e))
      · rintro (rfl | ⟨k, hk, h, _⟩)
        · rfl
        · exact (hx' k hk h).elim

/-- what is reported about the argument of a faithful decorator -/
inductive DecoArg (ln : Bool) (x : String) : Option Expr → List (String × Val) → Prop where
  | none : DecoArg ln x .none []
  | plain {e a} : x ∉ decoNames "minValue" → x ∉ decoNames "maxValue" → e.Faithful → e.val ln = .ok a →
      DecoArg ln x (some e) [("argument", a)]
  | int {n : Digits} : x ∈ decoNames "minValue" ∨ x ∈ decoNames "maxValue" →
      DecoArg ln x (some (.int n)) [("argument", .int (decimal n.1))]
  | neg {n : Digits} : x ∈ decoNames "minValue" → decimal n.1 ≠ 0 →
      DecoArg ln x (some (.minus (.int n))) [("argument", .int (-(decimal n.1 : Int)))]

theorem deco_form {ln : Bool} {d : Deco} {v : Val} (hf : d.Faithful) (h : d.val ln = .ok v) :
    ∃ ps, DecoArg ln (String.ofList d.name.1) d.arg ps ∧
      v = .dict (("type", .str (decoLabel (String.ofList d.name.1))) :: ps) := by
  obtain ⟨name, arg⟩ := d
  obtain ⟨h1, h2, h3, h4⟩ := hf
  simp only at h1 h2 h3 h4 ⊢
  have hcar : ∀ p ∈ carriers, ∀ x ∈ decoNames p.1, decoLabel x = p.2 ∧ x ∉ decoNames "minValue" ∧
      x ∉ decoNames "maxValue" := by decide +kernel
  have hflag : ∀ p ∈ flags, ∀ x ∈ decoNames p, decoLabel x = p := by decide +kernel
  have hmin : ∀ x ∈ decoNames "minValue", decoLabel x = "min_value" := by decide +kernel
  have hmax : ∀ x ∈ decoNames "maxValue", decoLabel x = "max_value" := by decide +kernel
  have hcases : (∃ p ∈ carriers, String.ofList name.1 ∈ decoNames p.1) ∨ (∃ p ∈ flags, String.ofList name.1 ∈ decoNames p) ∨
      String.ofList name.1 ∈ decoNames "minValue" ∨ String.ofList name.1 ∈ decoNames "maxValue" ∨
      ∀ n ∈ knownDecos, String.ofList name.1 ∉ decoNames n := by
    by_cases hk : ∃ n ∈ knownDecos, String.ofList name.1 ∈ decoNames n
    · obtain ⟨n, hn, hx⟩ := hk
      simp only [knownDecos, List.mem_append, List.mem_map, List.mem_cons, List.not_mem_nil, or_false] at hn
      rcases hn with (⟨p, hp, rfl⟩ | hn) | rfl | rfl
      · exact .inl ⟨p, hp, hx⟩
      · exact .inr (.inl ⟨n, hn, hx⟩)
      · exact .inr (.inr (.inl hx))
      · exact .inr (.inr (.inr (.inl hx)))
    · exact .inr (.inr (.inr (.inr (fun m hm h => hk ⟨m, hm, h⟩))))
  rcases hcases with ⟨p, hp, hx⟩ | ⟨p, hp, hx⟩ | hx | hx | hx
  · cases arg with
    | none =>
      exfalso
      unfold Deco.val at h
      simp only [bind, Except.bind] at h
      have h := inRule_ok h
      have key : ∀ p ∈ carriers, ∀ x ∈ decoNames p.1, (Decorators.getDecorator x x []).isOk = false := by decide +kernel
      have := key p hp _ hx
      rw [txt] at h
      rw [h] at this
      cases this
    | some e =>
      obtain ⟨a, ha, hz⟩ := deco_at_some h
      obtain ⟨g1, g2, g3⟩ := hcar p hp _ hx
      rw [hz _ (.carrier hp hx), g1]
      exact ⟨_, .plain g2 g3 (h4 e rfl) ha, rfl⟩
  · obtain rfl := h1 p hp hx
    rw [deco_at_none h (.flag hp hx), hflag p hp _ hx]
    exact ⟨_, .none, rfl⟩
  · rw [hmin _ hx]
    obtain ⟨n, rfl | ⟨rfl, hn⟩⟩ := h2 hx
    · obtain ⟨a, ha, hz⟩ := deco_at_some h
      rw [Expr.val] at ha; split at ha <;> cases ha
      rw [hz _ (.minValue hx (by simp))]
      exact ⟨_, .int (.inl hx), rfl⟩
    · obtain ⟨a, ha, hz⟩ := deco_at_some h
      rw [Expr.val, Expr.val] at ha
      obtain ⟨b, hb, ha⟩ := bind_ok' ha
      split at hb <;> cases hb
      cases ha
      rw [hz _ (.minNegative hx)]
      exact ⟨_, .neg hx hn, rfl⟩
  · rw [hmax _ hx]
    obtain ⟨n, rfl⟩ := h3 hx
    obtain ⟨a, ha, hz⟩ := deco_at_some h
    rw [Expr.val] at ha; split at ha <;> cases ha
    rw [hz _ (.maxValue hx)]
    exact ⟨_, .int (.inr hx), rfl⟩
  · rw [decoLabel_unknown hx]
    cases arg with
    | none =>
      rw [deco_at_none h (.unknownBare hx)]
      exact ⟨_, .none, rfl⟩
    | some e =>
      obtain ⟨a, ha, hz⟩ := deco_at_some h
      rw [hz _ (.unknown hx)]
      exact ⟨_, .plain (hx _ (by decide)) (hx _ (by decide)) (h4 e rfl) ha, rfl⟩

theorem sameDeco_mem {x y : DecoName} (h : SameDeco x y) {n : String} (hn : n ∈ knownDecos) :
    String.ofList x.1 ∈ decoNames n ↔ String.ofList y.1 ∈ decoNames n := by
  rcases h with rfl | ⟨k, hk, hx, hy⟩
  · rfl
  · constructor
    · intro h
      rw [← (decoLabel_known k hk _ hx n hn _ h).mp rfl]; exact hy
    · intro h
      rw [← (decoLabel_known k hk _ hy n hn _ h).mp rfl]; exact hx

theorem digits_same {n m : Digits} : Expr.Same (.int n) (.int m) ↔ decimal n.1 = decimal m.1 := by
  constructor
  · intro h
    cases h with
    | int h => exact h
    | text h _ => cases h
  · exact .int

theorem decoArg_iff {ln : Bool} {x y : DecoName} {a b : Option Expr} {ps qs : List (String × Val)}
    (h : DecoArg ln (String.ofList x.1) a ps) (h' : DecoArg ln (String.ofList y.1) b qs) (hs : SameDeco x y) :
    ps = qs ↔ SameOpt a b := by
  have hmin := sameDeco_mem hs (n := "minValue") (by decide)
  have hmax := sameDeco_mem hs (n := "maxValue") (by decide)
  cases h with
  | none =>
    cases h' with
    | none => exact ⟨fun _ => .none, fun _ => rfl⟩
    | plain | int | neg => exact ⟨fun e => by (cases e), fun e => by (cases e)⟩
  | plain h1 h2 hf hv =>
    rw [hmin] at h1
    rw [hmax] at h2
    cases h' with
    | none => exact ⟨fun e => by (cases e), fun e => by (cases e)⟩
    | plain _ _ hf' hv' =>
      simp only [List.cons.injEq, Prod.mk.injEq, true_and, and_true]
      constructor
      · rintro rfl; exact .some (alike_expr _ hf hv _ hf' hv')
      · rintro (_ | h); exact val_same _ h hv hv'
    | int g => exact (g.elim h1 h2).elim
    | neg g => exact (h1 g).elim
  | @int n h1 =>
    rw [hmin, hmax] at h1
    cases h' with
    | none => exact ⟨fun e => by (cases e), fun e => by (cases e)⟩
    | plain g1 g2 => exact (h1.elim g1 g2).elim
    | @int m =>
      simp only [List.cons.injEq, Prod.mk.injEq, true_and, and_true, Val.int.injEq, Int.ofNat_inj]
      rw [← digits_same]
      exact ⟨.some, fun h => by cases h; assumption⟩
    | @neg m _ hm =>
      constructor
      · intro e
        simp only [List.cons.injEq, Prod.mk.injEq, true_and, and_true, Val.int.injEq] at e
        omega
      · rintro (_ | h)
        cases h with
        | text h => cases h
  | @neg n h1 hn =>
    rw [hmin] at h1
    cases h' with
    | none => exact ⟨fun e => by (cases e), fun e => by (cases e)⟩
    | plain g1 => exact (g1 h1).elim
    | @int m =>
      constructor
      · intro e
        simp only [List.cons.injEq, Prod.mk.injEq, true_and, and_true, Val.int.injEq] at e
        omega
      · rintro (_ | h)
        cases h with
        | text h => cases h
    | @neg m _ hm =>
      simp only [List.cons.injEq, Prod.mk.injEq, true_and, and_true, Val.int.injEq, Int.neg_inj, Int.ofNat_inj]
      rw [← digits_same]
      constructor
      · exact fun h => .some (.minus h)
      · rintro (_ | h)
        cases h with
        | text h => cases h
        | minus h => exact h

theorem deco_same_iff {ln : Bool} {d d' : Deco} {v v' : Val} (hf : d.Faithful) (hf' : d'.Faithful)
    (h : d.val ln = .ok v) (h' : d'.val ln = .ok v') : v = v' ↔ d.Same d' := by
  obtain ⟨ps, h1, rfl⟩ := deco_form hf h
  obtain ⟨qs, h2, rfl⟩ := deco_form hf' h'
  simp only [Val.dict.injEq, List.cons.injEq, Prod.mk.injEq, true_and, Val.str.injEq]
  rw [decoLabel_iff, Deco.Same]
  constructor
  · rintro ⟨hs, e⟩
    exact ⟨hs, (decoArg_iff h1 h2 hs).mp e⟩
  · rintro ⟨hs, e⟩
    exact ⟨hs, (decoArg_iff h1 h2 hs).mpr e⟩

theorem decos_same_iff {ln : Bool} : ∀ {ds ds' : List Deco} {vs vs' : List Val}, (∀ d ∈ ds, d.Faithful) →
    (∀ d ∈ ds', d.Faithful) → decoVals ln ds = .ok vs → decoVals ln ds' = .ok vs' →
    (vs = vs' ↔ List.Forall₂ Deco.Same ds ds')
  | [], [], vs, vs', _, _, h, h' => by
    rw [decoVals] at h h'; cases h; cases h'
    exact ⟨fun _ => .nil, fun _ => rfl⟩
  | [], d :: ds, vs, vs', _, _, h, h' => by
    rw [decoVals] at h; cases h; rw [decoVals] at h'
    obtain ⟨_, _, h'⟩ := bind_ok' h'; obtain ⟨_, _, h'⟩ := bind_ok' h'; cases h'
    exact ⟨fun e => by (cases e), fun e => by (cases e)⟩
  | d :: ds, [], vs, vs', _, _, h, h' => by
    rw [decoVals] at h'; cases h'; rw [decoVals] at h
    obtain ⟨_, _, h⟩ := bind_ok' h; obtain ⟨_, _, h⟩ := bind_ok' h; cases h
    exact ⟨fun e => by (cases e), fun e => by (cases e)⟩
  | d :: ds, d' :: ds', vs, vs', hf, hf', h, h' => by
    rw [decoVals] at h h'
    obtain ⟨x, hx, h⟩ := bind_ok' h; obtain ⟨xs, hxs, h⟩ := bind_ok' h; cases h
    obtain ⟨y, hy, h'⟩ := bind_ok' h'; obtain ⟨ys, hys, h'⟩ := bind_ok' h'; cases h'
    rw [List.cons.injEq, List.forall₂_cons, deco_same_iff (hf d (by simp)) (hf' d' (by simp)) hx hy,
      decos_same_iff (fun e he => hf e (by simp [he])) (fun e he => hf' e (by simp [he])) hxs hys]

/-! ### Values and bodies -/

theorem loopOrExpr_same_iff {ln : Bool} {e e' : LoopOrExpr} {v v' : Val} (hf : e.Faithful) (hf' : e'.Faithful)
    (h : e.val ln = .ok v) (h' : e'.val ln = .ok v') : v = v' ↔ e.Same e' := by
  constructor
  · rintro rfl
    cases e with
    | expr e =>
      cases e' with
      | expr e' => exact .expr (alike_expr e hf h e' hf' h')
      | loop l => exact (expr_ne_loop hf h h').elim
    | loop l =>
      cases e' with
      | expr e' => exact (expr_ne_loop hf' h' h).elim
      | loop l' => exact .loop (alike_loop l hf h l' hf' h')
  · intro hs
    cases hs with
    | expr hs => exact val_same _ hs h h'
    | loop hs => exact loopVal_same _ hs h h'

theorem items_keys {ln : Bool} : ∀ {is : List Item} {ps : List (String × Val)}, Item.FaithfulAll is →
    Item.vals ln is = .ok ps → ps.map Prod.fst = is.map Item.key
  | [], _, _, h => by rw [Item.vals] at h; cases h; rfl
  | i :: is, _, hf, h => by
    rw [Item.vals] at h; obtain ⟨x, hx, h⟩ := bind_ok' h; obtain ⟨xs, hxs, h⟩ := bind_ok' h; cases h
    rw [Item.FaithfulAll] at hf
    rw [List.map_cons, List.map_cons, items_keys hf.2 hxs]
    congr 1
    cases i with
    | pair | pairLoop => rw [Item.val] at hx; obtain ⟨_, _, hx⟩ := bind_ok' hx; cases hx; rfl
    | child => rw [Item.Faithful] at hf; exact hf.1.elim

theorem items_same_iff {ln : Bool} {is is' : List Item} {ps ps' : List (String × Val)} (hf : Item.FaithfulAll is)
    (hf' : Item.FaithfulAll is') (h : Item.vals ln is = .ok ps) (h' : Item.vals ln is' = .ok ps') :
    ps = ps' ↔ List.Forall₂ Item.Same is is' := by
  constructor
  · rintro rfl; exact alike_items is hf h is' hf' h'
  · intro hs; exact itemVals_same is hs h h'

theorem configObj_val {ln : Bool} {is : List Item} {v : Val} (hn : (is.map Item.key).Nodup) (hf : Item.FaithfulAll is)
    (h : Config.val ln (.obj is) = .ok v) : ∃ ps, Item.vals ln is = .ok ps ∧ v = .dict ps ∧
      ps.map Prod.fst = is.map Item.key := by
  rw [Config.val] at h
  obtain ⟨ps, hps, h⟩ := bind_ok' h
  cases h
  have hk := items_keys hf hps
  exact ⟨ps, hps, by rw [lastWins_of_nodup (hk ▸ hn)], hk⟩

theorem configCond_val {ln : Bool} {c e : Expr} {v : Val} (h : Config.val ln (.cond c e) = .ok v) :
    ∃ x y, c.val ln = .ok x ∧ e.val ln = .ok y ∧ v = .dict [("condition", x), ("config", y)] := by
  rw [Config.val] at h
  obtain ⟨x, hx, h⟩ := bind_ok' h; obtain ⟨y, hy, h⟩ := bind_ok' h; cases h
  exact ⟨x, y, hx, hy, rfl⟩

theorem config_same_iff {ln : Bool} {c c' : Config} {v v' : Val} (hf : c.Faithful) (hf' : c'.Faithful)
    (h : c.val ln = .ok v) (h' : c'.val ln = .ok v') : v = v' ↔ c.Same c' := by
  cases c with
  | obj is =>
    obtain ⟨f1, f2, f3, f4⟩ := hf
    obtain ⟨ps, hps, rfl, hk⟩ := configObj_val f1 f4 h
    cases c' with
    | obj is' =>
      obtain ⟨g1, g2, g3, g4⟩ := hf'
      obtain ⟨qs, hqs, rfl, hk'⟩ := configObj_val g1 g4 h'
      rw [Val.dict.injEq, items_same_iff f4 g4 hps hqs]
      exact ⟨.obj, fun h => by cases h; assumption⟩
    | loop l =>
      rw [Config.val] at h'
      obtain ⟨_, _, _, rfl⟩ := loop_form h'
      refine ⟨fun e => ?_, fun e => by (cases e)⟩
      cases e
      exact (f2 (by rw [← hk]; simp [reservedKeys])).elim
    | cond c e =>
      obtain ⟨_, _, _, _, rfl⟩ := configCond_val h'
      refine ⟨fun e => ?_, fun e => by (cases e)⟩
      cases e
      exact (f3 (by rw [← hk]; simp)).elim
  | loop l =>
    rw [Config.val] at h
    cases c' with
    | obj is' =>
      obtain ⟨g1, g2, g3, g4⟩ := hf'
      obtain ⟨qs, hqs, rfl, hk'⟩ := configObj_val g1 g4 h'
      obtain ⟨_, _, _, rfl⟩ := loop_form h
      refine ⟨fun e => ?_, fun e => by (cases e)⟩
      cases e
      exact (g2 (by rw [← hk']; simp [reservedKeys])).elim
    | loop l' =>
      rw [Config.val] at h'
      constructor
      · rintro rfl; exact .loop (alike_loop l hf h l' hf' h')
      · intro hs
        cases hs with
        | loop hs => exact loopVal_same l hs h h'
    | cond c e =>
      obtain ⟨_, _, _, rfl⟩ := loop_form h
      obtain ⟨_, _, _, _, rfl⟩ := configCond_val h'
      exact ⟨fun e => by simp at e, fun e => by (cases e)⟩
  | cond c e =>
    obtain ⟨f1, f2⟩ := hf
    obtain ⟨x, y, hx, hy, rfl⟩ := configCond_val h
    cases c' with
    | obj is' =>
      obtain ⟨g1, g2, g3, g4⟩ := hf'
      obtain ⟨qs, hqs, rfl, hk'⟩ := configObj_val g1 g4 h'
      refine ⟨fun e => ?_, fun e => by (cases e)⟩
      cases e
      exact (g3 (by rw [← hk']; simp)).elim
    | loop l' =>
      rw [Config.val] at h'
      obtain ⟨_, _, _, rfl⟩ := loop_form h'
      exact ⟨fun e => by simp at e, fun e => by (cases e)⟩
    | cond c' e' =>
      obtain ⟨g1, g2⟩ := hf'
      obtain ⟨x', y', hx', hy', rfl⟩ := configCond_val h'
      constructor
      · intro e
        cases e
        exact .cond (alike_expr _ f1 hx _ g1 hx') (alike_expr _ f2 hy _ g2 hy')
      · intro hs
        cases hs with
        | cond h1 h2 => rw [val_same _ h1 hx hx', val_same _ h2 hy hy']

theorem childless_get {ln : Bool} {c : Config} {v : Val} (hf : c.Faithful) (hc : c.Childless) (h : c.val ln = .ok v) :
    ∃ d, v = .dict d ∧ dGet "__child_resource__" d = .none := by
  cases c with
  | obj is =>
    obtain ⟨f1, f2, f3, f4⟩ := hf
    obtain ⟨ps, hps, rfl, hk⟩ := configObj_val f1 f4 h
    refine ⟨ps, rfl, ?_⟩
    rw [Config.Childless, ← hk] at hc
    cases hg : dGet "__child_resource__" ps with
    | none => rfl
    | some w => exact (hc (List.mem_map_of_mem (mem_of_dGet hg))).elim
  | loop l =>
    rw [Config.val] at h
    obtain ⟨_, _, _, rfl⟩ := loop_form h
    exact ⟨_, rfl, by simp [dGet]⟩
  | cond c e =>
    obtain ⟨x, y, hx, hy, rfl⟩ := configCond_val h
    exact ⟨_, rfl, by simp [dGet]⟩

theorem resourceVal_childless {name t api : String} {d : List (String × Val)} (h : dGet "__child_resource__" d = .none) :
    resourceVal name t api (.dict d) = .ok (d, []) := by
  unfold resourceVal processChild
  simp only [h]

/-- what is reported about a reference to a module determines it -/
theorem moduleRef_inj {b b' : List Char} {ty de} (h : ModuleRef b ty de) (h' : ModuleRef b' ty de) : b = b' := by
  generalize hty : ty = ty', hde : de = de' at h'
  cases h <;> cases h' <;> first
    | exact absurd hty (by decide)
    | (simp only [List.cons.injEq, Prod.mk.injEq, comp, Val.str.injEq, true_and] at hde
       have := String.ofList_injective hde.1
       subst this; rfl)

/-! ### Declarations -/

theorem lineItems_inj {ln : Bool} {l l' : Lines} : lineItems ln l = lineItems ln l' ↔ (ln = true → l = l') := by
  obtain ⟨a, b⟩ := l
  obtain ⟨a', b'⟩ := l'
  cases ln <;> simp [lineItems]

theorem optVal_same_iff {ln : Bool} {o o' : Option Expr} {v v' : Val} (hf : ∀ e ∈ o, e.Faithful)
    (hf' : ∀ e ∈ o', e.Faithful) (h : Expr.optVal ln o = .ok v) (h' : Expr.optVal ln o' = .ok v') :
    v = v' ↔ SameOpt (unlessNull o) (unlessNull o') := by
  have key : ∀ {o : Option Expr} {v}, (∀ e ∈ o, e.Faithful) → Expr.optVal ln o = .ok v →
      (v = .none ∧ unlessNull o = .none) ∨ (∃ e, unlessNull o = some e ∧ e.Faithful ∧ e.val ln = .ok v ∧ v ≠ .none) := by
    intro o v hf h
    cases o with
    | none => rw [Expr.optVal] at h; cases h; exact .inl ⟨rfl, rfl⟩
    | some e =>
      rw [Expr.optVal] at h
      by_cases he : e = .null
      · subst he; rw [Expr.val] at h; cases h; exact .inl ⟨rfl, rfl⟩
      · refine .inr ⟨e, ?_, hf e rfl, h, ?_⟩
        · unfold unlessNull; split
          · rename_i h; cases h; exact (he rfl).elim
          · rfl
        · rintro rfl; exact he (val_none h)
  rcases key hf h with ⟨rfl, h1⟩ | ⟨e, h1, h2, h3, h4⟩ <;> rcases key hf' h' with ⟨rfl, g1⟩ | ⟨e', g1, g2, g3, g4⟩ <;>
    rw [h1, g1]
  · exact ⟨fun _ => .none, fun _ => rfl⟩
  · exact ⟨fun e => (g4 e.symm).elim, fun e => by (cases e)⟩
  · exact ⟨fun e => (h4 e).elim, fun e => by (cases e)⟩
  · constructor
    · rintro rfl; exact .some (alike_expr _ h2 h3 _ g2 g3)
    · intro hs
      cases hs with
      | some hs => exact val_same _ hs h3 g3

theorem aliasItem_inj {a a' : Option Ident} : aliasItem a = aliasItem a' ↔ a = a' := by
  constructor
  · intro h
    cases a <;> cases a' <;> simp only [aliasItem, List.cons.injEq, Prod.mk.injEq, true_and, and_true, Val.str.injEq,
      reduceCtorEq] at h
    · rfl
    · rw [Subtype.ext (txt_inj h)]
  · rintro rfl; rfl

theorem typeItem_inj {a a' : Option DataType} : typeItem a = typeItem a' ↔ a = a' := by
  constructor
  · intro h
    cases a <;> cases a' <;> simp only [typeItem, List.cons.injEq, Prod.mk.injEq, true_and, and_true, reduceCtorEq] at h
    · rfl
    · rw [dataType_inj _ h]
  · rintro rfl; rfl

/-- no key of one list is a key of the other -/
theorem append_split {a a' b b' : List (String × Val)} (p : String → Bool) (h1 : ∀ x ∈ a, p x.1 = true)
    (h2 : ∀ x ∈ a', p x.1 = true) (h3 : ∀ x ∈ b, p x.1 = false) (h4 : ∀ x ∈ b', p x.1 = false) :
    a ++ b = a' ++ b' ↔ a = a' ∧ b = b' := by
  constructor
  · intro h
    have key : ∀ {a b : List (String × Val)}, (∀ x ∈ a, p x.1 = true) → (∀ x ∈ b, p x.1 = false) →
        (a ++ b).filter (fun x => p x.1) = a ∧ (a ++ b).filter (fun x => !p x.1) = b := by
      intro a b ha hb
      constructor
      · rw [List.filter_append, List.filter_eq_self.mpr ha, List.filter_eq_nil_iff.mpr (fun x hx => by simp [hb x hx]),
          List.append_nil]
      · rw [List.filter_append, List.filter_eq_nil_iff.mpr (fun x hx => by simp [ha x hx]),
          List.filter_eq_self.mpr (fun x hx => by simp [hb x hx]), List.nil_append]
    have k1 := key h1 h3
    have k2 := key h2 h4
    rw [h] at k1
    exact ⟨k1.1.symm.trans k2.1, k1.2.symm.trans k2.2⟩
  · rintro ⟨rfl, rfl⟩; rfl

theorem lineItems_keys {ln : Bool} {l : Lines} : ∀ x ∈ lineItems ln l, x.1 ∈ ["__start_line__", "__end_line__"] := by
  intro x hx
  unfold lineItems at hx
  split at hx
  · simp only [List.mem_cons, List.not_mem_nil, or_false] at hx
    rcases hx with rfl | rfl <;> simp
  · cases hx

theorem typeItem_lines {ln : Bool} {l l' : Lines} {t t' : Option DataType} :
    typeItem t ++ lineItems ln l = typeItem t' ++ lineItems ln l' ↔ t = t' ∧ (ln = true → l = l') := by
  rw [append_split (fun k => k == "type"), typeItem_inj, lineItems_inj]
  · intro x hx; cases t <;> simp [typeItem] at hx; simp [hx]
  · intro x hx; cases t' <;> simp [typeItem] at hx; simp [hx]
  · intro x hx; have := lineItems_keys x hx; simp only [List.mem_cons, List.not_mem_nil, or_false] at this
    rcases this with h | h <;> rw [h] <;> decide
  · intro x hx; have := lineItems_keys x hx; simp only [List.mem_cons, List.not_mem_nil, or_false] at this
    rcases this with h | h <;> rw [h] <;> decide

theorem aliasItem_lines {ln : Bool} {l l' : Lines} {t t' : Option Ident} :
    aliasItem t ++ lineItems ln l = aliasItem t' ++ lineItems ln l' ↔ t = t' ∧ (ln = true → l = l') := by
  rw [append_split (fun k => k == "alias"), aliasItem_inj, lineItems_inj]
  · intro x hx; cases t <;> simp [aliasItem] at hx; simp [hx]
  · intro x hx; cases t' <;> simp [aliasItem] at hx; simp [hx]
  · intro x hx; have := lineItems_keys x hx; simp only [List.mem_cons, List.not_mem_nil, or_false] at this
    rcases this with h | h <;> rw [h] <;> decide
  · intro x hx; have := lineItems_keys x hx; simp only [List.mem_cons, List.not_mem_nil, or_false] at this
    rcases this with h | h <;> rw [h] <;> decide

theorem configItem_form {ln : Bool} {c : Option (List Item)} {ps : List (String × Val)}
    (hf : ∀ is ∈ c, (is.map Item.key).Nodup ∧ Item.FaithfulAll is) (h : configItem ln c = .ok ps) :
    ∃ qs, Item.vals ln (c.getD []) = .ok qs ∧ ps = if qs.isEmpty then [] else [("config", .dict qs)] := by
  cases c with
  | none => rw [configItem] at h; cases h; exact ⟨[], by rw [Option.getD, Item.vals], rfl⟩
  | some is =>
    rw [configItem] at h
    obtain ⟨qs, hqs, h⟩ := bind_ok' h
    cases h
    obtain ⟨h1, h2⟩ := hf is rfl
    refine ⟨qs, hqs, ?_⟩
    rw [lastWins_of_nodup (by rw [items_keys h2 hqs]; exact h1)]

theorem configItem_same_iff {ln : Bool} {c c' : Option (List Item)} {ps ps' : List (String × Val)}
    (hf : ∀ is ∈ c, (is.map Item.key).Nodup ∧ Item.FaithfulAll is)
    (hf' : ∀ is ∈ c', (is.map Item.key).Nodup ∧ Item.FaithfulAll is) (h : configItem ln c = .ok ps)
    (h' : configItem ln c' = .ok ps') : ps = ps' ↔ List.Forall₂ Item.Same (c.getD []) (c'.getD []) := by
  obtain ⟨qs, h1, rfl⟩ := configItem_form hf h
  obtain ⟨qs', h1', rfl⟩ := configItem_form hf' h'
  have hg : ∀ {c : Option (List Item)}, (∀ is ∈ c, (is.map Item.key).Nodup ∧ Item.FaithfulAll is) →
      Item.FaithfulAll (c.getD []) := by
    intro c hf
    cases c with
    | none => rw [Option.getD, Item.FaithfulAll]; trivial
    | some is => exact (hf is rfl).2
  rw [← items_same_iff (hg hf) (hg hf') h1 h1']
  cases qs <;> cases qs' <;> simp

theorem configItem_keys {ln : Bool} {c : Option (List Item)} {ps : List (String × Val)} (h : configItem ln c = .ok ps) :
    ∀ x ∈ ps, x.1 = "config" := by
  cases c with
  | none => rw [configItem] at h; cases h; simp
  | some is =>
    rw [configItem] at h
    obtain ⟨qs, hqs, h⟩ := bind_ok' h
    cases h
    split
    · simp
    · simp

theorem params_inj : ∀ {ps ps' : List (Ident × DataType)}, ps.map (fun p => (txt p.1.1, p.2.val)) =
    ps'.map (fun p => (txt p.1.1, p.2.val)) → ps = ps'
  | [], [], _ => rfl
  | [], _ :: _, h => by cases h
  | _ :: _, [], h => by cases h
  | (x, t) :: ps, (x', t') :: ps', h => by
    simp only [List.map_cons, List.cons.injEq, Prod.mk.injEq] at h
    rw [Subtype.ext (txt_inj h.1.1), dataType_inj _ h.1.2, params_inj h.2]

theorem params_nodup {ps : List (Ident × DataType)} (h : (ps.map Prod.fst).Nodup) :
    ((ps.map (fun p => (txt p.1.1, p.2.val))).map Prod.fst).Nodup := by
  rw [List.map_map, show (Prod.fst ∘ fun p : Ident × DataType => (txt p.1.1, p.2.val)) =
    (fun x : Ident => txt x.1) ∘ Prod.fst from rfl, ← List.map_map]
  exact h.map (fun a b e => Subtype.ext (txt_inj e))

/-- **What is reported about a faithful declaration determines it.** -/
theorem decl_same_iff {ln : Bool} {l l' : Lines} {d d' : Decl} {o o' : Out} (hf : d.Faithful) (hf' : d'.Faithful)
    (hk : d.kind = d'.kind) (ho : ordinary d.kind = true) (h : d.out ln l = .ok o) (h' : d'.out ln l' = .ok o') :
    o.own = o'.own ↔ d.Same d' ∧ (ln = true → l = l') := by
  cases d with
  | scope | importNs | importFrom => cases ho
  | extension n c a =>
    cases d' with
    | extension n' c' a' =>
      rw [Decl.out] at h h'
      obtain ⟨x, hx, h⟩ := bind_ok' h; cases h
      obtain ⟨y, hy, h'⟩ := bind_ok' h'; cases h'
      have k1 := configItem_keys hx
      have k2 := configItem_keys hy
      have k3 : ∀ {a : Option Ident} {l : Lines}, ∀ z ∈ aliasItem a ++ lineItems ln l, (z.1 == "config") = false := by
        intro a l z hz
        rcases List.mem_append.mp hz with hz | hz
        · cases a <;> simp [aliasItem] at hz
          simp [hz]
        · have := lineItems_keys z hz
          simp only [List.mem_cons, List.not_mem_nil, or_false] at this
          rcases this with h | h <;> rw [h] <;> decide
      simp only [List.cons.injEq, Entry.mk.injEq, true_and, and_true]
      rw [append_split (fun k => k == "config") (fun z hz => by simp [k1 z hz]) (fun z hz => by simp [k2 z hz]) k3 k3,
        aliasItem_lines, configItem_same_iff hf hf' hx hy]
      constructor
      · rintro ⟨h1, h2, rfl, h3⟩
        obtain rfl := Subtype.ext (txt_inj h1)
        exact ⟨.extension h2, h3⟩
      · rintro ⟨hs, h3⟩
        cases hs with
        | extension h2 => exact ⟨rfl, h2, rfl, h3⟩
    | _ => simp [Decl.kind] at hk
  | metadata n b =>
    cases d' with
    | metadata n' b' =>
      rw [Decl.out] at h h'; cases h; cases h'
      simp only [List.cons.injEq, Entry.mk.injEq, true_and, and_true, Prod.mk.injEq, Val.str.injEq, lineItems_inj]
      constructor
      · rintro ⟨h1, h2, h3⟩
        obtain rfl := Subtype.ext (txt_inj h1)
        obtain rfl := txt_inj h2
        exact ⟨.metadata, h3⟩
      · rintro ⟨hs, h3⟩
        cases hs; exact ⟨rfl, rfl, h3⟩
    | _ => simp [Decl.kind] at hk
  | param ds n t e =>
    cases d' with
    | param ds' n' t' e' =>
      rw [Decl.out] at h h'
      obtain ⟨x, hx, h⟩ := bind_ok' h; obtain ⟨y, hy, h⟩ := bind_ok' h; cases h
      obtain ⟨x', hx', h'⟩ := bind_ok' h'; obtain ⟨y', hy', h'⟩ := bind_ok' h'; cases h'
      simp only [List.cons_append, List.nil_append, List.cons.injEq, Entry.mk.injEq, true_and, and_true,
        Prod.mk.injEq, Val.list.injEq, lineItems_inj, decos_same_iff hf.1 hf'.1 hx hx', optVal_same_iff hf.2 hf'.2 hy hy']
      constructor
      · rintro ⟨h1, h2, h3, h4, h5⟩
        obtain rfl := Subtype.ext (txt_inj h1)
        obtain rfl := dataType_inj _ h3
        exact ⟨.param h2 h4, h5⟩
      · rintro ⟨hs, h3⟩
        cases hs with
        | param h1 h2 => exact ⟨rfl, h1, rfl, h2, h3⟩
    | _ => simp [Decl.kind] at hk
  | var ds n t e =>
    cases d' with
    | var ds' n' t' e' =>
      rw [Decl.out] at h h'
      obtain ⟨x, hx, h⟩ := bind_ok' h; obtain ⟨y, hy, h⟩ := bind_ok' h; cases h
      obtain ⟨x', hx', h'⟩ := bind_ok' h'; obtain ⟨y', hy', h'⟩ := bind_ok' h'; cases h'
      simp only [List.cons_append, List.nil_append, List.cons.injEq, Entry.mk.injEq, true_and, and_true,
        Prod.mk.injEq, Val.list.injEq, typeItem_lines, decos_same_iff hf.1 hf'.1 hx hx',
        loopOrExpr_same_iff hf.2 hf'.2 hy hy']
      constructor
      · rintro ⟨h1, h2, h3, rfl, h5⟩
        obtain rfl := Subtype.ext (txt_inj h1)
        exact ⟨.var h2 h3, h5⟩
      · rintro ⟨hs, h3⟩
        cases hs with
        | var h1 h2 => exact ⟨rfl, h1, h2, rfl, h3⟩
    | _ => simp [Decl.kind] at hk
  | output ds n t e =>
    cases d' with
    | output ds' n' t' e' =>
      rw [Decl.out] at h h'
      obtain ⟨x, hx, h⟩ := bind_ok' h; obtain ⟨y, hy, h⟩ := bind_ok' h; cases h
      obtain ⟨x', hx', h'⟩ := bind_ok' h'; obtain ⟨y', hy', h'⟩ := bind_ok' h'; cases h'
      simp only [List.cons_append, List.nil_append, List.cons.injEq, Entry.mk.injEq, true_and, and_true,
        Prod.mk.injEq, Val.list.injEq, lineItems_inj, decos_same_iff hf.1 hf'.1 hx hx',
        loopOrExpr_same_iff hf.2 hf'.2 hy hy']
      constructor
      · rintro ⟨h1, h2, h3, h4, h5⟩
        obtain rfl := Subtype.ext (txt_inj h1)
        obtain rfl := dataType_inj _ h3
        exact ⟨.output h2 h4, h5⟩
      · rintro ⟨hs, h3⟩
        cases hs with
        | output h1 h2 => exact ⟨rfl, h1, rfl, h2, h3⟩
    | _ => simp [Decl.kind] at hk
  | resource ds n b ex c =>
    cases d' with
    | resource ds' n' b' ex' c' =>
      rw [Decl.out] at h h'
      obtain ⟨x, hx, h⟩ := bind_ok' h; obtain ⟨⟨t, api⟩, hy, h⟩ := bind_ok' h
      obtain ⟨z, hz, h⟩ := bind_ok' h; obtain ⟨⟨cfg, inner⟩, hr, h⟩ := bind_ok' h; cases h
      obtain ⟨x', hx', h'⟩ := bind_ok' h'; obtain ⟨⟨t', api'⟩, hy', h'⟩ := bind_ok' h'
      obtain ⟨z', hz', h'⟩ := bind_ok' h'; obtain ⟨⟨cfg', inner'⟩, hr', h'⟩ := bind_ok' h'; cases h'
      obtain ⟨q, rfl, hq⟩ := childless_get hf.2.1 hf.2.2 hz
      obtain ⟨q', rfl, hq'⟩ := childless_get hf'.2.1 hf'.2.2 hz'
      have hr := inRule_ok hr
      have hr' := inRule_ok hr'
      simp only [resourceVal_childless hq, Except.ok.injEq, Prod.mk.injEq] at hr
      simp only [resourceVal_childless hq', Except.ok.injEq, Prod.mk.injEq] at hr'
      obtain ⟨rfl, rfl⟩ := hr
      obtain ⟨rfl, rfl⟩ := hr'
      have ht := typeApi_iff.mp (inRule_ok hy)
      have ht' := typeApi_iff.mp (inRule_ok hy')
      have hcs := config_same_iff hf.2.1 hf'.2.1 hz hz'
      simp only [List.cons_append, List.nil_append, List.cons.injEq, Entry.mk.injEq, true_and, and_true,
        Prod.mk.injEq, Val.list.injEq, lineItems_inj, decos_same_iff hf.1 hf'.1 hx hx', hcs, Val.str.injEq,
        Val.bool.injEq]
      constructor
      · rintro ⟨h1, h2, rfl, rfl, rfl, h6, h7⟩
        obtain rfl := Subtype.ext (txt_inj h1)
        obtain rfl := ht.1.trans ht'.1.symm
        exact ⟨.resource h2 h6, h7⟩
      · rintro ⟨hs, h3⟩
        cases hs with
        | resource h1 h2 =>
          rw [hy] at hy'; cases hy'
          exact ⟨rfl, h1, rfl, rfl, rfl, h2, h3⟩
    | _ => simp [Decl.kind] at hk
  | module ds n b c =>
    cases d' with
    | module ds' n' b' c' =>
      rw [Decl.out] at h h'
      obtain ⟨x, hx, h⟩ := bind_ok' h; obtain ⟨y, hy, h⟩ := bind_ok' h
      obtain ⟨z, hz, h⟩ := bind_ok' h; obtain ⟨r, hr, h⟩ := bind_ok' h; obtain ⟨q, hq, h⟩ := bind_ok' h; cases h
      obtain ⟨x', hx', h'⟩ := bind_ok' h'; obtain ⟨y', hy', h'⟩ := bind_ok' h'
      obtain ⟨z', hz', h'⟩ := bind_ok' h'; obtain ⟨r', hr', h'⟩ := bind_ok' h'; obtain ⟨q', hq', h'⟩ := bind_ok' h'
      cases h'
      obtain ⟨ty, de, hm, rfl⟩ := classify_sound (inRule_ok hy)
      obtain ⟨ty', de', hm', rfl⟩ := classify_sound (inRule_ok hy')
      have hr := inRule_ok hr; have hq := inRule_ok hq; have hr' := inRule_ok hr'; have hq' := inRule_ok hq'
      simp only [refVal, Val.item, dGet, if_true, Except.ok.injEq, String.reduceEq, if_false] at hr hq hr' hq'
      subst hr hq hr' hq'
      simp only [List.cons_append, List.nil_append, List.cons.injEq, Entry.mk.injEq, true_and, and_true,
        Prod.mk.injEq, Val.list.injEq, lineItems_inj, decos_same_iff hf.1 hf'.1 hx hx',
        config_same_iff hf.2 hf'.2 hz hz', Val.str.injEq, Val.dict.injEq]
      constructor
      · rintro ⟨h1, h2, rfl, rfl, h6, h7⟩
        obtain rfl := Subtype.ext (txt_inj h1)
        obtain rfl := moduleRef_inj hm hm'
        exact ⟨.module h2 h6, h7⟩
      · rintro ⟨hs, h3⟩
        cases hs with
        | module h1 h2 =>
          rw [hy] at hy'
          simp only [Except.ok.injEq, refVal, Val.dict.injEq, List.cons.injEq, Prod.mk.injEq, true_and, and_true,
            Val.str.injEq] at hy'
          exact ⟨rfl, h1, hy'.1, hy'.2, h2, h3⟩
    | _ => simp [Decl.kind] at hk
  | typ ds n e es =>
    cases d' with
    | typ ds' n' e' es' =>
      obtain ⟨f1, f2, rfl⟩ := hf
      obtain ⟨g1, g2, rfl⟩ := hf'
      rw [Decl.out] at h h'
      obtain ⟨x, hx, h⟩ := bind_ok' h; obtain ⟨y, hy, h⟩ := bind_ok' h; cases h
      obtain ⟨x', hx', h'⟩ := bind_ok' h'; obtain ⟨y', hy', h'⟩ := bind_ok' h'; cases h'
      simp only [typeVal, List.isEmpty_nil, if_true] at hy hy'
      have hes : y = y' ↔ e.Same e' :=
        ⟨fun h => by subst h; exact alike_expr _ f2 hy _ g2 hy', fun h => val_same _ h hy hy'⟩
      simp only [List.cons_append, List.nil_append, List.cons.injEq, Entry.mk.injEq, true_and, and_true,
        Prod.mk.injEq, Val.list.injEq, lineItems_inj, decos_same_iff f1 g1 hx hx', hes]
      constructor
      · rintro ⟨h1, h2, h4, h5⟩
        obtain rfl := Subtype.ext (txt_inj h1)
        exact ⟨.typ h2 h4, h5⟩
      · rintro ⟨hs, h3⟩
        cases hs with
        | typ h1 h2 => exact ⟨rfl, h1, h2, h3⟩
    | _ => simp [Decl.kind] at hk
  | func ds n ps t e =>
    cases d' with
    | func ds' n' ps' t' e' =>
      obtain ⟨f1, f2, f3⟩ := hf
      obtain ⟨g1, g2, g3⟩ := hf'
      rw [Decl.out] at h h'
      obtain ⟨x, hx, h⟩ := bind_ok' h; obtain ⟨y, hy, h⟩ := bind_ok' h; cases h
      obtain ⟨x', hx', h'⟩ := bind_ok' h'; obtain ⟨y', hy', h'⟩ := bind_ok' h'; cases h'
      have hes : y = y' ↔ e.Same e' :=
        ⟨fun h => by subst h; exact alike_expr _ f3 hy _ g3 hy', fun h => val_same _ h hy hy'⟩
      simp only [List.cons_append, List.nil_append, List.cons.injEq, Entry.mk.injEq, true_and, and_true,
        Prod.mk.injEq, Val.list.injEq, Val.dict.injEq, lineItems_inj, decos_same_iff f1 g1 hx hx', hes,
        lastWins_of_nodup (params_nodup f2), lastWins_of_nodup (params_nodup g2)]
      constructor
      · rintro ⟨h1, h2, h3, h4, h5, h6⟩
        obtain rfl := Subtype.ext (txt_inj h1)
        obtain rfl := params_inj h3
        obtain rfl := dataType_inj _ h4
        exact ⟨.func h2 h5, h6⟩
      · rintro ⟨hs, h3⟩
        cases hs with
        | func h1 h2 => exact ⟨rfl, h1, rfl, rfl, h2, h3⟩
    | _ => simp [Decl.kind] at hk

end Pycep
