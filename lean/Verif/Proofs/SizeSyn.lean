import Verif.Proofs.Size
import Verif.Proofs.Place
import Verif.Proofs.EndToEnd
/-
The size of what represents a piece of syntax is bounded by four times the number of its tokens.
-/
namespace Pycep

/-! ### Lists of values -/

theorem vals_append {ln : Bool} : ∀ {es es' : List Expr} {vs : List Val}, Expr.vals ln (es ++ es') = .ok vs →
    ∃ xs ys, Expr.vals ln es = .ok xs ∧ Expr.vals ln es' = .ok ys ∧ vs = xs ++ ys
  | [], es', vs, h => ⟨[], vs, by rw [Expr.vals], h, rfl⟩
  | e :: es, es', vs, h => by
    rw [List.cons_append, Expr.vals] at h
    obtain ⟨v, hv, h⟩ := bind_ok' h
    obtain ⟨r, hr, h⟩ := bind_ok' h
    cases h
    obtain ⟨xs, ys, hx, hy, rfl⟩ := vals_append hr
    exact ⟨v :: xs, ys, by rw [Expr.vals, hv, hx]; rfl, hy, rfl⟩

theorem itemVals_append {ln : Bool} : ∀ {es es' : List Item} {vs : List (String × Val)}, Item.vals ln (es ++ es') = .ok vs →
    ∃ xs ys, Item.vals ln es = .ok xs ∧ Item.vals ln es' = .ok ys ∧ vs = xs ++ ys
  | [], es', vs, h => ⟨[], vs, by rw [Item.vals], h, rfl⟩
  | e :: es, es', vs, h => by
    rw [List.cons_append, Item.vals] at h
    obtain ⟨v, hv, h⟩ := bind_ok' h
    obtain ⟨r, hr, h⟩ := bind_ok' h
    cases h
    obtain ⟨xs, ys, hx, hy, rfl⟩ := itemVals_append hr
    exact ⟨v :: xs, ys, by rw [Item.vals, hv, hx]; rfl, hy, rfl⟩

theorem decoVals_append {ln : Bool} : ∀ {es es' : List Deco} {vs : List Val}, decoVals ln (es ++ es') = .ok vs →
    ∃ xs ys, decoVals ln es = .ok xs ∧ decoVals ln es' = .ok ys ∧ vs = xs ++ ys
  | [], es', vs, h => ⟨[], vs, by rw [decoVals], h, rfl⟩
  | e :: es, es', vs, h => by
    rw [List.cons_append, decoVals] at h
    obtain ⟨v, hv, h⟩ := bind_ok' h
    obtain ⟨r, hr, h⟩ := bind_ok' h
    cases h
    obtain ⟨xs, ys, hx, hy, rfl⟩ := decoVals_append hr
    exact ⟨v :: xs, ys, by rw [decoVals, hv, hx]; rfl, hy, rfl⟩

theorem vals_cons {ln : Bool} {e : Expr} {es : List Expr} {vs : List Val} (h : Expr.vals ln (e :: es) = .ok vs) :
    ∃ x xs, e.val ln = .ok x ∧ Expr.vals ln es = .ok xs ∧ vs = x :: xs := by
  rw [Expr.vals] at h
  obtain ⟨v, hv, h⟩ := bind_ok' h
  obtain ⟨r, hr, h⟩ := bind_ok' h
  cases h
  exact ⟨_, _, hv, hr, rfl⟩

theorem itemVals_cons {ln : Bool} {e : Item} {es : List Item} {vs : List (String × Val)}
    (h : Item.vals ln (e :: es) = .ok vs) :
    ∃ x xs, e.val ln = .ok x ∧ Item.vals ln es = .ok xs ∧ vs = x :: xs := by
  rw [Item.vals] at h
  obtain ⟨v, hv, h⟩ := bind_ok' h
  obtain ⟨r, hr, h⟩ := bind_ok' h
  cases h
  exact ⟨_, _, hv, hr, rfl⟩

theorem vals_nil {ln : Bool} {vs : List Val} (h : Expr.vals ln [] = .ok vs) : vs = [] := by
  rw [Expr.vals] at h; cases h; rfl

theorem itemVals_nil {ln : Bool} {vs : List (String × Val)} (h : Item.vals ln [] = .ok vs) : vs = [] := by
  rw [Item.vals] at h; cases h; rfl

theorem optVals_some {ln : Bool} : ∀ es : List Expr, Expr.optVals ln (es.map some) = Expr.vals ln es
  | [] => by rw [List.map_nil, Expr.optVals, Expr.vals]
  | e :: es => by rw [List.map_cons, Expr.optVals, Expr.vals, Expr.optVal, optVals_some es]

/-! ### Parts -/

theorem item_cost {v x : Val} {k : String} (h : v.item k = .ok x) : x.cost + 1 ≤ v.cost := by
  unfold Val.item at h
  split at h
  · split at h
    · cases h
      rename_i hg
      have := cost_dGet hg
      rw [Val.cost]
      omega
    · cases h
  · cases h

theorem getOrEmpty_cost {v x : Val} {k : String} (h : v.getOrEmpty k = .ok x) : x.cost ≤ v.cost := by
  unfold Val.getOrEmpty at h
  split at h
  · cases h
    rename_i d
    rw [Val.cost]
    cases hg : dGet k d with
    | none => simp [Val.cost, costItems]
    | some y =>
      have := cost_dGet hg
      simp only [Option.getD_some]
      omega
  · cases h

theorem loopCondition_cost {c x : Val} (h : loopCondition c = .ok x) : x.cost ≤ c.cost := by
  unfold loopCondition at h
  split at h
  · obtain ⟨f, hf, h⟩ := bind_ok' h
    obtain ⟨t, ht, h⟩ := bind_ok' h
    split at h
    · obtain ⟨ps, hp, h⟩ := bind_ok' h
      have := getOrEmpty_cost hf
      have := item_cost hp
      have := item_cost h
      omega
    · cases h; exact le_refl _
  · cases h; exact le_refl _

theorem cost_strs {α} (f : α → String) (xs : List α) : costOf (xs.map (fun x => Val.str (f x))) = xs.length := by
  induction xs with
  | nil => simp [costOf]
  | cons x xs ih => rw [List.map_cons, costOf, ih, List.length_cons, show (Val.str (f x)).cost = 1 by simp [Val.cost]]; omega

theorem length_le_cost (xs : List Val) : xs.length ≤ costOf xs := by
  induction xs with
  | nil => simp
  | cons x xs ih => have := cost_pos x; rw [costOf, List.length_cons]; omega

theorem keyCost_le (k : String) : keyCost k ≤ 5 := by unfold keyCost; split <;> omega

/-! ### Expressions -/

set_option linter.unusedVariables false

mutual
theorem ESyn.cost {ln : Bool} : ∀ {b e w n}, ESyn b e w n → ∀ {v}, Expr.val ln e = .ok v → v.cost ≤ 4 * w.length
  | _, _, _, _, .null _ _, v, h => by rw [Expr.val] at h; cases h; simp [Val.cost]; omega
  | _, _, _, _, .tru _ _, v, h => by rw [Expr.val] at h; cases h; simp [Val.cost]; omega
  | _, _, _, _, .fls _ _, v, h => by rw [Expr.val] at h; cases h; simp [Val.cost]; omega
  | _, _, _, _, .int _ _, v, h => by
    rw [Expr.val] at h
    split at h <;> cases h
    simp [Val.cost]; omega
  | _, _, _, _, .ident _ _, v, h => by rw [Expr.val] at h; cases h; simp [Val.cost]; omega
  | _, _, _, _, .str _ _, v, h => by rw [Expr.val] at h; cases h; simp [Val.cost]; omega
  | _, _, _, _, .multi _, v, h => by rw [Expr.val] at h; cases h; simp [Val.cost]
  | _, _, _, _, .array _ _ he _, v, h => by
    rw [Expr.val] at h
    obtain ⟨vs, hv, h⟩ := bind_ok' h
    cases h
    have := Elems.cost he hv
    simp [Val.cost]; omega
  | _, _, _, _, .object ho, v, h => by
    rw [Expr.val] at h
    obtain ⟨vs, hv, h⟩ := bind_ok' h
    cases h
    have := ObjSyn.cost ho hv
    have := cost_lastWins vs
    simp [Val.cost]; omega
  | _, _, _, _, .call _ hc, v, h => by
    rw [Expr.val] at h
    obtain ⟨vs, hv, h⟩ := bind_ok' h
    obtain ⟨d, hd, h⟩ := bind_ok' h
    cases h
    have := CallSyn.cost hc hv
    have := cost_function (inRule_ok hd)
    simp [Val.cost, costItems, keyCost]; omega
  | _, _, _, _, .bin _ ha _ hb _, v, h => by
    rw [Expr.val] at h
    obtain ⟨x, hx, h⟩ := bind_ok' h
    obtain ⟨y, hy, h⟩ := bind_ok' h
    cases h
    have := ESyn.cost ha hx
    have := ESyn.cost hb hy
    simp [opVal, Val.cost, costItems, keyCost]; omega
  | _, _, _, _, .safe ha _ _ hb _, v, h => by
    rw [Expr.val] at h
    obtain ⟨x, hx, h⟩ := bind_ok' h
    obtain ⟨y, hy, h⟩ := bind_ok' h
    cases h
    have := ESyn.cost ha hx
    have := ESyn.cost hb hy
    simp [opVal, Val.cost, costItems, keyCost]; omega
  | _, _, _, _, .index ha _ hb _, v, h => by
    rw [Expr.val] at h
    obtain ⟨x, hx, h⟩ := bind_ok' h
    obtain ⟨y, hy, h⟩ := bind_ok' h
    cases h
    have := ESyn.cost ha hx
    have := ESyn.cost hb hy
    simp [opVal, Val.cost, costItems, keyCost]; omega
  | _, _, _, _, .safeIndex ha _ _ hb _, v, h => by
    rw [Expr.val] at h
    obtain ⟨x, hx, h⟩ := bind_ok' h
    obtain ⟨y, hy, h⟩ := bind_ok' h
    cases h
    have := ESyn.cost ha hx
    have := ESyn.cost hb hy
    simp [opVal, Val.cost, costItems, keyCost]; omega
  | _, _, _, _, .not _ ha _, v, h => by
    rw [Expr.val] at h
    obtain ⟨x, hx, h⟩ := bind_ok' h
    cases h
    have := ESyn.cost ha hx
    simp [opVal, Val.cost, costItems, keyCost]; omega
  | _, _, _, _, .minus _ ha _, v, h => by
    rw [Expr.val] at h
    obtain ⟨x, hx, h⟩ := bind_ok' h
    cases h
    have := ESyn.cost ha hx
    simp [opVal, Val.cost, costItems, keyCost]; omega
  | _, _, _, _, .cond ha _ hb _ hc _, v, h => by
    rw [Expr.val] at h
    obtain ⟨x, hx, h⟩ := bind_ok' h
    obtain ⟨y, hy, h⟩ := bind_ok' h
    obtain ⟨z, hz, h⟩ := bind_ok' h
    cases h
    have := ESyn.cost ha hx
    have := ESyn.cost hb hy
    have := ESyn.cost hc hz
    simp [opVal, Val.cost, costItems, keyCost]; omega
  | _, _, _, _, .method ha _ _ _ hm _, v, h => by
    rw [Expr.val] at h
    obtain ⟨x, hx, h⟩ := bind_ok' h
    obtain ⟨vs, hv, h⟩ := bind_ok' h
    cases h
    have := ESyn.cost ha hx
    have := MArgs.cost hm hv
    have h1 := cost_filter (fun p => p.2.truthy) (numbered "operand_" 2 vs)
    rw [cost_numbered (by decide) (by decide)] at h1
    simp [opVal, Val.cost, costItems, keyCost]; omega
  | _, _, _, _, .lambda hx _ hb _, v, h => by
    rw [Expr.val] at h
    obtain ⟨x, hx', h⟩ := bind_ok' h
    obtain ⟨y, hy, h⟩ := bind_ok' h
    cases h
    have := ESyn.cost hx hx'
    have := ESyn.cost hb hy
    have := cost_pos x
    simp [Val.cost, costItems, keyCost]; omega
  | _, _, _, _, .lambdaN _ h1 _ h2 ht _ _ hb _, v, h => by
    rw [Expr.val] at h
    obtain ⟨x1, hx1, h⟩ := bind_ok' h
    obtain ⟨x2, hx2, h⟩ := bind_ok' h
    obtain ⟨x3, hx3, h⟩ := bind_ok' h
    obtain ⟨xs, hxs, h⟩ := bind_ok' h
    obtain ⟨y, hy, h⟩ := bind_ok' h
    cases h
    have a1 := ESyn.cost h1 hx1
    have a2 := ESyn.cost h2 hx2
    have a3 := ETail.cost ht (v := x3 :: xs) (by rw [Expr.vals, hx3, hxs]; rfl)
    have a4 := ESyn.cost hb hy
    have := cost_pos x1
    have := cost_pos x2
    have := cost_pos x3
    have := length_le_cost xs
    rw [costOf] at a3
    simp only [Val.cost, costItems, costItems_append, cost_numbered (pre := "var_") (by decide) (by decide),
      cost_strs, List.length_cons]
    simp [keyCost]; omega
  | _, _, _, _, .plain he _, v, h => ESyn.cost he h
  | _, _, _, _, .paren _ he _ _, v, h => by have := ESyn.cost he h; simp; omega
  | _, _, _, _, .bang he _, v, h => by have := ESyn.cost he h; simp; omega
  | _, _, _, _, .parenBang _ he _ _, v, h => by have := ESyn.cost he h; simp; omega
theorem ETail.cost {ln : Bool} : ∀ {es w n}, ETail es w n → ∀ {v}, Expr.vals ln es = .ok v → costOf v ≤ 4 * w.length
  | _, _, _, .nil, v, h => by rw [vals_nil h]; simp [costOf]
  | _, _, _, .snoc ht _ he _, v, h => by
    obtain ⟨xs, ys, hx, hy, rfl⟩ := vals_append h
    obtain ⟨y, zs, hy', hz, rfl⟩ := vals_cons hy
    cases vals_nil hz
    have := ETail.cost ht hx
    have := ESyn.cost he hy'
    simp [costOf_append, costOf]; omega
theorem Elems.cost {ln : Bool} : ∀ {es w n}, Elems es w n → ∀ {v}, Expr.vals ln es = .ok v → costOf v ≤ 4 * w.length
  | _, _, _, .nil, v, h => by rw [vals_nil h]; simp [costOf]
  | _, _, _, .snoc hs he ht _ _, v, h => by
    obtain ⟨xs, ys, hx, hy, rfl⟩ := vals_append h
    obtain ⟨y, zs, hy', hz, rfl⟩ := vals_cons hy
    have := Elems.cost hs hx
    have := ESyn.cost he hy'
    have := ETail.cost ht hz
    simp [costOf_append, costOf]; omega
theorem CallSyn.cost {ln : Bool} : ∀ {f es w n}, CallSyn f es w n → ∀ {v}, Expr.vals ln es = .ok v →
    costOf v + 8 ≤ 4 * w.length
  | _, _, _, _, .args _ _ he ht _ _, v, h => by
    obtain ⟨y, zs, hy, hz, rfl⟩ := vals_cons h
    have := ESyn.cost he hy
    have := FTail.cost ht hz
    simp [costOf]; omega
  | _, _, _, _, .noArg _ _ ht _ _, v, h => by
    have := FTail.cost ht h
    simp; omega
theorem FTail.cost {ln : Bool} : ∀ {es w n}, FTail es w n → ∀ {v}, Expr.vals ln es = .ok v → costOf v ≤ 4 * w.length
  | _, _, _, .nil, v, h => by rw [vals_nil h]; simp [costOf]
  | _, _, _, .snoc ht _ _ he _, v, h => by
    obtain ⟨xs, ys, hx, hy, rfl⟩ := vals_append h
    obtain ⟨y, zs, hy', hz, rfl⟩ := vals_cons hy
    cases vals_nil hz
    have := FTail.cost ht hx
    have := ESyn.cost he hy'
    simp [costOf_append, costOf]; omega
theorem MArgs.cost {ln : Bool} : ∀ {es w n}, MArgs es w n → ∀ {v}, Expr.optVals ln es = .ok v →
    costOf v ≤ 4 * w.length + 1
  | _, _, _, .empty, v, h => by
    rw [Expr.optVals, Expr.optVal, Expr.optVals] at h
    cases h
    simp [costOf, Val.cost]
  | _, _, _, .one he, v, h => by
    rw [Expr.optVals, Expr.optVal, Expr.optVals, Expr.optVal, Expr.optVals] at h
    obtain ⟨x, hx, h⟩ := bind_ok' h
    cases h
    have := ESyn.cost he hx
    simp [costOf, Val.cost]; omega
  | _, _, _, .many he ht, v, h => by
    rw [optVals_some] at h
    obtain ⟨y, zs, hy, hz, rfl⟩ := vals_cons h
    have := ESyn.cost he hy
    have := ETail.cost ht hz
    simp [costOf]; omega
  | _, _, _, .lead ht, v, h => by
    rw [optVals_some] at h
    have := ETail.cost ht h
    omega
theorem ObjSyn.cost {ln : Bool} : ∀ {is w n}, ObjSyn is w n → ∀ {v}, Item.vals ln is = .ok v →
    costItems v + 8 ≤ 4 * w.length
  | _, _, _, .mk _ _ hi _, v, h => by
    have := Items.cost hi h
    simp; omega
theorem Items.cost {ln : Bool} : ∀ {is w n}, Items is w n → ∀ {v}, Item.vals ln is = .ok v → costItems v ≤ 4 * w.length
  | _, _, _, .nil, v, h => by rw [itemVals_nil h]; simp [costItems]
  | _, _, _, .pairs hs hi ht _, v, h => by
    obtain ⟨xs, ys, hx, hy, rfl⟩ := itemVals_append h
    obtain ⟨y, zs, hy', hz, rfl⟩ := itemVals_cons hy
    have := Items.cost hs hx
    have := PairSyn.cost hi hy'
    have := PTail.cost ht hz
    simp [costItems_append, costItems]; omega
  | _, _, _, .child hs hi _, v, h => by
    obtain ⟨xs, ys, hx, hy, rfl⟩ := itemVals_append h
    obtain ⟨y, zs, hy', hz, rfl⟩ := itemVals_cons hy
    cases itemVals_nil hz
    have := Items.cost hs hx
    have := ChildSyn.cost hi hy'
    simp [costItems_append, costItems]; omega
theorem PTail.cost {ln : Bool} : ∀ {is w n}, PTail is w n → ∀ {v}, Item.vals ln is = .ok v → costItems v ≤ 4 * w.length
  | _, _, _, .nil, v, h => by rw [itemVals_nil h]; simp [costItems]
  | _, _, _, .snoc ht _ hi, v, h => by
    obtain ⟨xs, ys, hx, hy, rfl⟩ := itemVals_append h
    obtain ⟨y, zs, hy', hz, rfl⟩ := itemVals_cons hy
    cases itemVals_nil hz
    have := PTail.cost ht hx
    have := PairSyn.cost hi hy'
    simp [costItems_append, costItems]; omega
theorem PairSyn.cost {ln : Bool} : ∀ {i w n}, PairSyn i w n → ∀ {v}, Item.val ln i = .ok v →
    v.2.cost + keyCost v.1 ≤ 4 * w.length
  | _, _, _, .expr _ _ he _, v, h => by
    rw [Item.val] at h
    obtain ⟨x, hx, h⟩ := bind_ok' h
    cases h
    have := ESyn.cost he hx
    have := keyCost_le (Key.text ‹_›)
    simp; omega
  | _, _, _, .exprOpt _ _ he _ _ _, v, h => by
    rw [Item.val] at h
    obtain ⟨x, hx, h⟩ := bind_ok' h
    cases h
    have := ESyn.cost he hx
    have := keyCost_le (Key.text ‹_›)
    simp; omega
  | _, _, _, .loop _ _ he, v, h => by
    rw [Item.val] at h
    obtain ⟨x, hx, h⟩ := bind_ok' h
    cases h
    have := LoopSyn.cost he hx
    have := keyCost_le (Key.text ‹_›)
    simp; omega
  | _, _, _, .loopOpt _ _ he _, v, h => by
    rw [Item.val] at h
    obtain ⟨x, hx, h⟩ := bind_ok' h
    cases h
    have := LoopSyn.cost he hx
    have := keyCost_le (Key.text ‹_›)
    simp; omega
theorem ChildSyn.cost {ln : Bool} : ∀ {i w n}, ChildSyn i w n → ∀ {v}, Item.val ln i = .ok v →
    v.2.cost + keyCost v.1 ≤ 4 * w.length
  | _, _, _, .mk (w3 := w3) _ _ _ _ _ hc _ hw _ _, v, h => by
    rw [Item.val] at h
    obtain ⟨x, hx, h⟩ := bind_ok' h
    cases h
    have := ConfigSyn.cost hc hx
    have : 0 < w3.length := List.length_pos_iff.mpr hw
    cases ln <;> simp [Val.cost, costItems, costOf, keyCost, lineItems] <;> omega
theorem LoopSyn.cost {ln : Bool} : ∀ {l w n}, LoopSyn l w n → ∀ {v}, Loop.val ln l = .ok v → v.cost ≤ 4 * w.length
  | _, _, _, .plain _ _ _ hh _ he _ _, v, h => by
    rw [Loop.val] at h
    obtain ⟨x, hx, h⟩ := bind_ok' h
    obtain ⟨c, hc, h⟩ := bind_ok' h
    obtain ⟨y, hy, h⟩ := bind_ok' h
    obtain ⟨c', hc', h⟩ := bind_ok' h
    cases h
    rw [Expr.optVal] at hc
    cases hc
    have := HeadSyn.cost hh hx
    have := ESyn.cost he hy
    have h1 := loopCondition_cost (inRule_ok hc')
    rw [show Val.none.cost = 1 by simp [Val.cost]] at h1
    simp [Val.cost, costItems, keyCost]; omega
  | _, _, _, .filter _ _ _ hh _ ha he _ _, v, h => by
    rw [Loop.val] at h
    obtain ⟨x, hx, h⟩ := bind_ok' h
    obtain ⟨c, hc, h⟩ := bind_ok' h
    obtain ⟨y, hy, h⟩ := bind_ok' h
    obtain ⟨c', hc', h⟩ := bind_ok' h
    cases h
    rw [Expr.optVal] at hc
    have := HeadSyn.cost hh hx
    have := ESyn.cost ha hc
    have := ESyn.cost he hy
    have h1 := loopCondition_cost (inRule_ok hc')
    simp [Val.cost, costItems, keyCost]; omega
theorem HeadSyn.cost {ln : Bool} : ∀ {l w n}, HeadSyn l w n → ∀ {v}, LoopHead.val ln l = .ok v → v.cost ≤ 4 * w.length
  | _, _, _, .arr _ _ he _, v, h => by
    rw [LoopHead.val] at h
    obtain ⟨x, hx, h⟩ := bind_ok' h
    cases h
    have := ESyn.cost he hx
    simp [Val.cost, costItems, keyCost]; omega
  | _, _, _, .arrIdx _ _ _ _ _ _ he _, v, h => by
    rw [LoopHead.val] at h
    obtain ⟨x, hx, h⟩ := bind_ok' h
    cases h
    have := ESyn.cost he hx
    simp [Val.cost, costItems, keyCost]; omega
  | _, _, _, .obj _ _ _ _ he _, v, h => by
    rw [LoopHead.val] at h
    obtain ⟨x, hx, h⟩ := bind_ok' h
    cases h
    simp [Val.cost, costItems, keyCost]; omega
theorem ConfigSyn.cost {ln : Bool} : ∀ {c w n}, ConfigSyn c w n → ∀ {v}, Config.val ln c = .ok v → v.cost ≤ 4 * w.length
  | _, _, _, .obj ho, v, h => by
    rw [Config.val] at h
    obtain ⟨vs, hv, h⟩ := bind_ok' h
    cases h
    have := ObjSyn.cost ho hv
    have := cost_lastWins vs
    simp [Val.cost]; omega
  | _, _, _, .loop hl, v, h => by rw [Config.val] at h; exact LoopSyn.cost hl h
  | _, _, _, .cond _ _ _ ha _ hb _, v, h => by
    rw [Config.val] at h
    obtain ⟨x, hx, h⟩ := bind_ok' h
    obtain ⟨y, hy, h⟩ := bind_ok' h
    cases h
    have := ESyn.cost ha hx
    have := ESyn.cost hb hy
    simp [Val.cost, costItems, keyCost]; omega
end

end Pycep
