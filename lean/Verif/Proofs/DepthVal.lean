import Verif.Proofs.Depth
import Verif.Proofs.Place
import Verif.Proofs.SizeSyn
/-
Levels of the values of expressions.
-/
namespace Pycep

theorem levelsItems_le {d : List (String × Val)} {n : Nat} : Val.levelsItems d ≤ n ↔ ∀ p ∈ d, p.2.levels ≤ n := by
  induction d with
  | nil => simp [Val.levelsItems]
  | cons p d ih => obtain ⟨k, v⟩ := p; rw [List.forall_mem_cons, ← ih, Val.levelsItems]; simp only; omega

theorem levelsList_le {l : List Val} {n : Nat} : Val.levelsList l ≤ n ↔ ∀ v ∈ l, v.levels ≤ n := by
  induction l with
  | nil => simp [Val.levelsList]
  | cons v l ih => rw [List.forall_mem_cons, ← ih, Val.levelsList]; omega

theorem levels_dict (d : List (String × Val)) : (Val.dict d).levels = 1 + Val.levelsItems d := by rw [Val.levels]
theorem levels_list (d : List Val) : (Val.list d).levels = 1 + Val.levelsList d := by rw [Val.levels]
@[simp] theorem levels_str (s : String) : (Val.str s).levels = 0 := by simp [Val.levels]
@[simp] theorem levels_bool (s : Bool) : (Val.bool s).levels = 0 := by simp [Val.levels]
@[simp] theorem levels_int (s : Int) : (Val.int s).levels = 0 := by simp [Val.levels]
@[simp] theorem levels_elem (s : String) : (Val.elem s).levels = 0 := by simp [Val.levels]
@[simp] theorem levels_none : Val.none.levels = 0 := by simp [Val.levels]
@[simp] theorem levelsItems_nil : Val.levelsItems [] = 0 := by simp [Val.levelsItems]
@[simp] theorem levelsItems_cons (k : String) (v : Val) (d : List (String × Val)) :
    Val.levelsItems ((k, v) :: d) = max v.levels (Val.levelsItems d) := by rw [Val.levelsItems]
@[simp] theorem levelsList_nil : Val.levelsList [] = 0 := by simp [Val.levelsList]
@[simp] theorem levelsList_cons (v : Val) (d : List Val) :
    Val.levelsList (v :: d) = max v.levels (Val.levelsList d) := by rw [Val.levelsList]

theorem levelsItems_append (d e : List (String × Val)) :
    Val.levelsItems (d ++ e) = max (Val.levelsItems d) (Val.levelsItems e) := by
  induction d with
  | nil => simp
  | cons p d ih => obtain ⟨k, v⟩ := p; simp only [List.cons_append, levelsItems_cons, ih]; omega

theorem levels_lastWins (ps : List (String × Val)) : Val.levelsItems (lastWins ps) ≤ Val.levelsItems ps := by
  have h := (levelsItems_le (d := ps)).mp (le_refl _)
  refine levelsItems_le.mpr (fun p hp => ?_)
  simp only [lastWins, List.mem_map] at hp
  obtain ⟨k, _, rfl⟩ := hp
  simp only
  cases hl : ps.reverse.lookup k with
  | none => simp
  | some v =>
    exact h _ (List.mem_reverse.mp (lookup_mem hl))

theorem levels_numbered (pre : String) : ∀ (vs : List Val) (n : Nat),
    Val.levelsItems (numbered pre n vs) = Val.levelsList vs
  | [], _ => by simp [numbered]
  | v :: vs, n => by simp [numbered, levels_numbered pre vs]

theorem levels_filter (p : String × Val → Bool) (d : List (String × Val)) :
    Val.levelsItems (d.filter p) ≤ Val.levelsItems d := by
  have h := (levelsItems_le (d := d)).mp (le_refl _)
  exact levelsItems_le.mpr (fun q hq => h q (List.mem_of_mem_filter hq))

theorem levels_dGet {k : String} {d : List (String × Val)} {v : Val} (h : dGet k d = some v) :
    v.levels ≤ Val.levelsItems d := by
  induction d with
  | nil => cases h
  | cons p d ih =>
    obtain ⟨k', x⟩ := p
    rw [dGet] at h
    rw [levelsItems_cons]
    split at h
    · cases h; omega
    · have := ih h; omega

theorem levels_function {f : String} {args : List Val} {v : Val} (h : Functions.getFunction f f args = .ok v) :
    v.levels ≤ 2 + Val.levelsList args := by
  cases funVal_iff.mp h with
  | @known s ps hs _ hr =>
    have ha := (levelsList_le (l := args)).mp (le_refl _)
    have : Val.levelsItems (ps.map (fun p => (p.1, p.2.val args))) ≤ Val.levelsList args := by
      refine levelsItems_le.mpr (fun p hp => ?_)
      obtain ⟨⟨k, s⟩, _, rfl⟩ := List.mem_map.mp hp
      simp only
      cases s with
      | arg i =>
        rw [Src.val]
        cases hi : args[i]? with
        | none => simp
        | some x => exact ha x (List.mem_of_getElem? hi)
      | absent => simp [Src.val]
      | text s => simp [Src.val]
    simp only [levels_dict, levelsItems_cons, levels_str, levelsItems_nil]
    omega
  | bare =>
    simp only [levels_dict, levelsItems_cons, levels_str, levelsItems_nil]
    omega
  | unknown =>
    simp only [levels_dict, levelsItems_cons, levels_str, levelsItems_nil, levels_numbered]
    omega

theorem item_levels {v u : Val} {k : String} (h : v.item k = .ok u) : u.levels ≤ v.levels := by
  cases v with
  | dict d =>
    simp only [Val.item] at h
    split at h
    · rename_i x hg; cases h; have := levels_dGet hg; rw [levels_dict]; omega
    · cases h
  | _ => simp [Val.item] at h

theorem getOrEmpty_levels {v u : Val} {k : String} (h : v.getOrEmpty k = .ok u) : u.levels ≤ max 1 v.levels := by
  cases v with
  | dict d =>
    simp only [Val.getOrEmpty] at h
    cases h
    cases hg : dGet k d with
    | none => simp [levels_dict]
    | some x => have := levels_dGet hg; rw [levels_dict]; simp only [Option.getD_some]; omega
  | _ => simp [Val.getOrEmpty] at h

theorem loopCondition_levels {c x : Val} (h : loopCondition c = .ok x) : x.levels ≤ c.levels := by
  unfold loopCondition at h
  split at h
  · rename_i d
    obtain ⟨f, hf, h⟩ := bind_ok' h
    obtain ⟨t, ht, h⟩ := bind_ok' h
    split at h
    · obtain ⟨ps, hp, h⟩ := bind_ok' h
      have h1 := getOrEmpty_levels hf
      have := item_levels hp
      have := item_levels h
      have : 1 ≤ (Val.dict d).levels := by rw [levels_dict]; omega
      omega
    · cases h; exact le_refl _
  · cases h; exact le_refl _

theorem levels_opVal (l : String) (d : List (String × Val)) : (opVal l d).levels = 3 + Val.levelsItems d := by
  simp only [opVal, levels_dict, levelsItems_cons, levels_str, levelsItems_nil]; omega

theorem levels_strs {α} (f : α → String) (xs : List α) : Val.levelsList (xs.map (fun x => Val.str (f x))) = 0 := by
  induction xs with
  | nil => simp
  | cons x xs ih => simp [ih]

theorem levels_lineItems (ln : Bool) (l : Lines) : Val.levelsItems (lineItems ln l) = 0 := by
  cases ln <;> simp [lineItems]

theorem one_le_nest (c : Config) : 1 ≤ c.nest := by
  cases c with
  | loop l => cases l; simp [Config.nest, Loop.nest]
  | _ => simp [Config.nest]

mutual
theorem Expr.levels_le {ln : Bool} : ∀ {e : Expr} {v : Val}, e.val ln = .ok v → v.levels ≤ 3 * e.nest
  | .null, v, h => by rw [Expr.val] at h; cases h; simp [Expr.nest]
  | .tru, v, h => by rw [Expr.val] at h; cases h; simp [Expr.nest]
  | .fls, v, h => by rw [Expr.val] at h; cases h; simp [Expr.nest]
  | .int d, v, h => by
    rw [Expr.val] at h
    split at h
    · cases h; simp [Expr.nest]
    · cases h
  | .ident x, v, h => by rw [Expr.val] at h; cases h; simp [Expr.nest]
  | .str x, v, h => by rw [Expr.val] at h; cases h; simp [Expr.nest]
  | .multi x, v, h => by rw [Expr.val] at h; cases h; simp [Expr.nest]
  | .array es, v, h => by
    rw [Expr.val] at h
    obtain ⟨vs, hv, h⟩ := bind_ok' h
    cases h
    have := Expr.levelsL_le hv
    rw [levels_list, Expr.nest]; omega
  | .object is, v, h => by
    rw [Expr.val] at h
    obtain ⟨vs, hv, h⟩ := bind_ok' h
    cases h
    have := Item.levelsL_le hv
    have := levels_lastWins vs
    rw [levels_dict, Expr.nest]; omega
  | .call f es, v, h => by
    rw [Expr.val] at h
    obtain ⟨vs, hv, h⟩ := bind_ok' h
    obtain ⟨d, hd, h⟩ := bind_ok' h
    cases h
    have := Expr.levelsL_le hv
    have := levels_function (inRule_ok hd)
    rw [levels_dict, levelsItems_cons, levelsItems_nil, Expr.nest]; omega
  | .bin op a b, v, h => by
    rw [Expr.val] at h
    obtain ⟨x, hx, h⟩ := bind_ok' h
    obtain ⟨y, hy, h⟩ := bind_ok' h
    cases h
    have := Expr.levels_le hx
    have := Expr.levels_le hy
    rw [levels_opVal, Expr.nest]
    simp only [levelsItems_cons, levelsItems_nil]; omega
  | .not a, v, h => by
    rw [Expr.val] at h
    obtain ⟨x, hx, h⟩ := bind_ok' h
    cases h
    have := Expr.levels_le hx
    rw [levels_opVal, Expr.nest]
    simp only [levelsItems_cons, levelsItems_nil]; omega
  | .minus a, v, h => by
    rw [Expr.val] at h
    obtain ⟨x, hx, h⟩ := bind_ok' h
    cases h
    have := Expr.levels_le hx
    rw [levels_opVal, Expr.nest]
    simp only [levelsItems_cons, levelsItems_nil]; omega
  | .cond a b c, v, h => by
    rw [Expr.val] at h
    obtain ⟨x, hx, h⟩ := bind_ok' h
    obtain ⟨y, hy, h⟩ := bind_ok' h
    obtain ⟨z, hz, h⟩ := bind_ok' h
    cases h
    have := Expr.levels_le hx
    have := Expr.levels_le hy
    have := Expr.levels_le hz
    rw [levels_opVal, Expr.nest]
    simp only [levelsItems_cons, levelsItems_nil]; omega
  | .method a f args, v, h => by
    rw [Expr.val] at h
    obtain ⟨x, hx, h⟩ := bind_ok' h
    obtain ⟨vs, hvs, h⟩ := bind_ok' h
    cases h
    have := Expr.levels_le hx
    have := Expr.levelsO_le hvs
    have h1 := levels_filter (fun p => p.2.truthy) (numbered "operand_" 2 vs)
    rw [levels_numbered] at h1
    rw [levels_opVal, Expr.nest]
    simp only [levelsItems_cons, levels_str]; omega
  | .lambda a b, v, h => by
    rw [Expr.val] at h
    obtain ⟨x, hx, h⟩ := bind_ok' h
    obtain ⟨y, hy, h⟩ := bind_ok' h
    cases h
    have := Expr.levels_le hy
    rw [Expr.nest]
    simp only [levels_dict, levelsItems_cons, levelsItems_nil, levels_str]; omega
  | .lambdaN a b c vs e, v, h => by
    rw [Expr.val] at h
    obtain ⟨x, hx, h⟩ := bind_ok' h
    obtain ⟨y, hy, h⟩ := bind_ok' h
    obtain ⟨z, hz, h⟩ := bind_ok' h
    obtain ⟨xs, hxs, h⟩ := bind_ok' h
    obtain ⟨u, hu, h⟩ := bind_ok' h
    cases h
    have := Expr.levels_le hu
    rw [Expr.nest]
    simp only [levels_dict, levelsItems_cons, levelsItems_nil, levels_str, levelsItems_append, levels_numbered,
      levels_strs]; omega
theorem Expr.levelsL_le {ln : Bool} : ∀ {es : List Expr} {vs : List Val}, Expr.vals ln es = .ok vs →
    Val.levelsList vs ≤ 3 * Expr.nests es
  | [], vs, h => by rw [Expr.vals] at h; cases h; simp
  | e :: es, vs, h => by
    rw [Expr.vals] at h
    obtain ⟨x, hx, h⟩ := bind_ok' h
    obtain ⟨xs, hxs, h⟩ := bind_ok' h
    cases h
    have := Expr.levels_le hx
    have := Expr.levelsL_le hxs
    rw [levelsList_cons, Expr.nests]; omega
theorem Expr.levelsOne_le {ln : Bool} : ∀ {e : Option Expr} {v : Val}, Expr.optVal ln e = .ok v →
    v.levels ≤ 3 * Expr.optNest e
  | .none, v, h => by rw [Expr.optVal] at h; cases h; simp
  | some e, v, h => by rw [Expr.optVal] at h; have := Expr.levels_le h; rw [Expr.optNest]; omega
theorem Expr.levelsO_le {ln : Bool} : ∀ {es : List (Option Expr)} {vs : List Val}, Expr.optVals ln es = .ok vs →
    Val.levelsList vs ≤ 3 * Expr.optNests es
  | [], vs, h => by rw [Expr.optVals] at h; cases h; simp
  | e :: es, vs, h => by
    rw [Expr.optVals] at h
    obtain ⟨x, hx, h⟩ := bind_ok' h
    obtain ⟨xs, hxs, h⟩ := bind_ok' h
    cases h
    have := Expr.levelsOne_le hx
    have := Expr.levelsO_le hxs
    rw [levelsList_cons, Expr.optNests]; omega
theorem Item.levels_le {ln : Bool} : ∀ {i : Item} {p : String × Val}, i.val ln = .ok p → p.2.levels ≤ 3 * i.nest
  | .pair k e, p, h => by
    rw [Item.val] at h
    obtain ⟨x, hx, h⟩ := bind_ok' h
    cases h
    have := Expr.levels_le hx
    rw [Item.nest]; simp only; omega
  | .pairLoop k l, p, h => by
    rw [Item.val] at h
    obtain ⟨x, hx, h⟩ := bind_ok' h
    cases h
    have := Loop.levels_le hx
    rw [Item.nest]; simp only; omega
  | .child l n t ex c, p, h => by
    rw [Item.val] at h
    obtain ⟨x, hx, h⟩ := bind_ok' h
    cases h
    have := Config.levels_le hx
    have := one_le_nest c
    rw [Item.nest]
    simp only [levels_dict, levelsItems_cons, levelsItems_nil, levelsItems_append, levels_str, levels_bool,
      levels_list, levelsList_nil, levels_lineItems]
    omega
theorem Item.levelsL_le {ln : Bool} : ∀ {is : List Item} {ps : List (String × Val)}, Item.vals ln is = .ok ps →
    Val.levelsItems ps ≤ 3 * Item.nests is
  | [], vs, h => by rw [Item.vals] at h; cases h; simp
  | i :: is, vs, h => by
    rw [Item.vals] at h
    obtain ⟨⟨k, x⟩, hx, h⟩ := bind_ok' h
    obtain ⟨xs, hxs, h⟩ := bind_ok' h
    cases h
    have := Item.levels_le hx
    have := Item.levelsL_le hxs
    rw [levelsItems_cons, Item.nests]; simp only at *; omega
theorem Loop.levels_le {ln : Bool} : ∀ {l : Loop} {v : Val}, l.val ln = .ok v → v.levels ≤ 3 * l.nest
  | .mk hd c b, v, h => by
    rw [Loop.val] at h
    obtain ⟨x, hx, h⟩ := bind_ok' h
    obtain ⟨y, hy, h⟩ := bind_ok' h
    obtain ⟨z, hz, h⟩ := bind_ok' h
    obtain ⟨u, hu, h⟩ := bind_ok' h
    cases h
    have := LoopHead.levels_le hx
    have := Expr.levelsOne_le hy
    have := Expr.levels_le hz
    have := loopCondition_levels (inRule_ok hu)
    rw [Loop.nest]
    simp only [levels_dict, levelsItems_cons, levelsItems_nil]; omega
theorem LoopHead.levels_le {ln : Bool} : ∀ {l : LoopHead} {v : Val}, l.val ln = .ok v → v.levels ≤ 3 * l.nest
  | .arr x e, v, h => by
    rw [LoopHead.val] at h
    obtain ⟨x, hx, h⟩ := bind_ok' h
    cases h
    have := Expr.levels_le hx
    rw [LoopHead.nest]
    simp only [levels_dict, levelsItems_cons, levelsItems_nil, levels_str]; omega
  | .arrIdx x i e, v, h => by
    rw [LoopHead.val] at h
    obtain ⟨x, hx, h⟩ := bind_ok' h
    cases h
    have := Expr.levels_le hx
    rw [LoopHead.nest]
    simp only [levels_dict, levelsItems_cons, levelsItems_nil, levels_str]; omega
  | .obj x e, v, h => by
    rw [LoopHead.val] at h
    obtain ⟨x, hx, h⟩ := bind_ok' h
    cases h
    have := Expr.levels_le hx
    rw [LoopHead.nest]
    simp only [levels_dict, levelsItems_cons, levelsItems_nil, levels_str]; omega
theorem Config.levels_le {ln : Bool} : ∀ {c : Config} {v : Val}, c.val ln = .ok v → v.levels ≤ 3 * c.nest
  | .obj is, v, h => by
    rw [Config.val] at h
    obtain ⟨vs, hv, h⟩ := bind_ok' h
    cases h
    have := Item.levelsL_le hv
    have := levels_lastWins vs
    rw [levels_dict, Config.nest]; omega
  | .loop l, v, h => by
    rw [Config.val] at h
    have := Loop.levels_le h
    rw [Config.nest]; omega
  | .cond a b, v, h => by
    rw [Config.val] at h
    obtain ⟨x, hx, h⟩ := bind_ok' h
    obtain ⟨y, hy, h⟩ := bind_ok' h
    cases h
    have := Expr.levels_le hx
    have := Expr.levels_le hy
    rw [Config.nest]
    simp only [levels_dict, levelsItems_cons, levelsItems_nil]; omega
end

end Pycep
