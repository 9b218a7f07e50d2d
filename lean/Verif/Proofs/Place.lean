import Verif.Spec.Place
import Verif.Proofs.FunSpec
import Verif.Props.Result
/-
Every piece of a program is represented at its place.
-/
namespace Pycep

theorem vals_getElem {ln : Bool} {es : List Expr} {vs : List Val} (h : Expr.vals ln es = .ok vs) :
    es.length = vs.length ∧ ∀ (i : Nat) e, es[i]? = some e → ∃ v, e.val ln = .ok v ∧ vs[i]? = some v := by
  induction es generalizing vs with
  | nil => rw [Expr.vals] at h; cases h; simp
  | cons e es ih =>
    rw [Expr.vals] at h
    obtain ⟨v, hv, h⟩ := bind_ok' h
    obtain ⟨vs', hvs, h⟩ := bind_ok' h
    cases h
    obtain ⟨h1, h2⟩ := ih hvs
    refine ⟨by simp [h1], ?_⟩
    intro i e' he
    cases i with
    | zero => simp at he; subst he; exact ⟨v, hv, rfl⟩
    | succ i => simpa using h2 i e' (by simpa using he)

theorem vals_mem {ln : Bool} {es : List Expr} {vs : List Val} (h : Expr.vals ln es = .ok vs) {e}
    (he : e ∈ es) : ∃ v, e.val ln = .ok v := by
  obtain ⟨i, hi, rfl⟩ := List.mem_iff_getElem.mp he
  obtain ⟨v, hv, _⟩ := (vals_getElem h).2 i _ (List.getElem?_eq_getElem hi)
  exact ⟨v, hv⟩

theorem optVals_getElem {ln : Bool} {es : List (Option Expr)} {vs : List Val}
    (h : Expr.optVals ln es = .ok vs) : es.length = vs.length ∧
      ∀ (i : Nat) e, es[i]? = some e → ∃ v, Expr.optVal ln e = .ok v ∧ vs[i]? = some v := by
  induction es generalizing vs with
  | nil => rw [Expr.optVals] at h; cases h; simp
  | cons e es ih =>
    rw [Expr.optVals] at h
    obtain ⟨v, hv, h⟩ := bind_ok' h
    obtain ⟨vs', hvs, h⟩ := bind_ok' h
    cases h
    obtain ⟨h1, h2⟩ := ih hvs
    refine ⟨by simp [h1], ?_⟩
    intro i e' he
    cases i with
    | zero => simp at he; subst he; exact ⟨v, hv, rfl⟩
    | succ i => simpa using h2 i e' (by simpa using he)

/-- the value of a member of an object -/
def Item.inner (ln : Bool) : Item → Except VErr Val
  | .pair _ e => e.val ln
  | .pairLoop _ l => l.val ln
  | i@(.child ..) => (i.val ln).map Prod.snd

theorem item_val_key {ln : Bool} {i : Item} {p : String × Val} (h : i.val ln = .ok p) :
    p.1 = i.key ∧ i.inner ln = .ok p.2 ∧ ∃ y, i.node.val ln = .ok y := by
  cases i with
  | pair k e =>
    rw [Item.val] at h; obtain ⟨v, hv, h⟩ := bind_ok' h; cases h; exact ⟨rfl, hv, v, hv⟩
  | pairLoop k e =>
    rw [Item.val] at h; obtain ⟨v, hv, h⟩ := bind_ok' h; cases h; exact ⟨rfl, hv, v, hv⟩
  | child l n t ex c =>
    have h0 := h
    rw [Item.val] at h; obtain ⟨v, hv, h⟩ := bind_ok' h; cases h
    exact ⟨rfl, by rw [Item.inner, h0]; rfl, v, hv⟩

theorem items_mem {ln : Bool} {is : List Item} {ps : List (String × Val)} (h : Item.vals ln is = .ok ps) :
    (ps.map Prod.fst = is.map Item.key) ∧ ∀ i ∈ is, ∃ p, i.val ln = .ok p := by
  induction is generalizing ps with
  | nil => rw [Item.vals] at h; cases h; simp
  | cons i is ih =>
    rw [Item.vals] at h
    obtain ⟨v, hv, h⟩ := bind_ok' h
    obtain ⟨vs', hvs, h⟩ := bind_ok' h
    cases h
    obtain ⟨h1, h2⟩ := ih hvs
    refine ⟨by simp [h1, (item_val_key hv).1], ?_⟩
    intro j hj
    rcases List.mem_cons.mp hj with rfl | hj
    · exact ⟨v, hv⟩
    · exact h2 j hj

theorem items_append {ln : Bool} {is js : List Item} {ps : List (String × Val)}
    (h : Item.vals ln (is ++ js) = .ok ps) :
    ∃ a b, Item.vals ln is = .ok a ∧ Item.vals ln js = .ok b ∧ ps = a ++ b := by
  induction is generalizing ps with
  | nil => exact ⟨[], ps, by rw [Item.vals], h, rfl⟩
  | cons i is ih =>
    rw [List.cons_append, Item.vals] at h
    obtain ⟨v, hv, h⟩ := bind_ok' h
    obtain ⟨vs', hvs, h⟩ := bind_ok' h
    cases h
    obtain ⟨a, b, h1, h2, rfl⟩ := ih hvs
    refine ⟨v :: a, b, ?_, h2, rfl⟩
    rw [Item.vals, hv, h1]; rfl

theorem items_last {ln : Bool} {is : List Item} {ps : List (String × Val)} {k : String} {i : Item}
    (h : Item.vals ln is = .ok ps) (hl : LastItem is k i) :
    ∃ v, i.inner ln = .ok v ∧ dGet k (lastWins ps) = some v := by
  obtain ⟨a, b, rfl, hk, hb⟩ := hl
  obtain ⟨pa, pb, _, h2, rfl⟩ := items_append h
  rw [Item.vals] at h2
  obtain ⟨p, hp, h2⟩ := bind_ok' h2
  obtain ⟨pb', hpb, h2⟩ := bind_ok' h2
  cases h2
  obtain ⟨e1, e2, _⟩ := item_val_key hp
  refine ⟨p.2, e2, ?_⟩
  rw [dGet_lastWins, lookup_reverse]
  refine ⟨pa, pb', ?_, ?_⟩
  · rw [← hk, ← e1]
  · rw [(items_mem hpb).1]
    intro hm
    obtain ⟨j, hj, e⟩ := List.mem_map.mp hm
    exact hb j hj e

theorem items_absent {ln : Bool} {is : List Item} {ps : List (String × Val)} {k : String}
    (h : Item.vals ln is = .ok ps) (hl : ∀ i ∈ is, i.key ≠ k) : dGet k (lastWins ps) = .none := by
  rw [dGet_lastWins]
  cases hs : ps.reverse.lookup k with
  | none => rfl
  | some v =>
    have := lookup_mem_keys.mp (by rw [hs]; rfl : (ps.reverse.lookup k).isSome)
    rw [List.map_reverse, List.mem_reverse, (items_mem h).1] at this
    obtain ⟨i, hi, e⟩ := List.mem_map.mp this
    exact absurd e (hl i hi)

theorem lastItem_exists {is : List Item} {k : String} (h : ∃ i ∈ is, i.key = k) :
    ∃ i, LastItem is k i := by
  induction is with
  | nil => simp at h
  | cons i is ih =>
    by_cases h' : ∃ j ∈ is, j.key = k
    · obtain ⟨j, a, b, rfl, hk, hb⟩ := ih h'
      exact ⟨j, i :: a, b, rfl, hk, hb⟩
    · obtain ⟨j, hj, hk⟩ := h
      rcases List.mem_cons.mp hj with rfl | hj
      · exact ⟨j, [], is, rfl, hk, fun x hx e => h' ⟨x, hx, e⟩⟩
      · exact absurd ⟨j, hj, hk⟩ h'

/-! ### Pieces -/

theorem part1_val {ln : Bool} {n m : Node} {x : Val} (h : Part1 n m) (hx : n.val ln = .ok x) :
    ∃ y, m.val ln = .ok y := by
  cases h with
  | elem he =>
    rw [Node.val, Expr.val] at hx; obtain ⟨vs, hvs, _⟩ := bind_ok' hx; exact vals_mem hvs he
  | member hi =>
    rw [Node.val, Expr.val] at hx; obtain ⟨vs, hvs, _⟩ := bind_ok' hx
    obtain ⟨p, hp⟩ := (items_mem hvs).2 _ hi
    exact (item_val_key hp).2.2
  | arg he =>
    rw [Node.val, Expr.val] at hx; obtain ⟨vs, hvs, _⟩ := bind_ok' hx; exact vals_mem hvs he
  | left => rw [Node.val, Expr.val] at hx; obtain ⟨v, hv, _⟩ := bind_ok' hx; exact ⟨v, hv⟩
  | right =>
    rw [Node.val, Expr.val] at hx; obtain ⟨_, _, hx⟩ := bind_ok' hx
    obtain ⟨v, hv, _⟩ := bind_ok' hx; exact ⟨v, hv⟩
  | not => rw [Node.val, Expr.val] at hx; obtain ⟨v, hv, _⟩ := bind_ok' hx; exact ⟨v, hv⟩
  | minus => rw [Node.val, Expr.val] at hx; obtain ⟨v, hv, _⟩ := bind_ok' hx; exact ⟨v, hv⟩
  | cond => rw [Node.val, Expr.val] at hx; obtain ⟨v, hv, _⟩ := bind_ok' hx; exact ⟨v, hv⟩
  | condT =>
    rw [Node.val, Expr.val] at hx; obtain ⟨_, _, hx⟩ := bind_ok' hx
    obtain ⟨v, hv, _⟩ := bind_ok' hx; exact ⟨v, hv⟩
  | condF =>
    rw [Node.val, Expr.val] at hx; obtain ⟨_, _, hx⟩ := bind_ok' hx; obtain ⟨_, _, hx⟩ := bind_ok' hx
    obtain ⟨v, hv, _⟩ := bind_ok' hx; exact ⟨v, hv⟩
  | method => rw [Node.val, Expr.val] at hx; obtain ⟨v, hv, _⟩ := bind_ok' hx; exact ⟨v, hv⟩
  | methodArg he =>
    rw [Node.val, Expr.val] at hx; obtain ⟨_, _, hx⟩ := bind_ok' hx
    obtain ⟨vs, hvs, _⟩ := bind_ok' hx
    obtain ⟨i, hi, he⟩ := List.mem_iff_getElem.mp he
    obtain ⟨v, hv, _⟩ := (optVals_getElem hvs).2 i _ (by rw [List.getElem?_eq_getElem hi, he])
    rw [Expr.optVal] at hv
    exact ⟨v, hv⟩
  | lambdaV => rw [Node.val, Expr.val] at hx; obtain ⟨v, hv, _⟩ := bind_ok' hx; exact ⟨v, hv⟩
  | lambdaB =>
    rw [Node.val, Expr.val] at hx; obtain ⟨_, _, hx⟩ := bind_ok' hx
    obtain ⟨v, hv, _⟩ := bind_ok' hx; exact ⟨v, hv⟩
  | lambdaNV hv =>
    rw [Node.val, Expr.val] at hx
    obtain ⟨x1, h1, hx⟩ := bind_ok' hx; obtain ⟨x2, h2, hx⟩ := bind_ok' hx
    obtain ⟨x3, h3, hx⟩ := bind_ok' hx; obtain ⟨xs, h4, hx⟩ := bind_ok' hx
    simp only [List.mem_cons] at hv
    rcases hv with rfl | rfl | rfl | hv
    · exact ⟨_, h1⟩
    · exact ⟨_, h2⟩
    · exact ⟨_, h3⟩
    · exact vals_mem h4 hv
  | lambdaNB =>
    rw [Node.val, Expr.val] at hx
    obtain ⟨x1, h1, hx⟩ := bind_ok' hx; obtain ⟨x2, h2, hx⟩ := bind_ok' hx
    obtain ⟨x3, h3, hx⟩ := bind_ok' hx; obtain ⟨xs, h4, hx⟩ := bind_ok' hx
    obtain ⟨v, hv, _⟩ := bind_ok' hx; exact ⟨v, hv⟩
  | loopHead => rw [Node.val, Loop.val] at hx; obtain ⟨v, hv, _⟩ := bind_ok' hx; exact ⟨v, hv⟩
  | loopCond =>
    rw [Node.val, Loop.val] at hx; obtain ⟨_, _, hx⟩ := bind_ok' hx
    obtain ⟨v, hv, _⟩ := bind_ok' hx; rw [Expr.optVal] at hv; exact ⟨v, hv⟩
  | loopBody =>
    rw [Node.val, Loop.val] at hx; obtain ⟨_, _, hx⟩ := bind_ok' hx; obtain ⟨_, _, hx⟩ := bind_ok' hx
    obtain ⟨v, hv, _⟩ := bind_ok' hx; exact ⟨v, hv⟩
  | headArr => rw [Node.val, LoopHead.val] at hx; obtain ⟨v, hv, _⟩ := bind_ok' hx; exact ⟨v, hv⟩
  | headIdx => rw [Node.val, LoopHead.val] at hx; obtain ⟨v, hv, _⟩ := bind_ok' hx; exact ⟨v, hv⟩
  | headObj => rw [Node.val, LoopHead.val] at hx; obtain ⟨v, hv, _⟩ := bind_ok' hx; exact ⟨v, hv⟩
  | configMember hi =>
    rw [Node.val, Config.val] at hx; obtain ⟨vs, hvs, _⟩ := bind_ok' hx
    obtain ⟨p, hp⟩ := (items_mem hvs).2 _ hi
    exact (item_val_key hp).2.2
  | configLoop => rw [Node.val, Config.val] at hx; exact ⟨x, hx⟩
  | configCond => rw [Node.val, Config.val] at hx; obtain ⟨v, hv, _⟩ := bind_ok' hx; exact ⟨v, hv⟩
  | configBody =>
    rw [Node.val, Config.val] at hx; obtain ⟨_, _, hx⟩ := bind_ok' hx
    obtain ⟨v, hv, _⟩ := bind_ok' hx; exact ⟨v, hv⟩
  | @decoArg d e he =>
    rw [Node.val, Deco.val, he] at hx
    obtain ⟨v, hv, _⟩ := bind_ok' hx
    exact ⟨v, hv⟩

theorem part_val {ln : Bool} {n m : Node} {x : Val} (h : Part n m) (hx : n.val ln = .ok x) :
    ∃ y, m.val ln = .ok y := by
  induction h with
  | refl => exact ⟨x, hx⟩
  | step _ h1 ih => obtain ⟨y, hy⟩ := ih; exact part1_val h1 hy

theorem decoVals_getElem {ln : Bool} {ds : List Deco} {vs : List Val} (h : decoVals ln ds = .ok vs) :
    ds.length = vs.length ∧ ∀ (i : Nat) d, ds[i]? = some d → ∃ v, d.val ln = .ok v ∧ vs[i]? = some v := by
  induction ds generalizing vs with
  | nil => rw [decoVals] at h; cases h; simp
  | cons e es ih =>
    rw [decoVals] at h
    obtain ⟨v, hv, h⟩ := bind_ok' h
    obtain ⟨vs', hvs, h⟩ := bind_ok' h
    cases h
    obtain ⟨h1, h2⟩ := ih hvs
    refine ⟨by simp [h1], ?_⟩
    intro i e' he
    cases i with
    | zero => simp at he; subst he; exact ⟨v, hv, rfl⟩
    | succ i => simpa using h2 i e' (by simpa using he)

theorem decoVals_mem {ln : Bool} {ds : List Deco} {vs : List Val} (h : decoVals ln ds = .ok vs) {d}
    (hd : d ∈ ds) : ∃ v, d.val ln = .ok v := by
  obtain ⟨i, hi, rfl⟩ := List.mem_iff_getElem.mp hd
  obtain ⟨v, hv, _⟩ := (decoVals_getElem h).2 i _ (List.getElem?_eq_getElem hi)
  exact ⟨v, hv⟩

theorem declPart1_val {ln : Bool} {l : Lines} {d : Decl} {m : Node} {o : Out} (h : DeclPart1 d m)
    (ho : d.out ln l = .ok o) : ∃ y, m.val ln = .ok y := by
  cases h with
  | extension hi =>
    rw [Decl.out] at ho; obtain ⟨_, ho, _⟩ := bind_ok' ho
    rw [configItem] at ho
    obtain ⟨vs, hvs, _⟩ := bind_ok' ho
    obtain ⟨p, hp⟩ := (items_mem hvs).2 _ hi
    exact (item_val_key hp).2.2
  | paramDeco hd | varDeco hd | outDeco hd | resDeco hd | modDeco hd | typDeco hd | funcDeco hd =>
    rw [Decl.out] at ho; obtain ⟨_, ho, _⟩ := bind_ok' ho; exact decoVals_mem ho hd
  | paramDefault =>
    rw [Decl.out] at ho; obtain ⟨_, _, ho⟩ := bind_ok' ho; obtain ⟨v, hv, _⟩ := bind_ok' ho
    rw [Expr.optVal] at hv; exact ⟨v, hv⟩
  | varExpr | outExpr | varLoop | outLoop =>
    rw [Decl.out] at ho; obtain ⟨_, _, ho⟩ := bind_ok' ho; obtain ⟨v, hv, _⟩ := bind_ok' ho
    exact ⟨v, hv⟩
  | resConfig | modConfig =>
    rw [Decl.out] at ho; obtain ⟨_, _, ho⟩ := bind_ok' ho; obtain ⟨_, _, ho⟩ := bind_ok' ho
    obtain ⟨v, hv, _⟩ := bind_ok' ho
    exact ⟨v, hv⟩
  | @typExpr ds x e es a ha =>
    rw [Decl.out] at ho; obtain ⟨_, _, ho⟩ := bind_ok' ho; obtain ⟨v, hv, _⟩ := bind_ok' ho
    rw [typeVal] at hv
    split at hv
    · rename_i he
      rw [List.isEmpty_iff] at he; subst he
      simp only [List.mem_singleton] at ha; subst ha
      exact ⟨_, hv⟩
    · obtain ⟨x, hx, hv⟩ := bind_ok' hv
      obtain ⟨xs, hxs, hv⟩ := bind_ok' hv
      rcases List.mem_cons.mp ha with rfl | ha
      · exact ⟨_, hx⟩
      · exact vals_mem hxs ha
  | funcBody =>
    rw [Decl.out] at ho; obtain ⟨_, _, ho⟩ := bind_ok' ho; obtain ⟨v, hv, _⟩ := bind_ok' ho
    exact ⟨v, hv⟩

/-- every piece of an accepted program has a value -/
theorem has_val {ln : Bool} {p : Program} {v : Val} {n : Node} (h : p.Has n) (hv : p.val ln = .ok v) :
    ∃ y, n.val ln = .ok y := by
  obtain ⟨l, d, m, hd, hm, hn⟩ := h
  rw [Program.val] at hv
  obtain ⟨os, hos, hv'⟩ := bind_ok' hv
  clear hv hv'
  have : ∃ o, d.out ln l = .ok o := by
    induction p generalizing os with
    | nil => simp at hd
    | cons e p ih =>
      rw [Program.outs] at hos
      obtain ⟨o, ho, hos⟩ := bind_ok' hos
      obtain ⟨os', hos', _⟩ := bind_ok' hos
      rcases List.mem_cons.mp hd with rfl | hd
      · exact ⟨o, ho⟩
      · exact ih hd os' hos'
  obtain ⟨o, ho⟩ := this
  obtain ⟨y, hy⟩ := declPart1_val hm ho
  exact part_val hn hy

/-! ### Places -/

theorem dGet_cons_self (k : String) (v : Val) (d : List (String × Val)) : dGet k ((k, v) :: d) = some v := by
  simp [dGet]

theorem at_operand {l : String} {os : List (String × Val)} {k : String} {v : Val}
    (h : dGet k os = some v) : (opVal l os).at? (operandPath k) = some v := by
  simp [opVal, operandPath, Val.at?, Val.step?, dGet, h]

theorem signature_type_ne_if : ∀ s ∈ signatures, s.type ≠ "if" ∧ "if" ∉ s.names := by
  decide +kernel

theorem dGet_of_mem_nodup {ps : List (String × Val)} (h : (ps.map Prod.fst).Nodup) {k v}
    (hm : (k, v) ∈ ps) : dGet k ps = some v := dGet_mem h hm

theorem numbered_get (pre : String) (n : Nat) (vs : List Val) (i : Nat) {v : Val} (h : vs[i]? = some v) :
    dGet (pre ++ toString (n + i)) (numbered pre n vs) = some v := by
  apply dGet_mem (numbered_nodup ..)
  induction vs generalizing n i with
  | nil => simp at h
  | cons a vs ih =>
    cases i with
    | zero => simp at h; subst h; simp [numbered]
    | succ i =>
      simp only [numbered, List.mem_cons]
      right
      have := ih (n + 1) i (by simpa using h)
      rwa [show n + 1 + i = n + (i + 1) by omega] at this

theorem call_arg {f : String} {vs : List Val} {data v : Val} {i : Nat} {k : String}
    (hd : Functions.getFunction f f vs = .ok data) (hk : ArgKey f vs.length i k)
    (hv : vs[i]? = some v) : data.at? [.key "parameters", .key k] = some v := by
  cases hk with
  | @known s ps k hs hf hr hm =>
    have ha := getFunction_known hs hf f vs
    have hn := report_distinct s hs vs ps (hr vs rfl)
    unfold Agrees at ha
    rw [hr vs rfl, hd] at ha
    cases ha
    simp only [Val.at?, Val.step?, dGet, if_neg (by decide : ¬ ("type" = "parameters")), if_true,
      Option.bind_some]
    have : dGet k (ps.map (fun p => (p.1, p.2.val vs))) = some v := by
      apply dGet_mem
      · rw [List.map_map]; exact hn
      · exact List.mem_map.mpr ⟨_, hm, by simp [Src.val, hv]⟩
    rw [this]; rfl
  | unknown hu =>
    rw [getFunction_unknown hu] at hd
    cases hd
    simp only [Val.at?, Val.step?, dGet, if_neg (by decide : ¬ ("type" = "parameters")), if_true,
      Option.bind_some]
    have := numbered_get "arg_" 1 vs i hv
    rw [Nat.add_comm 1 i] at this
    rw [this]; rfl

theorem funVal_type {f : String} {args : List Val} {v : Val} (h : FunVal f args v) :
    ∃ t d, v = .dict d ∧ dGet "type" d = some (.str t) ∧ (t = "if" → f = "if") := by
  cases h with
  | known hs hf _ => exact ⟨_, _, rfl, rfl, fun h => absurd h (signature_type_ne_if _ hs).1⟩
  | bare hs hf _ => exact ⟨_, _, rfl, rfl, fun h => absurd h (signature_type_ne_if _ hs).1⟩
  | unknown _ => exact ⟨f, _, rfl, rfl, id⟩

theorem loopCondition_noFunction {d : List (String × Val)} (h : dGet "function" d = .none) :
    loopCondition (.dict d) = .ok (.dict d) := by
  simp [loopCondition, Val.getOrEmpty, h, Val.get, dGet, bind, Except.bind, Val.eqStr]

theorem loopCondition_function {d : List (String × Val)} {t : String}
    (h : dGet "type" d = some (.str t)) (hne : t ≠ "if") :
    loopCondition (.dict [("function", .dict d)]) = .ok (.dict [("function", .dict d)]) := by
  simp [loopCondition, Val.getOrEmpty, h, Val.get, dGet, bind, Except.bind, Val.eqStr, hne]

theorem loopCondition_if (vs : List Val) (v : Val) :
    loopCondition (.dict [("function", .dict [("type", .str "if"),
      ("parameters", .dict (numbered "arg_" 1 (v :: vs)))])]) = .ok v := by
  have : dGet "arg_1" (numbered "arg_" 1 (v :: vs)) = some v := numbered_get "arg_" 1 (v :: vs) 0 rfl
  simp [loopCondition, Val.getOrEmpty, Val.get, dGet, bind, Except.bind, Val.eqStr, Val.item, this]

/-- a condition that does not look like `if (...)` is left alone -/
theorem loopCondition_asItIs {ln : Bool} {c : Expr} {v : Val} (h : AsItIs c) (hv : c.val ln = .ok v) :
    loopCondition v = .ok v := by
  cases c <;> rw [Expr.val] at hv
  case null | tru | fls | ident | str | multi => cases hv; rfl
  case int d => split at hv <;> cases hv; rfl
  case array => obtain ⟨_, _, hv⟩ := bind_ok' hv; cases hv; rfl
  case object is =>
    obtain ⟨ps, hps, hv⟩ := bind_ok' hv; cases hv
    exact loopCondition_noFunction (items_absent hps h)
  case call f es =>
    obtain ⟨ps, hps, hv⟩ := bind_ok' hv
    obtain ⟨data, hd, hv⟩ := bind_ok' hv
    cases hv
    unfold inRule at hd
    split at hd <;> cases hd
    rename_i hd
    obtain ⟨t, d, rfl, ht, hif⟩ := funVal_type (funVal_iff.mp hd)
    exact loopCondition_function ht (fun e => h (hif e))
  case bin | method | lambda =>
    obtain ⟨_, _, hv⟩ := bind_ok' hv; obtain ⟨_, _, hv⟩ := bind_ok' hv; cases hv
    exact loopCondition_noFunction rfl
  case not | minus =>
    obtain ⟨_, _, hv⟩ := bind_ok' hv; cases hv
    exact loopCondition_noFunction rfl
  case cond =>
    obtain ⟨_, _, hv⟩ := bind_ok' hv; obtain ⟨_, _, hv⟩ := bind_ok' hv
    obtain ⟨_, _, hv⟩ := bind_ok' hv; cases hv
    exact loopCondition_noFunction rfl
  case lambdaN =>
    obtain ⟨_, _, hv⟩ := bind_ok' hv; obtain ⟨_, _, hv⟩ := bind_ok' hv
    obtain ⟨_, _, hv⟩ := bind_ok' hv; obtain ⟨_, _, hv⟩ := bind_ok' hv
    obtain ⟨_, _, hv⟩ := bind_ok' hv; cases hv
    exact loopCondition_noFunction rfl

theorem dataTypes_getElem {ds : List DataType} {d : DataType} {i : Nat} (h : ds[i]? = some d) :
    (DataType.vals ds)[i]? = some d.val := by
  induction ds generalizing i with
  | nil => simp at h
  | cons e ds ih =>
    rw [DataType.vals]
    cases i with
    | zero => simp at h; subst h; rfl
    | succ i => simpa using ih (by simpa using h)

theorem inRule_ok {α} {r : String} {x : Except PyErr α} {a : α} (h : inRule r x = .ok a) : x = .ok a := by
  unfold inRule at h
  split at h <;> cases h
  rfl

theorem place1_val {ln : Bool} {n m : Node} {π : List PStep} {x : Val} (h : Place1 n π m)
    (hx : n.val ln = .ok x) : ∃ y, m.val ln = .ok y ∧ x.at? π = some y := by
  cases h with
  | elem he =>
    rw [Node.val, Expr.val] at hx; obtain ⟨vs, hvs, hx⟩ := bind_ok' hx; cases hx
    obtain ⟨v, hv, hi⟩ := (vals_getElem hvs).2 _ _ he
    exact ⟨v, hv, by simp [Val.at?, Val.step?, hi]⟩
  | member hi =>
    rw [Node.val, Expr.val] at hx; obtain ⟨vs, hvs, hx⟩ := bind_ok' hx; cases hx
    obtain ⟨v, hv, hg⟩ := items_last hvs hi
    exact ⟨v, hv, by simp [Val.at?, Val.step?, hg]⟩
  | memberLoop hi =>
    rw [Node.val, Expr.val] at hx; obtain ⟨vs, hvs, hx⟩ := bind_ok' hx; cases hx
    obtain ⟨v, hv, hg⟩ := items_last hvs hi
    exact ⟨v, hv, by simp [Val.at?, Val.step?, hg]⟩
  | arg he hk =>
    rw [Node.val, Expr.val] at hx; obtain ⟨vs, hvs, hx⟩ := bind_ok' hx
    obtain ⟨data, hd, hx⟩ := bind_ok' hx; cases hx
    obtain ⟨h1, h2⟩ := vals_getElem hvs
    obtain ⟨v, hv, hi⟩ := h2 _ _ he
    rw [h1] at hk
    have := call_arg (inRule_ok hd) hk hi
    refine ⟨v, hv, ?_⟩
    simp only [Val.at?, Val.step?, dGet, if_true, Option.bind_some] at this ⊢
    exact this
  | left =>
    rw [Node.val, Expr.val] at hx; obtain ⟨v, hv, hx⟩ := bind_ok' hx
    obtain ⟨w, hw, hx⟩ := bind_ok' hx; cases hx
    exact ⟨v, hv, at_operand (by simp [dGet])⟩
  | right =>
    rw [Node.val, Expr.val] at hx; obtain ⟨v, hv, hx⟩ := bind_ok' hx
    obtain ⟨w, hw, hx⟩ := bind_ok' hx; cases hx
    exact ⟨w, hw, at_operand (by simp [dGet])⟩
  | not | minus =>
    rw [Node.val, Expr.val] at hx; obtain ⟨v, hv, hx⟩ := bind_ok' hx; cases hx
    exact ⟨v, hv, at_operand (by simp [dGet])⟩
  | cond =>
    rw [Node.val, Expr.val] at hx; obtain ⟨v, hv, hx⟩ := bind_ok' hx
    obtain ⟨w, hw, hx⟩ := bind_ok' hx; obtain ⟨u, hu, hx⟩ := bind_ok' hx; cases hx
    exact ⟨v, hv, at_operand (by simp [dGet])⟩
  | condT =>
    rw [Node.val, Expr.val] at hx; obtain ⟨v, hv, hx⟩ := bind_ok' hx
    obtain ⟨w, hw, hx⟩ := bind_ok' hx; obtain ⟨u, hu, hx⟩ := bind_ok' hx; cases hx
    exact ⟨w, hw, at_operand (by simp [dGet])⟩
  | condF =>
    rw [Node.val, Expr.val] at hx; obtain ⟨v, hv, hx⟩ := bind_ok' hx
    obtain ⟨w, hw, hx⟩ := bind_ok' hx; obtain ⟨u, hu, hx⟩ := bind_ok' hx; cases hx
    exact ⟨u, hu, at_operand (by simp [dGet])⟩
  | method =>
    rw [Node.val, Expr.val] at hx; obtain ⟨v, hv, hx⟩ := bind_ok' hx
    obtain ⟨w, hw, hx⟩ := bind_ok' hx; cases hx
    exact ⟨v, hv, at_operand (by simp [dGet])⟩
  | lambda =>
    rw [Node.val, Expr.val] at hx; obtain ⟨v, hv, hx⟩ := bind_ok' hx
    obtain ⟨w, hw, hx⟩ := bind_ok' hx; cases hx
    exact ⟨w, hw, by simp [Val.at?, Val.step?, dGet]⟩
  | lambdaN =>
    rw [Node.val, Expr.val] at hx
    obtain ⟨x1, h1, hx⟩ := bind_ok' hx; obtain ⟨x2, h2, hx⟩ := bind_ok' hx
    obtain ⟨x3, h3, hx⟩ := bind_ok' hx; obtain ⟨xs, h4, hx⟩ := bind_ok' hx
    obtain ⟨w, hw, hx⟩ := bind_ok' hx; cases hx
    refine ⟨w, hw, ?_⟩
    generalize hvars : (x1 :: x2 :: x3 :: xs).map (fun x => Val.str x.pyStr) = vars
    have hg : dGet "expression" (numbered "var_" 1 vars ++ [("expression", w)]) = some w := by
      apply dGet_mem
      · rw [List.map_append, List.nodup_append]
        refine ⟨numbered_nodup .., by simp, ?_⟩
        rintro a ha b hb rfl
        simp only [List.map_cons, List.map_nil, List.mem_singleton] at hb
        subst hb
        exact numbered_not_mem (by decide) _ _ ha
      · simp
    simp [Val.at?, Val.step?, dGet, hg]
  | loopHead =>
    rw [Node.val, Loop.val] at hx; obtain ⟨v, hv, hx⟩ := bind_ok' hx
    obtain ⟨w, hw, hx⟩ := bind_ok' hx; obtain ⟨u, hu, hx⟩ := bind_ok' hx
    obtain ⟨c, hc, hx⟩ := bind_ok' hx; cases hx
    exact ⟨v, hv, by simp [Val.at?, Val.step?, dGet]⟩
  | loopFilter hf =>
    rw [Node.val, Loop.val] at hx; obtain ⟨v, hv, hx⟩ := bind_ok' hx
    obtain ⟨w, hw, hx⟩ := bind_ok' hx; obtain ⟨u, hu, hx⟩ := bind_ok' hx
    obtain ⟨c, hc, hx⟩ := bind_ok' hx; cases hx
    rw [Expr.optVal, Expr.val, Expr.vals] at hw
    obtain ⟨vs, hvs, hw⟩ := bind_ok' hw
    obtain ⟨y, hy, hvs⟩ := bind_ok' hvs
    obtain ⟨ys, hys, hvs⟩ := bind_ok' hvs
    cases hvs
    obtain ⟨data, hd, hw⟩ := bind_ok' hw
    cases hw
    rw [hf, getFunction_unknown (fun s hs => (signature_type_ne_if s hs).2)] at hd
    cases hd
    rw [loopCondition_if] at hc
    cases hc
    exact ⟨_, hy, by simp [Val.at?, Val.step?, dGet]⟩
  | loopCond hc' =>
    rw [Node.val, Loop.val] at hx; obtain ⟨v, hv, hx⟩ := bind_ok' hx
    obtain ⟨w, hw, hx⟩ := bind_ok' hx; obtain ⟨u, hu, hx⟩ := bind_ok' hx
    obtain ⟨c, hc, hx⟩ := bind_ok' hx; cases hx
    rw [Expr.optVal] at hw
    rw [loopCondition_asItIs hc' hw] at hc
    cases hc
    exact ⟨w, hw, by simp [Val.at?, Val.step?, dGet]⟩
  | loopBody =>
    rw [Node.val, Loop.val] at hx; obtain ⟨v, hv, hx⟩ := bind_ok' hx
    obtain ⟨w, hw, hx⟩ := bind_ok' hx; obtain ⟨u, hu, hx⟩ := bind_ok' hx
    obtain ⟨c, hc, hx⟩ := bind_ok' hx; cases hx
    exact ⟨u, hu, by simp [Val.at?, Val.step?, dGet]⟩
  | headArr =>
    rw [Node.val, LoopHead.val] at hx; obtain ⟨v, hv, hx⟩ := bind_ok' hx; cases hx
    exact ⟨v, hv, by simp [Val.at?, Val.step?, dGet]⟩
  | headIdx =>
    rw [Node.val, LoopHead.val] at hx; obtain ⟨v, hv, hx⟩ := bind_ok' hx; cases hx
    exact ⟨v, hv, by simp [Val.at?, Val.step?, dGet]⟩
  | configMember hi =>
    rw [Node.val, Config.val] at hx; obtain ⟨vs, hvs, hx⟩ := bind_ok' hx; cases hx
    obtain ⟨v, hv, hg⟩ := items_last hvs hi
    exact ⟨v, hv, by simp [Val.at?, Val.step?, hg]⟩
  | configMemberLoop hi =>
    rw [Node.val, Config.val] at hx; obtain ⟨vs, hvs, hx⟩ := bind_ok' hx; cases hx
    obtain ⟨v, hv, hg⟩ := items_last hvs hi
    exact ⟨v, hv, by simp [Val.at?, Val.step?, hg]⟩
  | configLoop => rw [Node.val, Config.val] at hx; exact ⟨x, hx, rfl⟩
  | configCond =>
    rw [Node.val, Config.val] at hx; obtain ⟨v, hv, hx⟩ := bind_ok' hx
    obtain ⟨w, hw, hx⟩ := bind_ok' hx; cases hx
    exact ⟨v, hv, by simp [Val.at?, Val.step?, dGet]⟩
  | configBody =>
    rw [Node.val, Config.val] at hx; obtain ⟨v, hv, hx⟩ := bind_ok' hx
    obtain ⟨w, hw, hx⟩ := bind_ok' hx; cases hx
    exact ⟨w, hw, by simp [Val.at?, Val.step?, dGet]⟩
  | typeItem =>
    rw [Node.val, DataType.val] at hx; cases hx
    exact ⟨_, rfl, by simp [arrayOf, Val.at?, Val.step?, dGet, DataType.val]⟩
  | member1 =>
    rw [Node.val, DataType.val, BaseType.val] at hx; cases hx
    exact ⟨_, rfl, by simp [arrayOf, Val.at?, Val.step?, dGet]⟩
  | member2 =>
    rw [Node.val, DataType.val, BaseType.val] at hx; cases hx
    exact ⟨_, rfl, by simp [arrayOf, Val.at?, Val.step?, dGet]⟩
  | memberN hi =>
    rw [Node.val, DataType.val, BaseType.val] at hx; cases hx
    exact ⟨_, rfl, by simp [arrayOf, Val.at?, Val.step?, dGet, dataTypes_getElem hi]⟩

theorem place_val {ln : Bool} {n m : Node} {π : List PStep} {x : Val} (h : Place n π m)
    (hx : n.val ln = .ok x) : ∃ y, m.val ln = .ok y ∧ x.at? π = some y := by
  induction h with
  | refl => exact ⟨x, hx, rfl⟩
  | step _ h1 ih =>
    obtain ⟨y, hy, hat⟩ := ih
    obtain ⟨z, hz, hat'⟩ := place1_val h1 hy
    exact ⟨z, hz, by rw [Val.at?_append, hat]; exact hat'⟩

/-! ### Declarations -/

theorem dGet_dErase_ne {k k' : String} (h : k ≠ k') (d : List (String × Val)) :
    dGet k (dErase k' d) = dGet k d := by
  induction d with
  | nil => rfl
  | cons p d ih =>
    obtain ⟨a, v⟩ := p
    simp only [dErase]
    split
    · rename_i e
      subst e
      simp [dGet, Ne.symm h]
    · simp only [dGet, ih]

theorem processChild_config {n : Nat} {pn pt pa : Val} {cfg cfg' : List (String × Val)} {more : List Val}
    (h : processChild n pn pt pa cfg = .ok (cfg', more)) {k : String} (hk : k ≠ "__child_resource__") :
    dGet k cfg' = dGet k cfg := by
  cases n with
  | zero => rw [processChild] at h; cases h; rfl
  | succ n =>
    rw [processChild] at h
    split at h
    · cases h; rfl
    · obtain ⟨⟨ch, attrs, nn, c⟩, _, h⟩ := bind_ok' h
      simp only at h
      split at h
      · obtain ⟨_, _, h⟩ := bind_ok' h
        obtain ⟨⟨_, _⟩, _, h⟩ := bind_ok' h
        obtain ⟨_, _, h⟩ := bind_ok' h
        obtain ⟨_, _, h⟩ := bind_ok' h
        cases h
        exact dGet_dErase_ne hk cfg
      · cases h

theorem resourceVal_config {x t api : String} {v : Val} {cfg' : List (String × Val)} {more : List Val}
    (h : resourceVal x t api v = .ok (cfg', more)) :
    ∃ cfg, v = .dict cfg ∧ (∀ k, k ≠ "__child_resource__" → dGet k cfg' = dGet k cfg) ∧
      (dGet "__child_resource__" cfg = .none → cfg' = cfg ∧ more = []) := by
  unfold resourceVal at h
  split at h
  · rename_i cfg
    refine ⟨cfg, rfl, fun k hk => processChild_config h hk, fun hn => ?_⟩
    rw [processChild, hn] at h
    cases h
    exact ⟨rfl, rfl⟩
  · cases h

theorem loop_noChild {ln : Bool} {l : Loop} {v : Val} (h : l.val ln = .ok v) :
    ∃ d, v = .dict d ∧ dGet "__child_resource__" d = .none := by
  cases l with
  | mk h' c b =>
    rw [Loop.val] at h
    obtain ⟨_, _, h⟩ := bind_ok' h; obtain ⟨_, _, h⟩ := bind_ok' h
    obtain ⟨_, _, h⟩ := bind_ok' h; obtain ⟨_, _, h⟩ := bind_ok' h
    cases h
    exact ⟨_, rfl, rfl⟩

theorem at_key {d : List (String × Val)} {k : String} {v : Val} {π : List PStep}
    (h : dGet k d = some v) : (Val.dict d).at? (.key k :: π) = v.at? π := by
  simp [Val.at?, Val.step?, h]

theorem at_deco {d : List (String × Val)} {vs : List Val} {v : Val} {i : Nat}
    (h : dGet "decorators" d = some (.list vs)) (hi : vs[i]? = some v) :
    (Val.dict d).at? [.key "decorators", .idx i] = some v := by
  rw [at_key h]; simp [Val.at?, Val.step?, hi]

theorem declPlace1_val {ln : Bool} {l : Lines} {d : Decl} {π : List PStep} {n : Node} {o : Out}
    (h : DeclPlace1 d π n) (ho : d.out ln l = .ok o) :
    ∃ e y, o.own = [e] ∧ n.val ln = .ok y ∧ (Val.dict e.attrs).at? π = some y := by
  cases h with
  | paramDeco hi | varDeco hi | outDeco hi | typDeco hi | funcDeco hi =>
    rw [Decl.out] at ho; obtain ⟨vs, hvs, ho⟩ := bind_ok' ho
    obtain ⟨_, _, ho⟩ := bind_ok' ho; cases ho
    obtain ⟨v, hv, hi⟩ := (decoVals_getElem hvs).2 _ _ hi
    exact ⟨_, v, rfl, hv, at_deco (by simp [dGet]) hi⟩
  | resDeco hi =>
    rw [Decl.out] at ho; obtain ⟨vs, hvs, ho⟩ := bind_ok' ho
    obtain ⟨_, _, ho⟩ := bind_ok' ho; obtain ⟨_, _, ho⟩ := bind_ok' ho
    obtain ⟨_, _, ho⟩ := bind_ok' ho; cases ho
    obtain ⟨v, hv, hi⟩ := (decoVals_getElem hvs).2 _ _ hi
    exact ⟨_, v, rfl, hv, at_deco (by simp [dGet]) hi⟩
  | modDeco hi =>
    rw [Decl.out] at ho; obtain ⟨vs, hvs, ho⟩ := bind_ok' ho
    obtain ⟨_, _, ho⟩ := bind_ok' ho; obtain ⟨_, _, ho⟩ := bind_ok' ho
    obtain ⟨_, _, ho⟩ := bind_ok' ho; obtain ⟨_, _, ho⟩ := bind_ok' ho; cases ho
    obtain ⟨v, hv, hi⟩ := (decoVals_getElem hvs).2 _ _ hi
    exact ⟨_, v, rfl, hv, at_deco (by simp [dGet]) hi⟩
  | paramType | outType | varType | funcType =>
    rw [Decl.out] at ho; obtain ⟨vs, hvs, ho⟩ := bind_ok' ho
    obtain ⟨_, _, ho⟩ := bind_ok' ho; cases ho
    exact ⟨_, _, rfl, rfl, by rw [at_key (by simp [dGet, typeItem]; rfl)]; rfl⟩
  | paramDefault =>
    rw [Decl.out] at ho; obtain ⟨vs, hvs, ho⟩ := bind_ok' ho
    obtain ⟨v, hv, ho⟩ := bind_ok' ho; cases ho
    rw [Expr.optVal] at hv
    exact ⟨_, v, rfl, hv, by rw [at_key (by simp [dGet]; rfl)]; rfl⟩
  | varExpr | varLoop | outExpr | outLoop | funcBody =>
    rw [Decl.out] at ho; obtain ⟨vs, hvs, ho⟩ := bind_ok' ho
    obtain ⟨v, hv, ho⟩ := bind_ok' ho; cases ho
    exact ⟨_, v, rfl, hv, by rw [at_key (by simp [dGet]; rfl)]; rfl⟩
  | typExpr =>
    rw [Decl.out] at ho; obtain ⟨vs, hvs, ho⟩ := bind_ok' ho
    obtain ⟨v, hv, ho⟩ := bind_ok' ho; cases ho
    rw [typeVal] at hv
    exact ⟨_, v, rfl, hv, by rw [at_key (by simp [dGet]; rfl)]; rfl⟩
  | resMember hi hk | resMemberLoop hi hk =>
    rw [Decl.out] at ho; obtain ⟨vs, hvs, ho⟩ := bind_ok' ho
    obtain ⟨ta, _, ho⟩ := bind_ok' ho; obtain ⟨v, hv, ho⟩ := bind_ok' ho
    obtain ⟨⟨cfg', more⟩, hr, ho⟩ := bind_ok' ho; cases ho
    obtain ⟨cfg, rfl, hg, _⟩ := resourceVal_config (inRule_ok hr)
    rw [Config.val] at hv
    obtain ⟨ps, hps, hv⟩ := bind_ok' hv
    cases hv
    obtain ⟨y, hy, hgy⟩ := items_last hps hi
    refine ⟨_, y, rfl, hy, ?_⟩
    rw [at_key (v := .dict cfg') (by simp [dGet]), at_key (v := y) (by rw [hg _ hk, hgy])]; rfl
  | resLoop =>
    rw [Decl.out] at ho; obtain ⟨vs, hvs, ho⟩ := bind_ok' ho
    obtain ⟨ta, _, ho⟩ := bind_ok' ho; obtain ⟨v, hv, ho⟩ := bind_ok' ho
    obtain ⟨⟨cfg', more⟩, hr, ho⟩ := bind_ok' ho; cases ho
    obtain ⟨cfg, rfl, _, hn⟩ := resourceVal_config (inRule_ok hr)
    rw [Config.val] at hv
    obtain ⟨d, e, hd⟩ := loop_noChild hv
    cases e
    obtain ⟨rfl, _⟩ := hn hd
    exact ⟨_, _, rfl, hv, by rw [at_key (v := .dict cfg') (by simp [dGet])]; rfl⟩
  | resCond =>
    rw [Decl.out] at ho; obtain ⟨vs, hvs, ho⟩ := bind_ok' ho
    obtain ⟨ta, _, ho⟩ := bind_ok' ho; obtain ⟨v, hv, ho⟩ := bind_ok' ho
    obtain ⟨⟨cfg', more⟩, hr, ho⟩ := bind_ok' ho; cases ho
    obtain ⟨cfg, rfl, _, hn⟩ := resourceVal_config (inRule_ok hr)
    have hv' := hv
    rw [Config.val] at hv
    obtain ⟨_, _, hv⟩ := bind_ok' hv; obtain ⟨_, _, hv⟩ := bind_ok' hv
    cases hv
    obtain ⟨rfl, _⟩ := hn rfl
    exact ⟨_, _, rfl, hv', by rw [at_key (v := _) (by simp [dGet]; rfl)]; rfl⟩
  | modConfig =>
    rw [Decl.out] at ho; obtain ⟨vs, hvs, ho⟩ := bind_ok' ho
    obtain ⟨_, _, ho⟩ := bind_ok' ho; obtain ⟨v, hv, ho⟩ := bind_ok' ho
    obtain ⟨_, _, ho⟩ := bind_ok' ho; obtain ⟨_, _, ho⟩ := bind_ok' ho; cases ho
    exact ⟨_, v, rfl, hv, by rw [at_key (by simp [dGet]; rfl)]; rfl⟩
  | extConfig hne =>
    rw [Decl.out] at ho; obtain ⟨c, hc, ho⟩ := bind_ok' ho; cases ho
    rw [configItem] at hc
    obtain ⟨ps, hps, hc⟩ := bind_ok' hc
    have hpe : ps.isEmpty = false := by
      have := congrArg List.length (items_mem hps).1
      simp only [List.length_map] at this
      cases ps with
      | nil => exact absurd (List.length_eq_zero_iff.mp this.symm) hne
      | cons _ _ => rfl
    rw [hpe] at hc
    cases hc
    refine ⟨_, .dict (lastWins ps), rfl, ?_, by rw [at_key (by simp [dGet]; rfl)]; rfl⟩
    rw [Node.val, Config.val, hps]; rfl

end Pycep
