import Verif.Proofs.Edit
/-
An edit is refused only because of the new piece.
-/
namespace Pycep

theorem vals_join {ln : Bool} {a b : List Expr} {e : Expr} {va vb : List Val} {v : Val}
    (h1 : Expr.vals ln a = .ok va) (h2 : e.val ln = .ok v) (h3 : Expr.vals ln b = .ok vb) :
    Expr.vals ln (a ++ e :: b) = .ok (va ++ v :: vb) := by
  induction a generalizing va with
  | nil => rw [Expr.vals] at h1; cases h1; rw [List.nil_append, Expr.vals, h2, h3]; rfl
  | cons x a ih =>
    rw [Expr.vals] at h1
    obtain ⟨w, hw, h1⟩ := bind_ok' h1; obtain ⟨ws, hws, h1⟩ := bind_ok' h1
    cases h1
    rw [List.cons_append, Expr.vals, hw, ih hws]; rfl

theorem items_join {ln : Bool} {a b : List Item} {i : Item} {va vb : List (String × Val)} {v : String × Val}
    (h1 : Item.vals ln a = .ok va) (h2 : i.val ln = .ok v) (h3 : Item.vals ln b = .ok vb) :
    Item.vals ln (a ++ i :: b) = .ok (va ++ v :: vb) := by
  induction a generalizing va with
  | nil => rw [Item.vals] at h1; cases h1; rw [List.nil_append, Item.vals, h2, h3]; rfl
  | cons x a ih =>
    rw [Item.vals] at h1
    obtain ⟨w, hw, h1⟩ := bind_ok' h1; obtain ⟨ws, hws, h1⟩ := bind_ok' h1
    cases h1
    rw [List.cons_append, Item.vals, hw, ih hws]; rfl

theorem decoVals_join {ln : Bool} {a b : List Deco} {d : Deco} {va vb : List Val} {v : Val}
    (h1 : decoVals ln a = .ok va) (h2 : d.val ln = .ok v) (h3 : decoVals ln b = .ok vb) :
    decoVals ln (a ++ d :: b) = .ok (va ++ v :: vb) := by
  induction a generalizing va with
  | nil => rw [decoVals] at h1; cases h1; rw [List.nil_append, decoVals, h2, h3]; rfl
  | cons x a ih =>
    rw [decoVals] at h1
    obtain ⟨w, hw, h1⟩ := bind_ok' h1; obtain ⟨ws, hws, h1⟩ := bind_ok' h1
    cases h1
    rw [List.cons_append, decoVals, hw, ih hws]; rfl

theorem items_ok {ln : Bool} {a b : List Item} {i i' : Item} {ps : List (String × Val)} {q : String × Val}
    (h : Item.vals ln (a ++ i :: b) = .ok ps) (h' : i'.val ln = .ok q) :
    ∃ ps', Item.vals ln (a ++ i' :: b) = .ok ps' := by
  obtain ⟨pa, v, pb, h1, h2, h3, rfl⟩ := items_split h
  exact ⟨_, items_join h1 h' h3⟩

theorem pair_ok {ln : Bool} {k : Key} {e : Expr} {y : Val} (h : e.val ln = .ok y) :
    (Item.pair k e).val ln = .ok (k.text, y) := by rw [Item.val, h]; rfl

theorem pairLoop_ok {ln : Bool} {k : Key} {l : Loop} {y : Val} (h : l.val ln = .ok y) :
    (Item.pairLoop k l).val ln = .ok (k.text, y) := by rw [Item.val, h]; rfl

theorem decos_ok {ln : Bool} {a b : List Deco} {d d' : Deco} {vs : List Val} {y : Val}
    (h : decoVals ln (a ++ d :: b) = .ok vs) (h' : d'.val ln = .ok y) : ∃ vs', decoVals ln (a ++ d' :: b) = .ok vs' := by
  obtain ⟨pa, v, pb, h1, h2, h3, rfl, _⟩ := decoVals_split h
  exact ⟨_, decoVals_join h1 h' h3⟩

theorem call_ok {f : String} {a b : List Val} {u : Val} {k : String} (u' : Val)
    (hk : ArgKey f (a ++ u :: b).length a.length k) : ∃ data, Functions.getFunction f f (a ++ u' :: b) = .ok data := by
  cases hk with
  | @known s ps k hs hf hr hm =>
    have ha' := getFunction_known hs hf f (a ++ u' :: b)
    unfold Agrees at ha'
    rw [hr _ (by simp)] at ha'
    exact ⟨_, ha'⟩
  | unknown hu => exact ⟨_, getFunction_unknown hu f _⟩

theorem edit1_ok {ln : Bool} {n n' m m' : Node} {π : List PStep} {x y' : Val} (h : Edit1 n n' π m m')
    (hx : n.val ln = .ok x) (hy' : m'.val ln = .ok y') : ∃ x', n'.val ln = .ok x' := by
  cases h with
  | elem =>
    rw [Node.val, Expr.val] at hx
    obtain ⟨vs, hvs, hx⟩ := bind_ok' hx
    obtain ⟨va, v, vb, h1, h2, h3, rfl, h5⟩ := vals_split hvs
    exact ⟨_, by rw [Node.val, Expr.val, vals_join h1 hy' h3]; rfl⟩
  | member hb =>
    rw [Node.val, Expr.val] at hx
    obtain ⟨vs, hvs, hx⟩ := bind_ok' hx
    obtain ⟨ps', hps⟩ := items_ok hvs (pair_ok hy')
    exact ⟨_, by rw [Node.val, Expr.val, hps]; rfl⟩
  | memberLoop hb =>
    rw [Node.val, Expr.val] at hx
    obtain ⟨vs, hvs, hx⟩ := bind_ok' hx
    obtain ⟨ps', hps⟩ := items_ok hvs (pairLoop_ok hy')
    exact ⟨_, by rw [Node.val, Expr.val, hps]; rfl⟩
  | configMember hb =>
    rw [Node.val, Config.val] at hx
    obtain ⟨vs, hvs, hx⟩ := bind_ok' hx
    obtain ⟨ps', hps⟩ := items_ok hvs (pair_ok hy')
    exact ⟨_, by rw [Node.val, Config.val, hps]; rfl⟩
  | configMemberLoop hb =>
    rw [Node.val, Config.val] at hx
    obtain ⟨vs, hvs, hx⟩ := bind_ok' hx
    obtain ⟨ps', hps⟩ := items_ok hvs (pairLoop_ok hy')
    exact ⟨_, by rw [Node.val, Config.val, hps]; rfl⟩
  | arg hk =>
    rw [Node.val, Expr.val] at hx
    obtain ⟨vs, hvs, hx⟩ := bind_ok' hx
    have hl := (vals_getElem hvs).1
    obtain ⟨va, v, vb, h1, h2, h3, rfl, h5⟩ := vals_split hvs
    rw [hl, ← h5] at hk
    obtain ⟨data, hd⟩ := call_ok y' hk
    exact ⟨_, by rw [Node.val, Expr.val, vals_join h1 hy' h3]; simp only [bind, Except.bind, hd, inRule]; rfl⟩
  | left =>
    rw [Node.val, Expr.val] at hx
    obtain ⟨v, hv, hx⟩ := bind_ok' hx; obtain ⟨w, hw, hx⟩ := bind_ok' hx
    rw [Node.val] at hy'
    exact ⟨_, by rw [Node.val, Expr.val, hy', hw]; rfl⟩
  | right =>
    rw [Node.val, Expr.val] at hx
    obtain ⟨v, hv, hx⟩ := bind_ok' hx; obtain ⟨w, hw, hx⟩ := bind_ok' hx
    rw [Node.val] at hy'
    exact ⟨_, by rw [Node.val, Expr.val, hv, hy']; rfl⟩
  | not | minus => rw [Node.val] at hy'; exact ⟨_, by rw [Node.val, Expr.val, hy']; rfl⟩
  | cond | condT | condF =>
    rw [Node.val, Expr.val] at hx
    obtain ⟨v, hv, hx⟩ := bind_ok' hx; obtain ⟨w, hw, hx⟩ := bind_ok' hx; obtain ⟨u, hu, hx⟩ := bind_ok' hx
    rw [Node.val] at hy'
    rw [Node.val, Expr.val]
    simp only [hv, hw, hu, hy']
    exact ⟨_, rfl⟩
  | method =>
    rw [Node.val, Expr.val] at hx
    obtain ⟨v, hv, hx⟩ := bind_ok' hx; obtain ⟨w, hw, hx⟩ := bind_ok' hx
    rw [Node.val] at hy'
    exact ⟨_, by rw [Node.val, Expr.val, hy', hw]; rfl⟩
  | lambda =>
    rw [Node.val, Expr.val] at hx
    obtain ⟨v, hv, hx⟩ := bind_ok' hx; obtain ⟨w, hw, hx⟩ := bind_ok' hx
    rw [Node.val] at hy'
    exact ⟨_, by rw [Node.val, Expr.val, hv, hy']; rfl⟩
  | lambdaN =>
    rw [Node.val, Expr.val] at hx
    obtain ⟨x1, h1, hx⟩ := bind_ok' hx; obtain ⟨x2, h2, hx⟩ := bind_ok' hx
    obtain ⟨x3, h3, hx⟩ := bind_ok' hx; obtain ⟨xs, h4, hx⟩ := bind_ok' hx
    rw [Node.val] at hy'
    exact ⟨_, by rw [Node.val, Expr.val, h1, h2, h3, h4, hy']; rfl⟩
  | loopHead =>
    rw [Node.val, Loop.val] at hx
    obtain ⟨v, hv, hx⟩ := bind_ok' hx; obtain ⟨w, hw, hx⟩ := bind_ok' hx; obtain ⟨u, hu, hx⟩ := bind_ok' hx
    obtain ⟨c, hc, hx⟩ := bind_ok' hx
    rw [Node.val] at hy'
    rw [Node.val, Loop.val]
    simp only [hy', hw, hu, bind, Except.bind, hc]
    exact ⟨_, rfl⟩
  | loopBody =>
    rw [Node.val, Loop.val] at hx
    obtain ⟨v, hv, hx⟩ := bind_ok' hx; obtain ⟨w, hw, hx⟩ := bind_ok' hx; obtain ⟨u, hu, hx⟩ := bind_ok' hx
    obtain ⟨c, hc, hx⟩ := bind_ok' hx
    rw [Node.val] at hy'
    rw [Node.val, Loop.val]
    simp only [hv, hw, hy', bind, Except.bind, hc]
    exact ⟨_, rfl⟩
  | loopCond hi hi' =>
    rw [Node.val, Loop.val] at hx
    obtain ⟨v, hv, hx⟩ := bind_ok' hx; obtain ⟨w, hw, hx⟩ := bind_ok' hx; obtain ⟨u, hu, hx⟩ := bind_ok' hx
    rw [Node.val] at hy'
    rw [Node.val, Loop.val, Expr.optVal]
    simp only [hv, hu, hy', bind, Except.bind, loopCondition_asItIs hi' hy', inRule]
    exact ⟨_, rfl⟩
  | loopFilter hf =>
    rw [Node.val, Loop.val] at hx
    obtain ⟨v, hv, hx⟩ := bind_ok' hx; obtain ⟨w, hw, hx⟩ := bind_ok' hx; obtain ⟨u, hu, hx⟩ := bind_ok' hx
    rw [Expr.optVal, Expr.val, Expr.vals] at hw
    obtain ⟨vs, hvs, hw⟩ := bind_ok' hw; obtain ⟨y, hy, hvs⟩ := bind_ok' hvs
    obtain ⟨ys, hys, hvs⟩ := bind_ok' hvs
    rw [Node.val] at hy'
    rw [Node.val, Loop.val, Expr.optVal, Expr.val, Expr.vals, hf]
    simp only [hv, hu, hy', hys, bind, Except.bind, inRule,
      getFunction_unknown (fun s hs => (signature_type_ne_if s hs).2), loopCondition_if]
    exact ⟨_, rfl⟩
  | headArr | headIdx =>
    rw [Node.val] at hy'
    exact ⟨_, by rw [Node.val, LoopHead.val, hy']; rfl⟩
  | configLoop => exact ⟨y', by rw [Node.val, Config.val]; exact hy'⟩
  | configCond =>
    rw [Node.val, Config.val] at hx
    obtain ⟨v, hv, hx⟩ := bind_ok' hx; obtain ⟨w, hw, hx⟩ := bind_ok' hx
    rw [Node.val] at hy'
    exact ⟨_, by rw [Node.val, Config.val, hy', hw]; rfl⟩
  | configBody =>
    rw [Node.val, Config.val] at hx
    obtain ⟨v, hv, hx⟩ := bind_ok' hx; obtain ⟨w, hw, hx⟩ := bind_ok' hx
    rw [Node.val] at hy'
    exact ⟨_, by rw [Node.val, Config.val, hv, hy']; rfl⟩

theorem edit1_piece {ln : Bool} {n n' m m' : Node} {π : List PStep} {x : Val} (h : Edit1 n n' π m m')
    (hx : n.val ln = .ok x) : ∃ y, m.val ln = .ok y := by
  obtain ⟨y, _, hy, _⟩ := edit1_val (n' := n) (m := m) (m' := m) (π := π) (by cases h <;> constructor <;> assumption) hx hx
  exact ⟨y, hy⟩

theorem edit_ok {ln : Bool} {n n' m m' : Node} {π : List PStep} {x y' : Val} (h : Edit n n' π m m')
    (hx : n.val ln = .ok x) (hy' : m'.val ln = .ok y') : ∃ x', n'.val ln = .ok x' := by
  induction h generalizing x with
  | refl => exact ⟨y', hy'⟩
  | step h1 _ ih =>
    obtain ⟨y, hy⟩ := edit1_piece h1 hx
    obtain ⟨z, hz⟩ := ih hy hy'
    exact edit1_ok h1 hx hz

/-! ### Resources -/

/-- a chain whose bodies can be reported is taken out without an exception -/
theorem processChild_ok {ln : Bool} {api : String} {N T : String} {rs : List Nested} {es : List Entry}
    (ho : NestedOut ln api N T rs es) {c : Config} (hc : Chain c rs) {n : Nat} {cfg d : List (String × Val)}
    (hv : c.val ln = .ok (.dict d)) (hg : dGet "__child_resource__" cfg = dGet "__child_resource__" d) :
    ∃ q, processChild n (.str N) (.str T) (.str api) cfg = .ok q := by
  induction ho generalizing c n cfg d with
  | @nil N T =>
    cases hc with
    | nil hno =>
      rw [noChild_get hno hv] at hg
      exact ⟨_, processChild_nochild _ _ _ hg⟩
  | @cons N T r rs es d' deps hd' hdeps _ ih =>
    cases hc with
    | cons hch hc =>
      cases n with
      | zero => exact ⟨_, rfl⟩
      | succ n =>
        obtain ⟨v', hd2, hget⟩ := childOf_get hch hv
        rw [hd'] at hd2
        cases hd2
        rw [hget] at hg
        have hadopt : adoptChild (.str N) (.str T) (.str api) (.dict [("__name__", .str (txt r.name.1)), ("__attrs__", .dict
              ([("decorators", .list []), ("type", .str (txt r.type)), ("api_version", .str ""),
              ("existing", .bool r.existing), ("config", .dict d')] ++
              lineItems ln (r.lines.1, r.lines.2 - 1)))]) = .ok
            (.dict [("__name__", .str (N ++ "__" ++ txt r.name.1)), ("__attrs__", .dict
              ([("decorators", .list []), ("type", .str (txt r.type)), ("api_version", .str ""),
              ("existing", .bool r.existing), ("config", .dict d')] ++
              lineItems ln (r.lines.1, r.lines.2 - 1)))],
             .dict ([("decorators", .list []), ("type", .str (T ++ "/" ++ txt r.type)), ("api_version", .str api),
              ("existing", .bool r.existing), ("config", .dict d')] ++
              lineItems ln (r.lines.1, r.lines.2 - 1)),
             .str (N ++ "__" ++ txt r.name.1),
             .dict (dSet "depends_on" (.list (deps ++ [.elem N])) d')) := by
          unfold adoptChild
          simp only [Val.item, dGet, Val.setItem, dSet, bind, Except.bind, if_true,
            List.cons_append, List.nil_append, String.reduceEq, if_false, Val.pyStr]
          rcases hdeps with h | ⟨h, rfl⟩ <;> rw [h] <;> simp
        obtain ⟨⟨cfg2, more2⟩, hp⟩ := ih hc (n := n) (cfg := dSet "depends_on" (.list (deps ++ [.elem N])) d') hd'
          (dGet_dSet_ne (by decide) _ _)
        rw [processChild, hg]
        simp only [bind, Except.bind]
        rw [hadopt]
        simp only [Val.item, dGet, List.cons_append, if_true, List.nil_append, String.reduceEq,
          if_false, hp, Val.setItem, dSet]
        exact ⟨_, rfl⟩

theorem resource_ok {ln : Bool} {l : Lines} {ds x ta ex} {c : Config} {vs : List Val} {t api : String}
    {d : List (String × Val)} {rs : List Nested} {es : List Entry} (h1 : decoVals ln ds = .ok vs)
    (h2 : typeApi ta = .ok (t, api)) (h3 : c.val ln = .ok (.dict d)) (hc : Chain c rs)
    (ho : NestedOut ln api (txt x.1) t rs es) : ∃ o, (Decl.resource ds x ta ex c).out ln l = .ok o := by
  obtain ⟨q, hq⟩ := processChild_ok ho hc (n := (Val.dict d).depth + 1) h3 rfl
  have hr : resourceVal (txt x.1) t api (.dict d) = .ok q := hq
  rw [Decl.out]
  simp only [h1, h2, h3, bind, Except.bind, inRule, hr]
  exact ⟨_, rfl⟩

theorem declEdit_ok {ln : Bool} {l : Lines} {d d' : Decl} {κ : List PStep} {m m' : Node} {o : Out} {y' : Val}
    (h : DeclEdit d d' κ m m') (hres : ∀ ds x b ex c, d = .resource ds x b ex c → ∃ rs, Chain c rs)
    (ho : d.out ln l = .ok o) (hy' : m'.val ln = .ok y') : ∃ o', d'.out ln l = .ok o' := by
  cases h with
  | paramDeco | varDeco | outDeco | typDeco | funcDeco =>
    rw [Decl.out] at ho
    obtain ⟨vs, hvs, ho⟩ := bind_ok' ho; obtain ⟨v, hv, ho⟩ := bind_ok' ho
    obtain ⟨vs', hvs'⟩ := decos_ok hvs hy'
    exact ⟨_, by rw [Decl.out, hvs', hv]; rfl⟩
  | modDeco =>
    rw [Decl.out] at ho
    obtain ⟨vs, hvs, ho⟩ := bind_ok' ho; obtain ⟨p, hp, ho⟩ := bind_ok' ho; obtain ⟨v, hv, ho⟩ := bind_ok' ho
    obtain ⟨t, ht, ho⟩ := bind_ok' ho; obtain ⟨d, hd, ho⟩ := bind_ok' ho
    obtain ⟨vs', hvs'⟩ := decos_ok hvs hy'
    rw [Decl.out]
    simp only [hvs', hp, hv, bind, Except.bind, ht, hd]
    exact ⟨_, rfl⟩
  | resDeco =>
    rw [Decl.out] at ho
    obtain ⟨vs, hvs, ho⟩ := bind_ok' ho; obtain ⟨p, hp, ho⟩ := bind_ok' ho; obtain ⟨v, hv, ho⟩ := bind_ok' ho
    obtain ⟨t, ht, ho⟩ := bind_ok' ho
    obtain ⟨vs', hvs'⟩ := decos_ok hvs hy'
    rw [Decl.out]
    simp only [hvs', hp, hv, bind, Except.bind, ht]
    exact ⟨_, rfl⟩
  | paramType | outType | varType | funcType =>
    rw [Decl.out] at ho
    obtain ⟨vs, hvs, ho⟩ := bind_ok' ho; obtain ⟨v, hv, ho⟩ := bind_ok' ho
    exact ⟨_, by rw [Decl.out, hvs, hv]; rfl⟩
  | paramDefault =>
    rw [Decl.out] at ho
    obtain ⟨vs, hvs, ho⟩ := bind_ok' ho
    rw [Node.val] at hy'
    exact ⟨_, by rw [Decl.out, hvs, Expr.optVal, hy']; rfl⟩
  | varExpr | varLoop | outExpr | outLoop =>
    rw [Decl.out] at ho
    obtain ⟨vs, hvs, ho⟩ := bind_ok' ho
    rw [Node.val] at hy'
    exact ⟨_, by rw [Decl.out, hvs, LoopOrExpr.val, hy']; rfl⟩
  | typExpr =>
    rw [Decl.out] at ho
    obtain ⟨vs, hvs, ho⟩ := bind_ok' ho
    rw [Node.val] at hy'
    exact ⟨_, by rw [Decl.out, hvs, typeVal, List.isEmpty_nil, if_pos rfl, hy']; rfl⟩
  | funcBody =>
    rw [Decl.out] at ho
    obtain ⟨vs, hvs, ho⟩ := bind_ok' ho
    rw [Node.val] at hy'
    exact ⟨_, by rw [Decl.out, hvs, hy']; rfl⟩
  | modConfig =>
    rw [Decl.out] at ho
    obtain ⟨vs, hvs, ho⟩ := bind_ok' ho; obtain ⟨p, hp, ho⟩ := bind_ok' ho; obtain ⟨v, hv, ho⟩ := bind_ok' ho
    obtain ⟨t, ht, ho⟩ := bind_ok' ho; obtain ⟨d, hd, ho⟩ := bind_ok' ho
    rw [Node.val] at hy'
    rw [Decl.out]
    simp only [hvs, hp, hy', bind, Except.bind, ht, hd]
    exact ⟨_, rfl⟩
  | extConfig h1 h2 =>
    rw [Node.val, Config.val] at hy'
    obtain ⟨ps, hps, _⟩ := bind_ok' hy'
    rw [Decl.out, configItem]
    simp only [hps, bind, Except.bind]
    exact ⟨_, rfl⟩
  | resMember hb hk =>
    obtain ⟨rs, hc⟩ := hres _ _ _ _ _ rfl
    obtain ⟨vs, t, api, d, h1, h2, h3, _, _, h6⟩ := resource_out ho hc
    rw [Config.val] at h3
    obtain ⟨ps, hps, _⟩ := bind_ok' h3
    obtain ⟨ps', hps'⟩ := items_ok hps (pair_ok hy')
    exact resource_ok h1 h2 (by rw [Config.val, hps']; rfl) (chain_edit (by exact hk) (by exact hk) hc) h6
  | resMemberLoop hb hk =>
    obtain ⟨rs, hc⟩ := hres _ _ _ _ _ rfl
    obtain ⟨vs, t, api, d, h1, h2, h3, _, _, h6⟩ := resource_out ho hc
    rw [Config.val] at h3
    obtain ⟨ps, hps, _⟩ := bind_ok' h3
    obtain ⟨ps', hps'⟩ := items_ok hps (pairLoop_ok hy')
    exact resource_ok h1 h2 (by rw [Config.val, hps']; rfl) (chain_edit (by exact hk) (by exact hk) hc) h6
  | resLoop =>
    obtain ⟨vs, t, api, d, h1, h2, h3, _, _, h6⟩ := resource_out ho (.nil trivial)
    rw [Node.val] at hy'
    obtain ⟨d', rfl, _⟩ := loop_keys hy'
    exact resource_ok h1 h2 (by rw [Config.val]; exact hy') (.nil trivial) .nil
  | resCond =>
    obtain ⟨vs, t, api, d, h1, h2, h3, _, _, h6⟩ := resource_out ho (.nil trivial)
    obtain ⟨u, hu⟩ := edit1_ok .configCond (n := .config _) (n' := .config _) h3 hy'
    obtain ⟨d', rfl⟩ := config_isDict hu
    exact resource_ok h1 h2 hu (.nil trivial) .nil
  | resBody =>
    obtain ⟨vs, t, api, d, h1, h2, h3, _, _, h6⟩ := resource_out ho (.nil trivial)
    obtain ⟨u, hu⟩ := edit1_ok .configBody (n := .config _) (n' := .config _) h3 hy'
    obtain ⟨d', rfl⟩ := config_isDict hu
    exact resource_ok h1 h2 hu (.nil trivial) .nil

theorem declEdit_piece {ln : Bool} {l : Lines} {d d' : Decl} {κ : List PStep} {m m' : Node} {o : Out}
    (h : DeclEdit d d' κ m m') (hres : ∀ ds x b ex c, d = .resource ds x b ex c → ∃ rs, Chain c rs)
    (ho : d.out ln l = .ok o) : ∃ y, m.val ln = .ok y := by
  obtain ⟨y, _, hy, _⟩ := declEdit_val (d' := d) (m := m) (m' := m) (κ := κ) (by cases h <;> constructor <;> assumption) hres ho ho
  exact ⟨y, hy⟩

theorem nestedBody_ok {ln : Bool} {c c' : Config} {κ : List PStep} {m m' : Node} (h : NestedBody c c' κ m m')
    {u y' : Val} (hu : c.val ln = .ok u) (hy' : m'.val ln = .ok y') : ∃ u', c'.val ln = .ok u' := by
  cases h with
  | member hb _ _ => exact edit1_ok (.configMember hb) (n := .config _) (n' := .config _) hu hy'
  | memberLoop hb _ _ => exact edit1_ok (.configMemberLoop hb) (n := .config _) (n' := .config _) hu hy'
  | loop he =>
    rw [Config.val] at hu
    obtain ⟨u', hu'⟩ := edit1_ok he hu hy'
    exact ⟨u', by rw [Config.val]; exact hu'⟩
  | cond he => exact edit1_ok he hu hy'

theorem nestedBody_piece {ln : Bool} {c c' : Config} {κ : List PStep} {m m' : Node} (h : NestedBody c c' κ m m')
    {u : Val} (hu : c.val ln = .ok u) : ∃ y, m.val ln = .ok y := by
  cases h with
  | member hb _ _ => exact edit1_piece (.configMember (e' := .null) hb) (n := .config _) hu
  | @memberLoop _ _ _ l _ hb _ _ => exact edit1_piece (.configMemberLoop (l' := l) hb) (n := .config _) hu
  | loop he => rw [Config.val] at hu; exact edit1_piece he hu
  | cond he => exact edit1_piece he hu

theorem child_ok {ln : Bool} {l x t ex} {c : Config} {u : Val} (h : c.val ln = .ok u) :
    ∃ q, (Item.child l x t ex c).val ln = .ok q := by
  rw [Item.val, h]; exact ⟨_, rfl⟩

/-- an edited chain of nested resources can be reported -/
theorem nestedEdit_ok {ln : Bool} {api : String} {c c' : Config} {i : Nat} {r r' : Nested} (h : NestedEdit c c' i r r')
    {κ : List PStep} {m m' : Node} (hb : NestedBody r.config r'.config κ m m')
    {u : Val} (hu : c.val ln = .ok u) {rs : List Nested} (hc : Chain c rs) {n t : String} {es : List Entry}
    (ho : NestedOut ln api n t rs es) (hr : r' = { r with config := r'.config })
    (hm' : (∃ y, m.val ln = .ok y) → ∃ y', m'.val ln = .ok y') :
    ∃ u' rs' es', c'.val ln = .ok u' ∧ Chain c' rs' ∧ NestedOut ln api n t rs' es' := by
  induction h generalizing rs n t es u with
  | @here a b r r' hlast =>
    obtain ⟨rs1, rfl, hc1⟩ := chain_child hlast hc
    cases ho with
    | @cons _ _ _ _ es1 d deps hd hdep hes =>
      obtain ⟨y', hy'⟩ := hm' (nestedBody_piece hb hd)
      obtain ⟨w, hw⟩ := nestedBody_ok hb hd hy'
      obtain ⟨d', rfl⟩ := config_isDict hw
      rw [Config.val] at hu
      obtain ⟨ps, hps, _⟩ := bind_ok' hu
      obtain ⟨q, hq⟩ := child_ok (l := r'.lines) (x := r'.name) (t := r'.type) (ex := r'.existing) hw
      obtain ⟨ps', hps'⟩ := items_ok (i' := r'.item) hps hq
      obtain ⟨y, y', k, κ', _, _, rfl, hk1, hk2, hon⟩ := nestedBody_val hb hd hw
      have hdep' : DepsOf d' deps := by
        unfold DepsOf; rw [← hon.get (c := "depends_on") (Ne.symm hk2)]; exact hdep
      have hrest : NestedOut ln api (n ++ "__" ++ txt r'.name.1) (t ++ "/" ++ txt r'.type) rs1 es1 := by
        rw [hr]; exact hes
      exact ⟨_, r' :: rs1, _, by rw [Config.val, hps']; rfl,
        .cons ⟨_, rfl, a, b, rfl, rfl, hlast⟩ (nestedBody_chain hb hc1), .cons hw hdep' hrest⟩
  | @deeper a b l x t0 ex c1 c1' i r r' hlast he ih =>
    obtain ⟨rs1, rfl, hc1⟩ := chain_child (r := ⟨l, x, t0, ex, c1⟩) hlast hc
    cases ho with
    | @cons _ _ _ _ es1 d deps hd hdep hes =>
      obtain ⟨w, rs', es', hw, hc', ho'⟩ := ih hb hd hc1 hes hr
      obtain ⟨d', rfl⟩ := config_isDict hw
      rw [Config.val] at hu
      obtain ⟨ps, hps, _⟩ := bind_ok' hu
      obtain ⟨q, hq⟩ := child_ok (l := l) (x := x) (t := t0) (ex := ex) hw
      obtain ⟨ps', hps'⟩ := items_ok hps hq
      obtain ⟨_, _, _, _, e1, e2, hon⟩ := nestedEdit_val he hd hw
      have hdep' : DepsOf d' deps := by
        unfold DepsOf; rw [← hon.get (c := "depends_on") (by decide)]; exact hdep
      exact ⟨_, ⟨l, x, t0, ex, c1'⟩ :: rs', _, by rw [Config.val, hps']; rfl,
        .cons ⟨_, rfl, a, b, rfl, rfl, hlast⟩ hc', .cons hw hdep' ho'⟩

theorem outs_join {ln : Bool} {a b : Program} {l : Lines} {d : Decl} {os1 os2 : List Out} {o : Out}
    (h1 : Program.outs ln a = .ok os1) (h2 : d.out ln l = .ok o) (h3 : Program.outs ln b = .ok os2) :
    Program.outs ln (a ++ (l, d) :: b) = .ok (os1 ++ o :: os2) := by
  induction a generalizing os1 with
  | nil => rw [Program.outs] at h1; cases h1; rw [List.nil_append, Program.outs, h2, h3]; rfl
  | cons x a ih =>
    obtain ⟨l', d'⟩ := x
    rw [Program.outs] at h1
    obtain ⟨w, hw, h1⟩ := bind_ok' h1; obtain ⟨ws, hws, h1⟩ := bind_ok' h1
    cases h1
    rw [List.cons_append, Program.outs, hw, ih hws]; rfl

/-- **If a program has a result and the new piece has a value, the edited program has a result.** -/
theorem edited_ok {ln : Bool} {p p' : Program} {π : List PStep} {m m' : Node} {v y' : Val} (h : p.Edited p' π m m')
    (hv : p.val ln = .ok v) (hy' : m'.val ln = .ok y') : ∃ v', p'.val ln = .ok v' := by
  rw [Program.val] at hv
  obtain ⟨os, hos, hv⟩ := bind_ok' hv
  cases h with
  | @own a b l d d' s n κ m1 m1' π _ _ hd he hn hlater hnest =>
    obtain ⟨os1, o, os2, h1, h2, h3, rfl⟩ := outs_split hos
    have hres : ∀ ds x b ex c, d = .resource ds x b ex c → ∃ rs, Chain c rs := by
      rintro ds x ta ex c rfl
      have hs : s = "resources" := by simp [Decl.ownName] at hn; exact hn.1
      obtain ⟨rs, hc, _⟩ := hnest hs l ds x ta ex c (by simp)
      exact ⟨rs, hc⟩
    obtain ⟨w, hw⟩ := declEdit_piece hd hres h2
    obtain ⟨w', hw'⟩ := edit_ok he hw hy'
    obtain ⟨o', ho'⟩ := declEdit_ok hd hres h2 hw'
    exact ⟨_, by rw [Program.val, outs_join h1 ho' h3]; rfl⟩
  | @nested a b l ds x ta ex c c' rs i n r r' κ m1 m1' π _ _ hne hr hbody he hc hn hnot =>
    obtain ⟨os1, o, os2, h1, h2, h3, rfl⟩ := outs_split hos
    obtain ⟨vs, t, api, d, g1, g2, g3, g4, g5, g6⟩ := resource_out h2 hc
    obtain ⟨u', rs', es', hu', hc', ho'⟩ := nestedEdit_ok hne hbody g3 hc g6 hr (fun ⟨w, hw⟩ => edit_ok he hw hy')
    obtain ⟨d', rfl⟩ := config_isDict hu'
    obtain ⟨o', ho'⟩ := resource_ok (l := l) (ex := ex) g1 g2 hu' hc' ho'
    exact ⟨_, by rw [Program.val, outs_join h1 ho' h3]; rfl⟩

end Pycep
