import Verif.Heap.Rep
/-
Methods on values with identity follow the methods on plain values: the common tools.
-/
namespace Pycep.Mem

/-- The same exception, or a result that looks like the plain result and uses objects of `F`, none of
them more often than `F` does. -/
inductive Out (h : Heap) (F : List Nat) : Except PyErr Val → Except PyErr HV → Prop
  | error (e : PyErr) : Out h F (.error e) (.error e)
  | ok {x v G} : Rep h true x v G → Sub G F → Out h F (.ok v) (.ok x)

/-- the same for lists of items -/
inductive OutI (h : Heap) (F : List Nat) :
    Except PyErr (List (String × Val)) → Except PyErr (List (String × HV)) → Prop
  | error (e : PyErr) : OutI h F (.error e) (.error e)
  | ok {x v G} : RepI h true x v G → Sub G F → OutI h F (.ok v) (.ok x)

/-- the same for lists -/
inductive OutL (h : Heap) (F : List Nat) : Except PyErr (List Val) → Except PyErr (List HV) → Prop
  | error (e : PyErr) : OutL h F (.error e) (.error e)
  | ok {x v G} : RepL h true x v G → Sub G F → OutL h F (.ok v) (.ok x)

theorem Out.mono {h : Heap} {F F' : List Nat} {r s} (ho : Out h F r s) (hs : Sub F F') : Out h F' r s := by
  cases ho with
  | error e => exact .error e
  | ok hr hg => exact .ok hr (hg.trans hs)

/-- goals about `Sub` -/
macro "sub_tac" : tactic => `(tactic|
  (intro a
   try simp only [List.count_append, List.count_nil, List.nil_append, List.append_nil] at *
   omega))

theorem RepI.get {h : Heap} {b : Bool} {k : String} : {d : List (String × HV)} → {d' : List (String × Val)} →
    {F : List Nat} → RepI h b d d' F →
    (dGet k d' = none ∧ hGet k d = none) ∨
    ∃ v x G, dGet k d' = some v ∧ hGet k d = some x ∧ Rep h b x v G ∧ Sub G F
  | _, _, _, .nil => .inl ⟨rfl, rfl⟩
  | _, _, _, .cons (k := k') h1 h2 => by
    simp only [dGet, hGet]
    by_cases e : k' = k
    · simp only [e, if_true]
      refine .inr ⟨_, _, _, rfl, rfl, h1, ?_⟩
      sub_tac
    · simp only [e, if_false]
      rcases h2.get (k := k) with h0 | ⟨v, x, G, e1, e2, hr, hs⟩
      · exact .inl h0
      · refine .inr ⟨v, x, G, e1, e2, hr, hs.trans ?_⟩
        sub_tac

theorem RepI.set {h : Heap} {b : Bool} {k : String} {y : HV} {w : Val} {Fy : List Nat} (hy : Rep h b y w Fy) :
    {d : List (String × HV)} → {d' : List (String × Val)} → {F : List Nat} → RepI h b d d' F →
    ∃ G, RepI h b (hSet k y d) (dSet k w d') G ∧ Sub G (F ++ Fy)
  | _, _, _, .nil => ⟨_, .cons hy .nil, by sub_tac⟩
  | _, _, _, .cons (k := k') h1 h2 => by
    simp only [dSet, hSet]
    by_cases e : k' = k
    · simp only [e, if_true]
      exact ⟨_, .cons hy h2, by sub_tac⟩
    · simp only [e, if_false]
      obtain ⟨G, hr, hs⟩ := h2.set (k := k) hy
      refine ⟨_, .cons h1 hr, ?_⟩
      intro a
      have := hs a
      simp only [List.count_append] at *
      omega

theorem RepI.foldl {h : Heap} {b : Bool} : {ps : List (String × HV)} → {ps' : List (String × Val)} → {F : List Nat} →
    RepI h b ps ps' F → ∀ {d : List (String × HV)} {d' : List (String × Val)} {K : List Nat}, RepI h b d d' K →
    ∃ G, RepI h b (ps.foldl (fun d p => hSet p.1 p.2 d) d) (ps'.foldl (fun d p => dSet p.1 p.2 d) d') G ∧
      Sub G (K ++ F)
  | _, _, _, .nil, _, _, _, hd => ⟨_, hd, by sub_tac⟩
  | _, _, _, .cons h1 h2, _, _, _, hd => by
    obtain ⟨G, hG, hs⟩ := hd.set h1
    obtain ⟨G', hG', hs'⟩ := h2.foldl hG
    refine ⟨G', hG', ?_⟩
    intro a
    have := hs a; have := hs' a
    simp only [List.count_append] at *
    omega

theorem RepI.mkDict {h : Heap} {b : Bool} {ps : List (String × HV)} {ps' : List (String × Val)} {F : List Nat}
    (hp : RepI h b ps ps' F) : ∃ G, RepI h b (hDict ps) (Pycep.mkDict ps') G ∧ Sub G F := by
  obtain ⟨G, hG, hs⟩ := hp.foldl .nil
  exact ⟨G, hG, hs.trans (by sub_tac)⟩

theorem RepL.enum {h : Heap} {b : Bool} (pre : String) : {l : List HV} → {l' : List Val} → {F : List Nat} →
    RepL h b l l' F → ∀ n, RepI h b (hEnum pre n l) (enumKeys pre n l') F
  | _, _, _, .nil, _ => .nil
  | _, _, _, .cons h1 h2, n => .cons h1 (h2.enum pre (n + 1))

theorem RepI.append {h : Heap} {b : Bool} {e : List (String × HV)} {e' : List (String × Val)} {G : List Nat}
    (he : RepI h b e e' G) : {d : List (String × HV)} → {d' : List (String × Val)} → {F : List Nat} →
    RepI h b d d' F → RepI h b (d ++ e) (d' ++ e') (F ++ G)
  | _, _, _, .nil => by simpa using he
  | _, _, _, .cons h1 h2 => by
    rw [List.append_assoc]
    exact .cons h1 (RepI.append he h2)

theorem RepL.append {h : Heap} {b : Bool} {e : List HV} {e' : List Val} {G : List Nat}
    (he : RepL h b e e' G) : {d : List HV} → {d' : List Val} → {F : List Nat} →
    RepL h b d d' F → RepL h b (d ++ e) (d' ++ e') (F ++ G)
  | _, _, _, .nil => by simpa using he
  | _, _, _, .cons h1 h2 => by
    rw [List.append_assoc]
    exact .cons h1 (RepL.append he h2)

theorem RepL.reverse {h : Heap} {b : Bool} : {d : List HV} → {d' : List Val} → {F : List Nat} →
    RepL h b d d' F → ∃ G, RepL h b d.reverse d'.reverse G ∧ Sub G F
  | _, _, _, .nil => ⟨_, .nil, .refl _⟩
  | _, _, _, .cons h1 h2 => by
    obtain ⟨G, hG, hs⟩ := h2.reverse
    rw [List.reverse_cons, List.reverse_cons]
    refine ⟨_, RepL.append (.cons h1 .nil) hG, ?_⟩
    intro a
    have := hs a
    simp only [List.count_append, List.count_nil] at *
    omega

/-! ### looking -/

theorem Rep.truthy {h : Heap} {b : Bool} {x : HV} {v : Val} {F : List Nat} (hr : Rep h b x v F) (hF : F.Nodup) :
    x.truthy h = v.truthy := by rw [HV.truthy, hr.read_eq hF]
theorem Rep.pyStr {h : Heap} {b : Bool} {x : HV} {v : Val} {F : List Nat} (hr : Rep h b x v F) (hF : F.Nodup) :
    x.pyStr h = v.pyStr := by rw [HV.pyStr, hr.read_eq hF]
theorem Rep.eqStr {h : Heap} {b : Bool} {x : HV} {v : Val} {F : List Nat} (hr : Rep h b x v F) (hF : F.Nodup)
    (s : String) : x.eqStr h s = v.eqStr s := by rw [HV.eqStr, hr.read_eq hF]

theorem Rep.pyInt {h : Heap} {b : Bool} {x : HV} {v : Val} {F : List Nat} (hr : Rep h b x v F) (hF : F.Nodup) :
    Out h F (Pycep.pyInt v) (x.pyInt h) := by
  have key : ∀ o : Except PyErr Int, Out h F (o.map .int)
      (match o.map Val.int with | .ok (.int i) => .ok (.int i) | .ok _ => .error .typeError | .error e => .error e) := by
    intro o
    cases o with
    | error e => exact .error e
    | ok i => exact .ok (.int _) (by sub_tac)
  rw [HV.pyInt, hr.read_eq hF]
  cases v with
  | int i => exact .ok (.int _) (by sub_tac)
  | bool i => exact .ok (.int _) (by sub_tac)
  | str s => exact key (intOfStr s)
  | elem s => exact key (intOfStr s)
  | tok _ s => exact key (intOfStr s)
  | none => exact .error _
  | list _ => exact .error _
  | dict _ => exact .error _
  | tup2 _ _ => exact .error _

theorem Rep.mulNegOne {h : Heap} {b : Bool} {x : HV} {v : Val} {F : List Nat} (hr : Rep h b x v F) :
    Out h F (Pycep.mulNegOne v) (x.mulNegOne h) := by
  cases hr with
  | none => exact .error _
  | int i => exact .ok (.int _) (by sub_tac)
  | bool i => exact .ok (.int _) (by sub_tac)
  | str s => exact .ok (.str _) (by sub_tac)
  | elem s => exact .ok (.str _) (by sub_tac)
  | tok _ s => exact .ok (.str _) (by sub_tac)
  | tup2 _ _ => exact .error _
  | list hl => exact .ok (.list .nil) (by sub_tac)
  | dict _ => exact .error _
  | refL e hl =>
    simp only [HV.mulNegOne, HV.obj, e, Option.getD_some]
    exact .ok (.list .nil) (by intro a; simp)
  | refD e hl =>
    simp only [HV.mulNegOne, HV.obj, e, Option.getD_some]
    exact .error _

/-- what a reference to a dictionary looks like -/
theorem Rep.obj_dict {h : Heap} {b : Bool} {x : HV} {d' : List (String × Val)} {F : List Nat}
    (hr : Rep h b x (.dict d') F) : ∃ d G, x.obj h = .dict d ∧ RepI h true d d' G ∧ Sub G F := by
  cases hr with
  | dict hd => exact ⟨_, _, rfl, hd, .refl _⟩
  | refD e hd =>
    refine ⟨_, _, by simp [HV.obj, e], hd.weaken, ?_⟩
    intro a
    simp only [List.count_cons]; omega

theorem Rep.obj_not_dict {h : Heap} {b : Bool} {x : HV} {v : Val} {F : List Nat}
    (hr : Rep h b x v F) (hv : ∀ d, v ≠ .dict d) : ∀ d, x.obj h ≠ .dict d := by
  intro d
  cases hr with
  | dict hd => exact absurd rfl (hv _)
  | refD e hd => exact absurd rfl (hv _)
  | refL e hd => simp [HV.obj, e]
  | _ => simp [HV.obj]

theorem Rep.item {h : Heap} {b : Bool} {x : HV} {v : Val} {F : List Nat} (hr : Rep h b x v F) (k : String) :
    Out h F (v.item k) (x.item h k) := by
  by_cases hv : ∃ d, v = .dict d
  · obtain ⟨d', rfl⟩ := hv
    obtain ⟨d, G, e, hd, hs⟩ := hr.obj_dict
    simp only [HV.item, Val.item, e]
    rcases hd.get (k := k) with ⟨e1, e2⟩ | ⟨w, y, K, e1, e2, hy, hs'⟩
    · rw [e1, e2]; exact .error _
    · rw [e1, e2]; exact .ok hy (hs'.trans hs)
  · have hn := hr.obj_not_dict (fun d e => hv ⟨d, e⟩)
    have e1 : v.item k = .error .typeError := by
      cases v with
      | dict d => exact absurd ⟨d, rfl⟩ hv
      | _ => rfl
    have e2 : x.item h k = .error .typeError := by
      unfold HV.item
      split
      · rename_i d e; exact absurd e (hn d)
      · rfl
    rw [e1, e2]; exact .error _

theorem Rep.getOrEmpty {h : Heap} {b : Bool} {x : HV} {v : Val} {F : List Nat} (hr : Rep h b x v F) (k : String) :
    Out h F (v.getOrEmpty k) (x.getOrEmpty h k) := by
  by_cases hv : ∃ d, v = .dict d
  · obtain ⟨d', rfl⟩ := hv
    obtain ⟨d, G, e, hd, hs⟩ := hr.obj_dict
    simp only [HV.getOrEmpty, Val.getOrEmpty, e]
    rcases hd.get (k := k) with ⟨e1, e2⟩ | ⟨w, y, K, e1, e2, hy, hs'⟩
    · rw [e1, e2]; exact .ok (.dict .nil) (by intro a; simp)
    · rw [e1, e2]; exact .ok hy (hs'.trans hs)
  · have hn := hr.obj_not_dict (fun d e => hv ⟨d, e⟩)
    have e1 : v.getOrEmpty k = .error .attributeError := by
      cases v with
      | dict d => exact absurd ⟨d, rfl⟩ hv
      | _ => rfl
    have e2 : x.getOrEmpty h k = .error .attributeError := by
      unfold HV.getOrEmpty
      split
      · rename_i d e; exact absurd e (hn d)
      · rfl
    rw [e1, e2]; exact .error _

theorem Rep.get {h : Heap} {b : Bool} {x : HV} {v : Val} {F : List Nat} (hr : Rep h b x v F) (k : String) :
    Out h F (v.get k) (x.get h k) := by
  by_cases hv : ∃ d, v = .dict d
  · obtain ⟨d', rfl⟩ := hv
    obtain ⟨d, G, e, hd, hs⟩ := hr.obj_dict
    simp only [HV.get, Val.get, e]
    rcases hd.get (k := k) with ⟨e1, e2⟩ | ⟨w, y, K, e1, e2, hy, hs'⟩
    · rw [e1, e2]; exact .ok .none (by intro a; simp)
    · rw [e1, e2]; exact .ok hy (hs'.trans hs)
  · have hn := hr.obj_not_dict (fun d e => hv ⟨d, e⟩)
    have e1 : v.get k = .error .attributeError := by
      cases v with
      | dict d => exact absurd ⟨d, rfl⟩ hv
      | _ => rfl
    have e2 : x.get h k = .error .attributeError := by
      unfold HV.get
      split
      · rename_i d e; exact absurd e (hn d)
      · rfl
    rw [e1, e2]; exact .error _

/-- sequencing -/
theorem Out.bind {h : Heap} {F : List Nat} {r : Except PyErr Val} {s : Except PyErr HV} (ho : Out h F r s)
    {f : Val → Except PyErr Val} {g : HV → Except PyErr HV}
    (hfg : ∀ x v G, Rep h true x v G → Sub G F → r = .ok v → Out h F (f v) (g x)) : Out h F (r >>= f) (s >>= g) := by
  cases ho with
  | error e => exact .error e
  | ok hr hs => exact hfg _ _ _ hr hs rfl

theorem Out.bindI {h : Heap} {F : List Nat} {r : Except PyErr Val} {s : Except PyErr HV} (ho : Out h F r s)
    {f : Val → Except PyErr (List (String × Val))} {g : HV → Except PyErr (List (String × HV))}
    (hfg : ∀ x v G, Rep h true x v G → Sub G F → r = .ok v → OutI h F (f v) (g x)) : OutI h F (r >>= f) (s >>= g) := by
  cases ho with
  | error e => exact .error e
  | ok hr hs => exact hfg _ _ _ hr hs rfl

theorem OutI.bind {h : Heap} {F : List Nat} {r : Except PyErr (List (String × Val))}
    {s : Except PyErr (List (String × HV))} (ho : OutI h F r s)
    {f : List (String × Val) → Except PyErr Val} {g : List (String × HV) → Except PyErr HV}
    (hfg : ∀ x v G, RepI h true x v G → Sub G F → Out h F (f v) (g x)) : Out h F (r >>= f) (s >>= g) := by
  cases ho with
  | error e => exact .error e
  | ok hr hs => exact hfg _ _ _ hr hs

theorem OutI.bindI {h : Heap} {F F' : List Nat} {r : Except PyErr (List (String × Val))}
    {s : Except PyErr (List (String × HV))} (ho : OutI h F' r s)
    {f : List (String × Val) → Except PyErr (List (String × Val))} {g : List (String × HV) → Except PyErr (List (String × HV))}
    (hfg : ∀ x v G, RepI h true x v G → Sub G F' → OutI h F (f v) (g x)) : OutI h F (r >>= f) (s >>= g) := by
  cases ho with
  | error e => exact .error e
  | ok hr hs => exact hfg _ _ _ hr hs

theorem Out.map {h : Heap} {F : List Nat} {r : Except PyErr Val} {s : Except PyErr HV} (ho : Out h F r s)
    {f : Val → Val} {g : HV → HV}
    (hfg : ∀ x v G, Rep h true x v G → Rep h true (g x) (f v) G) : Out h F (r.map f) (s.map g) := by
  cases ho with
  | error e => exact .error e
  | ok hr hs => exact .ok (hfg _ _ _ hr) hs

/-! ### tactics -/

/-- goals `Rep h true display value _` -/
macro "rep_tac" : tactic => `(tactic|
  repeat' first
    | exact Rep.weaken (by assumption)
    | exact RepI.weaken (by assumption)
    | exact RepL.weaken (by assumption)
    | exact Rep.str _
    | exact Rep.none
    | exact Rep.bool _
    | exact Rep.int _
    | exact Rep.elem _
    | exact RepI.nil
    | exact RepL.nil
    | apply RepI.cons
    | apply RepL.cons
    | apply Rep.dict
    | apply Rep.list
    | apply Rep.tup2)

/-- goals `Out h F outcome outcome'` without further computations -/
macro "out_tac" : tactic => `(tactic|
  first
    | exact Out.error _
    | exact Out.ok (by rep_tac) (by sub_tac))

end Pycep.Mem
