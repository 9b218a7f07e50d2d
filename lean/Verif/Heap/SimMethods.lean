import Verif.Heap.SimFunctions
/-
The methods of the transformer on values with identity follow those on plain values: all but
`custom_import` and `resource`.
-/
namespace Pycep.Mem

/-- `g` follows `f` -/
def SimP (f : List Val → Except PyErr Val) (g : Heap → List HV → Except PyErr HV) : Prop :=
  ∀ (h : Heap) (xs : List HV) (vs : List Val) (F : List Nat), RepL h false xs vs F → F.Nodup →
    Out h F (f vs) (g h xs)

/-- the same for methods with line numbers -/
def SimM (f : Bool → Option Span → List Val → Except PyErr Val)
    (g : Heap → Bool → Option Span → List HV → Except PyErr HV) : Prop :=
  ∀ (ln : Bool) (sp : Option Span), SimP (f ln sp) (fun h => g h ln sp)

/-- methods that place their arguments in a display -/
macro "sim_args" : tactic => `(tactic|
  (intro h xs vs F hr hn
   rcases hr with _ | ⟨h1, _ | ⟨h2, _ | ⟨h3, _ | ⟨h4, hr⟩⟩⟩⟩ <;> out_tac))

/-- from the whole to a part -/
macro "nd" hn:term : term => `(Sub.nodup (by sub_tac) $hn)

/-- one item of a dictionary and the others -/
theorem RepI.focus {h : Heap} {b : Bool} (k : String) : {d : List (String × HV)} → {d' : List (String × Val)} →
    {F : List Nat} → RepI h b d d' F → ∃ F0 Fr : List Nat, (∀ a, F.count a = F0.count a + Fr.count a) ∧
      ((dGet k d' = none ∧ hGet k d = none ∧ F0 = []) ∨
        ∃ v x, dGet k d' = some v ∧ hGet k d = some x ∧ Rep h b x v F0) ∧
      (∀ h' y w Fy, (∀ a ∈ Fr, h'[a]? = h[a]?) → Rep h' b y w Fy →
        ∃ G, RepI h' b (hSet k y d) (dSet k w d') G ∧ ∀ a, G.count a = Fy.count a + Fr.count a) ∧
      RepI h b (hErase k d) (dErase k d') Fr
  | _, _, _, .nil => by
    refine ⟨[], [], by simp, .inl ⟨rfl, rfl, rfl⟩, ?_, .nil⟩
    intro h' y w Fy _ hy
    exact ⟨_, .cons hy .nil, by simp⟩
  | _, _, _, .cons (k := k') (F := Fx) (G := Gx) h1 h2 => by
    simp only [dGet, hGet, dSet, hSet, dErase, hErase]
    by_cases e : k' = k
    · simp only [e, if_true]
      refine ⟨Fx, Gx, by simp, .inr ⟨_, _, rfl, rfl, h1⟩, ?_, h2⟩
      intro h' y w Fy hm hy
      exact ⟨_, .cons hy (h2.mono hm), by simp⟩
    · simp only [e, if_false]
      obtain ⟨F0, Fr, hc, hg, hset, her⟩ := h2.focus k
      refine ⟨F0, Fx ++ Fr, ?_, hg, ?_, .cons h1 her⟩
      · intro a
        have := hc a
        simp only [List.count_append]; omega
      · intro h' y w Fy hm hy
        obtain ⟨G, hG, hcG⟩ := hset h' y w Fy (fun a ha => hm a (List.mem_append_right _ ha)) hy
        refine ⟨_, .cons (h1.mono fun a ha => hm a (List.mem_append_left _ ha)) hG, ?_⟩
        intro a
        have := hcG a
        simp only [List.count_append]; omega

theorem hSet_same {k : String} {x : HV} : {d : List (String × HV)} → hGet k d = some x → hSet k x d = d
  | (k', y) :: d, e => by
    simp only [hGet] at e
    simp only [hSet]
    split at e
    · rename_i e'
      simp only [e', if_true]
      cases e
      rfl
    · rename_i e'
      simp only [e', if_false, hSet_same e]

theorem hGet_hSet (k k' : String) (x : HV) (d : List (String × HV)) :
    hGet k' (hSet k x d) = if k = k' then some x else hGet k' d := by
  induction d with
  | nil => simp only [hSet, hGet]
  | cons p d ih =>
    obtain ⟨k1, y⟩ := p
    simp only [hSet]
    by_cases e : k1 = k
    · subst e
      simp only [if_true, hGet]
      by_cases e2 : k1 = k'
      · simp [e2]
      · simp [e2]
    · simp only [e, if_false, hGet, ih]
      by_cases e2 : k1 = k'
      · subst e2
        simp [Ne.symm e]
      · simp [e2]

theorem sim_addLines {h : Heap} {F : List Nat} (ln : Bool) (sp : Option Span) {d : List (String × HV)}
    {d' : List (String × Val)} (hd : RepI h true d d' F) : OutI h F (addLines ln sp d') (hAddLines ln sp d) := by
  unfold addLines hAddLines
  split
  · cases sp with
    | none => exact .error _
    | some s =>
      obtain ⟨G, hG, hs⟩ := hd.set (k := "__start_line__") (Rep.int s.line)
      obtain ⟨G', hG', hs'⟩ := hG.set (k := "__end_line__") (Rep.int s.endLine)
      exact .ok hG' ((hs'.trans (by sub_tac)).trans (hs.trans (by sub_tac)))
  · exact .ok hd (.refl _)

theorem sim_addLines' {h : Heap} {F G : List Nat} (ln : Bool) (sp : Option Span) {d : List (String × HV)}
    {d' : List (String × Val)} (hd : RepI h true d d' G) (hs : Sub G F) :
    OutI h F (addLines ln sp d') (hAddLines ln sp d) := by
  have := sim_addLines ln sp hd
  generalize addLines ln sp d' = r, hAddLines ln sp d = s at this
  cases this with
  | error e => exact .error _
  | ok hr hg => exact .ok hr (hg.trans hs)

theorem out_lines {h : Heap} {F G : List Nat} (ln : Bool) (sp : Option Span) {d : List (String × HV)}
    {d' : List (String × Val)} (kind name : String) (hd : RepI h true d d' G) (hs : Sub G F) :
    Out h F (addLines ln sp d' >>= fun a => .ok (elementOf kind name a))
      (hAddLines ln sp d >>= fun a => .ok (hElementOf kind name a)) := by
  cases hl : hAddLines ln sp d with
  | error e =>
    have := sim_addLines ln sp hd
    rw [hl] at this
    generalize addLines ln sp d' = r at this
    cases this
    exact .error _
  | ok x =>
    have := sim_addLines ln sp hd
    rw [hl] at this
    generalize addLines ln sp d' = r at this
    cases this with
    | ok hr hg =>
      exact .ok (.dict (.cons (.dict (.cons (.str _) (.cons (.dict hr) .nil))) .nil))
        (by intro a; have := hg a; have := hs a
            simp only [List.count_append, List.count_nil]; omega)

theorem rep_orEmptyList {h : Heap} {b : Bool} {x : HV} {v : Val} {F : List Nat} (hr : Rep h b x v F) (hF : F.Nodup) :
    ∃ G, Rep h true (hOrEmptyList h x) (orEmptyList v) G ∧ Sub G F := by
  unfold hOrEmptyList orEmptyList
  rw [hr.truthy hF]
  split
  · exact ⟨_, hr.weaken, .refl _⟩
  · exact ⟨_, .list .nil, by intro a; simp⟩

theorem sim_idx {h : Heap} {xs : List HV} {vs : List Val} {F : List Nat} (hr : RepL h false xs vs F) :
    Out h F (idx vs 0) (hIdx xs 0) := by
  cases hr with
  | nil => exact .error _
  | cons h1 h2 => exact .ok h1.weaken (by sub_tac)

theorem OutI.bind' {h : Heap} {F F' : List Nat} {r : Except PyErr (List (String × Val))}
    {s : Except PyErr (List (String × HV))} (ho : OutI h F' r s)
    {f : List (String × Val) → Except PyErr Val} {g : List (String × HV) → Except PyErr HV}
    (hfg : ∀ x v G, RepI h true x v G → Sub G F' → Out h F (f v) (g x)) : Out h F (r >>= f) (s >>= g) := by
  cases ho with
  | error e => exact .error e
  | ok hr hs => exact hfg _ _ _ hr hs

/-! ### start -/

/-- the values of a dictionary display are dictionary displays -/
def Sections (d : List (String × HV)) : Prop := ∀ k x, hGet k d = some x → ∃ s, x = .dict s

theorem Sections.set {d : List (String × HV)} (hd : Sections d) (k : String) (s : List (String × HV)) :
    Sections (hSet k (.dict s) d) := by
  intro k' x e
  rw [hGet_hSet] at e
  split at e
  · cases e; exact ⟨s, rfl⟩
  · exact hd _ _ e

/-- as `OutI`, the result being a display of displays -/
inductive OutS (h : Heap) (F : List Nat) :
    Except PyErr (List (String × Val)) → Except PyErr (List (String × HV)) → Prop
  | error (e : PyErr) : OutS h F (.error e) (.error e)
  | ok {x v G} : RepI h true x v G → Sub G F → Sections x → OutS h F (.ok v) (.ok x)

theorem sim_startStep {h : Heap} {res : List (String × HV)} {res' : List (String × Val)} {K F : List Nat}
    {x : HV} {v : Val} (key : String) (hres : RepI h true res res' K) (hsec : Sections res) (hx : Rep h false x v F) :
    OutS h (K ++ F) (startStep res' key v) (hStartStep h res key x) := by
  unfold startStep hStartStep
  have ha := hx.item "__attrs__"
  generalize v.item "__attrs__" = r1, x.item h "__attrs__" = s1 at ha
  cases ha with
  | error e => exact .error _
  | @ok xa va Ga ra sa =>
  have hb := hx.item "__name__"
  generalize v.item "__name__" = r2, x.item h "__name__" = s2 at hb
  cases hb with
  | error e => exact .error _
  | @ok xn vn Gn rn sn =>
  simp only [bind, Except.bind]
  obtain ⟨F0, Fr, hc, hg, hset, -⟩ := hres.focus key
  have hsect : ∃ sect sect', (dGet key res').getD (.dict []) = .dict sect' ∧ (hGet key res).getD (.dict []) = .dict sect ∧
      RepI h true sect sect' F0 := by
    rcases hg with ⟨e1, e2, rfl⟩ | ⟨w, y, e1, e2, hw⟩
    · exact ⟨[], [], by rw [e1]; rfl, by rw [e2]; rfl, .nil⟩
    · obtain ⟨s, rfl⟩ := hsec _ _ e2
      cases hw with
      | dict hd => exact ⟨s, _, by rw [e1]; rfl, by rw [e2]; rfl, hd⟩
  obtain ⟨sect, sect', e1, e2, hd⟩ := hsect
  rw [e1, e2]
  have fin : ∀ n : String, OutS h (K ++ F) (Except.ok (dSet key (.dict (dSet n va sect')) res'))
      (Except.ok (hSet key (.dict (hSet n xa sect)) res)) := by
    intro n
    obtain ⟨G1, hG1, hs1⟩ := hd.set (k := n) ra
    obtain ⟨G2, hG2, hs2⟩ := hset h _ _ _ (fun _ _ => rfl) (.dict hG1)
    refine .ok hG2 ?_ (hsec.set _ _)
    intro a
    have := hc a; have := hs1 a; have := hs2 a; have := sa a
    simp only [List.count_append] at *
    omega
  cases rn with
  | str n => exact fin n
  | elem n => exact fin n
  | tok _ n => exact fin n
  | _ => exact .error _

theorem sim_startItems {h : Heap} : {d : List (String × HV)} → {d' : List (String × Val)} → {F : List Nat} →
    RepI h false d d' F → ∀ {res : List (String × HV)} {res' : List (String × Val)} {K : List Nat},
    RepI h true res res' K → Sections res → OutS h (K ++ F) (startItems res' d') (hStartItems h res d)
  | _, _, _, .nil, _, _, _, hres, hsec => .ok hres (by sub_tac) hsec
  | _, _, _, .cons (k := k) h1 h2, res, res', _, hres, hsec => by
    simp only [startItems, hStartItems]
    have hs := sim_startStep k hres hsec h1
    generalize startStep res' k _ = r1, hStartStep h res k _ = s1 at hs
    cases hs with
    | error e => exact .error _
    | ok hr hg hsec' =>
      have := sim_startItems h2 hr hsec'
      show OutS h _ (startItems _ _) (hStartItems h _ _)
      generalize startItems _ _ = r2, hStartItems h _ _ = s2 at this
      cases this with
      | error e => exact .error _
      | ok hr2 hg2 hsec2 =>
        refine .ok hr2 ?_ hsec2
        intro a
        have := hg a; have := hg2 a
        simp only [List.count_append] at *
        omega

theorem sim_startLoop {h : Heap} : {l : List HV} → {l' : List Val} → {F : List Nat} →
    RepL h false l l' F → F.Nodup → ∀ {res : List (String × HV)} {res' : List (String × Val)} {K : List Nat},
    RepI h true res res' K → Sections res → OutS h (K ++ F) (startLoop res' l') (hStartLoop h res l)
  | _, _, _, .nil, _, _, _, _, hres, hsec => .ok hres (by sub_tac) hsec
  | _, _, _, .cons (x := x) (v := v) (F := F1) (G := F2) h1 h2, hn, res, res', K, hres, hsec => by
    simp only [startLoop, hStartLoop]
    have hn' := List.nodup_append.mp hn
    rw [h1.truthy hn'.1]
    split
    · have := sim_startLoop h2 hn'.2.1 hres hsec
      generalize startLoop _ _ = r2, hStartLoop h _ _ = s2 at this
      cases this with
      | error e => exact .error _
      | ok hr2 hg2 hsec2 => exact .ok hr2 (hg2.trans (by sub_tac)) hsec2
    · by_cases hv : ∃ d, v = .dict d
      · obtain ⟨d', rfl⟩ := hv
        obtain ⟨d, G, e, hd, hs⟩ : ∃ d G, x.obj h = .dict d ∧ RepI h false d d' G ∧ Sub G F1 := by
          cases h1 with
          | refD e hd =>
            refine ⟨_, _, by simp [HV.obj, e], hd, ?_⟩
            intro a
            simp only [List.count_cons]; omega
        simp only [e]
        have hs1 := sim_startItems hd hres hsec
        generalize startItems res' d' = r1, hStartItems h res d = s1 at hs1
        cases hs1 with
        | error e => exact .error _
        | ok hr hg hsec' =>
          have := sim_startLoop h2 hn'.2.1 hr hsec'
          show OutS h _ (startLoop _ _) (hStartLoop h _ _)
          generalize startLoop _ _ = r2, hStartLoop h _ _ = s2 at this
          cases this with
          | error e => exact .error _
          | ok hr2 hg2 hsec2 =>
            refine .ok hr2 ?_ hsec2
            intro a
            have := hg a; have := hg2 a; have := hs a
            simp only [List.count_append] at *
            omega
      · have hd := h1.obj_not_dict (fun d e => hv ⟨d, e⟩)
        generalize x.obj h = o at hd
        cases o with
        | dict d => exact absurd rfl (hd d)
        | _ =>
          cases v with
          | dict d => exact absurd ⟨d, rfl⟩ hv
          | _ => exact .error _

/-- two different items of a dictionary -/
theorem RepI.get2 {h : Heap} {b : Bool} {k k' : String} (hk : k ≠ k') {d : List (String × HV)} {d' : List (String × Val)}
    {F : List Nat} (hd : RepI h b d d' F) {v w : Val} (e1 : dGet k d' = some v) (e2 : dGet k' d' = some w) :
    ∃ x y G1 G2, hGet k d = some x ∧ hGet k' d = some y ∧ Rep h b x v G1 ∧ Rep h b y w G2 ∧ Sub (G1 ++ G2) F := by
  induction d' generalizing d F with
  | nil => simp [dGet] at e1
  | cons p d' ih =>
    obtain ⟨k1, u⟩ := p
    cases hd with
    | cons h1 h2 =>
      simp only [dGet] at e1 e2
      simp only [hGet]
      by_cases c1 : k1 = k
      · have c2 : k1 ≠ k' := fun c => hk (c1.symm.trans c)
        simp only [c1, if_true] at e1
        simp only [c2, if_false] at e2
        cases e1
        rcases h2.get (k := k') with ⟨e3, _⟩ | ⟨w', y, G, e3, e4, r, s⟩
        · rw [e3] at e2; exact absurd e2 (by simp)
        · rw [e3] at e2
          cases e2
          refine ⟨_, y, _, G, by simp [c1], by simp [c2, e4], h1, r, ?_⟩
          intro a; have := s a; simp only [List.count_append]; omega
      · by_cases c2 : k1 = k'
        · simp only [c2, if_true] at e2
          simp only [c1, if_false] at e1
          cases e2
          rcases h2.get (k := k) with ⟨e3, _⟩ | ⟨w', y, G, e3, e4, r, s⟩
          · rw [e3] at e1; exact absurd e1 (by simp)
          · rw [e3] at e1
            cases e1
            refine ⟨y, _, G, _, by simp [c1, e4], by simp [c2], r, h1, ?_⟩
            intro a; have := s a; simp only [List.count_append]; omega
        · simp only [c1, if_false] at e1
          simp only [c2, if_false] at e2
          obtain ⟨x, y, G1, G2, g1, g2, r1, r2, s⟩ := ih h2 e1 e2
          refine ⟨x, y, G1, G2, by simp [c1, g1], by simp [c2, g2], r1, r2, ?_⟩
          intro a; have := s a; simp only [List.count_append] at *; omega

/-- `v[k]` and `v[k']`, as far as they can be read -/
theorem Rep.items {h : Heap} {b : Bool} {x : HV} {v : Val} {F : List Nat} (hr : Rep h b x v F) (k k' : String) (hk : k ≠ k') :
    (∃ e, v.item k = .error e ∧ x.item h k = .error e) ∨
    (∃ e w y, v.item k = .ok w ∧ v.item k' = .error e ∧ x.item h k = .ok y ∧ x.item h k' = .error e) ∨
    ∃ w1 y1 w2 y2 G1 G2, v.item k = .ok w1 ∧ v.item k' = .ok w2 ∧ x.item h k = .ok y1 ∧ x.item h k' = .ok y2 ∧
      Rep h true y1 w1 G1 ∧ Rep h true y2 w2 G2 ∧ Sub (G1 ++ G2) F := by
  have ho := hr.item k
  have ho' := hr.item k'
  by_cases hv : ∃ d, v = .dict d
  · obtain ⟨d', rfl⟩ := hv
    obtain ⟨d, G, e, hd, hs⟩ := hr.obj_dict
    cases e1 : dGet k d' with
    | none =>
      have : (Val.dict d').item k = .error .keyError := by simp only [Val.item, e1]
      rw [this] at ho
      generalize x.item h k = s at ho
      cases ho
      exact .inl ⟨_, this, rfl⟩
    | some w1 =>
      have i1 : (Val.dict d').item k = .ok w1 := by simp only [Val.item, e1]
      cases e2 : dGet k' d' with
      | none =>
        have i2 : (Val.dict d').item k' = .error .keyError := by simp only [Val.item, e2]
        rw [i1] at ho
        rw [i2] at ho'
        generalize x.item h k = s at ho
        generalize x.item h k' = s' at ho'
        cases ho
        cases ho'
        exact .inr (.inl ⟨_, _, _, i1, i2, rfl, rfl⟩)
      | some w2 =>
        obtain ⟨y1, y2, G1, G2, g1, g2, r1, r2, s⟩ := hd.get2 hk e1 e2
        refine .inr (.inr ⟨w1, y1, w2, y2, G1, G2, i1, by simp only [Val.item, e2], ?_, ?_, r1, r2, s.trans hs⟩)
        · simp only [HV.item, e, g1]
        · simp only [HV.item, e, g2]
  · have i1 : v.item k = .error .typeError := by
      cases v with
      | dict d => exact absurd ⟨d, rfl⟩ hv
      | _ => rfl
    rw [i1] at ho
    generalize x.item h k = s at ho
    cases ho
    exact .inl ⟨_, i1, rfl⟩

/-! ### elements -/

theorem sim_scope : SimM cb_scope hcb_scope := by
  intro ln sp h xs vs F hr hn
  unfold cb_scope hcb_scope
  refine (sim_idx hr).bind fun x v G r s _ => ?_
  simp only [r.pyStr (s.nodup hn)]
  split
  · exact .error _
  · exact out_lines _ _ _ _ (.cons (.str _) .nil) (by intro a; simp)

theorem sim_extension : SimM cb_extension hcb_extension := by
  intro ln sp h xs vs F hr hn
  rcases hr with _ | ⟨h1, _ | ⟨h2, _ | ⟨h3, _ | ⟨h4, hr⟩⟩⟩⟩
  · exact .error _
  · exact .error _
  · exact .error _
  · simp only [cb_extension, hcb_extension, h1.pyStr (nd hn), h2.truthy (nd hn), h3.truthy (nd hn), h3.pyStr (nd hn)]
    split <;> split <;>
      exact out_lines _ _ _ _ (by rep_tac) (by sub_tac)
  · exact .error _

theorem sim_metadata : SimM cb_metadata hcb_metadata := by
  intro ln sp h xs vs F hr hn
  rcases hr with _ | ⟨h1, _ | ⟨h2, _ | ⟨h3, hr⟩⟩⟩
  · exact .error _
  · exact .error _
  · simp only [cb_metadata, hcb_metadata, h1.pyStr (nd hn)]
    exact out_lines _ _ _ _ (by rep_tac) (by sub_tac)
  · exact .error _

theorem sim_param : SimM cb_param hcb_param := by
  intro ln sp h xs vs F hr hn
  rcases hr with _ | ⟨h1, _ | ⟨h2, _ | ⟨h3, _ | ⟨h4, _ | ⟨h5, hr⟩⟩⟩⟩⟩
  · exact .error _
  · exact .error _
  · exact .error _
  · exact .error _
  · obtain ⟨G, hG, hs⟩ := rep_orEmptyList h1 (nd hn)
    simp only [cb_param, hcb_param, h2.pyStr (nd hn)]
    exact out_lines _ _ _ _ (.cons hG (by rep_tac))
      (by intro a; have := hs a; simp only [List.count_append]; omega)
  · exact .error _

theorem sim_var : SimM cb_var hcb_var := by
  intro ln sp h xs vs F hr hn
  rcases hr with _ | ⟨h1, _ | ⟨h2, _ | ⟨h3, _ | ⟨h4, _ | ⟨h5, hr⟩⟩⟩⟩⟩
  · exact .error _
  · exact .error _
  · exact .error _
  · exact .error _
  · obtain ⟨G, hG, hs⟩ := rep_orEmptyList h1 (nd hn)
    simp only [cb_var, hcb_var, h2.pyStr (nd hn), h3.truthy (nd hn)]
    split <;>
    exact out_lines _ _ _ _ (.cons hG (by rep_tac))
      (by intro a; have := hs a; simp only [List.count_append, List.count_nil]; omega)
  · exact .error _

theorem sim_output : SimM cb_output hcb_output := by
  intro ln sp h xs vs F hr hn
  rcases hr with _ | ⟨h1, _ | ⟨h2, _ | ⟨h3, _ | ⟨h4, _ | ⟨h5, hr⟩⟩⟩⟩⟩
  · exact .error _
  · exact .error _
  · exact .error _
  · exact .error _
  · obtain ⟨G, hG, hs⟩ := rep_orEmptyList h1 (nd hn)
    simp only [cb_output, hcb_output, h2.pyStr (nd hn)]
    exact out_lines _ _ _ _ (.cons hG (by rep_tac))
      (by intro a; have := hs a; simp only [List.count_append]; omega)
  · exact .error _

theorem sim_child_resource : SimM cb_child_resource hcb_child_resource := by
  intro ln sp h xs vs F hr hn
  rcases hr with _ | ⟨h1, _ | ⟨h2, _ | ⟨h3, _ | ⟨h4, _ | ⟨h5, hr⟩⟩⟩⟩⟩
  · exact .error _
  · exact .error _
  · exact .error _
  · exact .error _
  · simp only [cb_child_resource, hcb_child_resource, h1.pyStr (nd hn), h2.pyStr (nd hn), h3.truthy (nd hn)]
    refine OutI.bind (sim_addLines' _ _ (by rep_tac) (by sub_tac)) fun x v G hx hs =>
      .ok (.tup2 (.str _) (.dict (.cons (.str _) (.cons (.dict hx) .nil)))) ?_
    intro a
    have := hs a
    simp only [List.count_append, List.count_nil] at *
    omega
  · exact .error _

theorem sim_module : SimM cb_module hcb_module := by
  intro ln sp h xs vs F hr hn
  rcases hr with _ | ⟨h1, _ | ⟨h2, _ | ⟨h3, _ | ⟨h4, _ | ⟨h5, hr⟩⟩⟩⟩⟩
  · exact .error _
  · exact .error _
  · exact .error _
  · exact .error _
  · obtain ⟨G, hG, hs⟩ := rep_orEmptyList h1 (nd hn)
    simp only [cb_module, hcb_module, h2.pyStr (nd hn)]
    rcases h3.items "type" "detail" (by decide) with ⟨e, e1, e2⟩ | ⟨e, v, x, e1, e2, e3, e4⟩ | ⟨v, x, w, y, G1, G2, e1, e2, e3, e4, r1, r2, s12⟩
    · rw [e1, e2]; exact .error _
    · rw [e1, e2, e3, e4]; exact .error _
    · rw [e1, e2, e3, e4]
      exact out_lines _ _ _ _ (.cons hG (.cons r1 (.cons r2 (.cons h4.weaken .nil))))
        (by intro a; have := hs a; have := s12 a; simp only [List.count_append, List.count_nil] at *; omega)
  · exact .error _

theorem sim_custom_type : SimM cb_custom_type hcb_custom_type := by
  intro ln sp h xs vs F hr hn
  rcases hr with _ | ⟨h1, _ | ⟨h2, _ | ⟨h3, _ | ⟨h4, hr⟩⟩⟩⟩
  · exact .error _
  · exact .error _
  · exact .error _
  · obtain ⟨G, hG, hs⟩ := rep_orEmptyList h1 (nd hn)
    simp only [cb_custom_type, hcb_custom_type, h2.pyStr (nd hn)]
    exact out_lines _ _ _ _ (.cons hG (by rep_tac))
      (by intro a; have := hs a; simp only [List.count_append]; omega)
  · exact .error _

theorem sim_argPairs {h : Heap} {F' : List Nat} (hn : F'.Nodup) : {l : List HV} → {l' : List Val} → {F : List Nat} →
    RepL h false l l' F → Sub F F' → OutI h F (argPairs l') (hArgPairs h l)
  | _, _, _, .nil, _ => .ok .nil (.refl _)
  | _, _, _, .cons h1 .nil, _ => .error _
  | _, _, _, .cons (F := F1) h1 (.cons (F := F2) (G := F3) h2 h3), hs => by
    simp only [argPairs, hArgPairs]
    have := sim_argPairs hn h3 (Sub.trans (by sub_tac) hs)
    generalize argPairs _ = r, hArgPairs h _ = s at this
    cases this with
    | error e => exact .error _
    | @ok x v G hr hg =>
      rw [h1.pyStr (Sub.nodup (Sub.trans (by sub_tac) hs) hn)]
      refine OutI.ok (.cons h2.weaken hr) ?_
      intro a; have := hg a; simp only [List.count_append]; omega

theorem sim_custom_func : SimM cb_custom_func hcb_custom_func := by
  intro ln sp h xs vs F hr hn
  rcases hr with _ | ⟨h1, _ | ⟨h2, hr⟩⟩
  · exact .error _
  · exact .error _
  · simp only [cb_custom_func, hcb_custom_func]
    obtain ⟨G, hG, hs⟩ := hr.reverse
    revert hG
    generalize List.reverse (α := HV) _ = l1
    generalize List.reverse (α := Val) _ = l2
    intro hG
    rcases hG with _ | ⟨g1, _ | ⟨g2, hG⟩⟩
    · exact .error _
    · exact .error _
    · simp only []
      obtain ⟨G', hG', hs'⟩ := hG.reverse
      have hn1 : (_ ++ (_ ++ _) : List Nat).Nodup := Sub.nodup hs (nd hn)
      have hn2 : G'.Nodup := Sub.nodup hs' (nd hn1)
      obtain ⟨K, hK, hsK⟩ := rep_orEmptyList h1 (nd hn)
      refine (sim_argPairs hn2 hG' (.refl _)).bind' fun x v G2 r2 s2 => ?_
      obtain ⟨G3, hG3, hs3⟩ := r2.mkDict
      rw [h2.pyStr (nd hn)]
      refine out_lines _ _ _ _ (.cons hK (.cons (.dict hG3) (.cons g2.weaken (.cons g1.weaken .nil)))) ?_
      intro a
      have := hs a; have := hs' a; have := hsK a; have := s2 a; have := hs3 a
      simp only [List.count_append, List.count_nil] at *; omega

/-! ### element type extras -/

theorem sim_array_suffix : SimP cb_array_suffix hcb_array_suffix := by
  intro h xs vs F hr hn
  exact .ok .none (by intro a; simp)

theorem sim_base_type : SimP cb_base_type hcb_base_type := by
  intro h xs vs F hr hn
  rcases hr with _ | ⟨h1, hr⟩
  · exact .error _
  · cases h1 with
    | tok t s => exact .ok (.str _) (by sub_tac)
    | tup2 r1 r2 => exact .ok (.tup2 r1.weaken r2.weaken) (by sub_tac)
    | refL e hl => exact .ok (.refL e hl) (by sub_tac)
    | refD e hl => exact .ok (.refD e hl) (by sub_tac)
    | _ => out_tac

theorem sim_union_type : SimP cb_union_type hcb_union_type := by
  intro h xs vs F hr hn
  exact .ok (.dict (.cons (.str _) (.cons (.list hr.weaken) .nil))) (by sub_tac)

theorem sim_wrapArray {h : Heap} : {l : List HV} → {l' : List Val} → {G : List Nat} → RepL h false l l' G →
    ∀ {x : HV} {v : Val} {F : List Nat}, Rep h true x v F → Rep h true (hWrapArray l x) (wrapArray l' v) F
  | _, _, _, .nil, _, _, _, hx => hx
  | _, _, _, .cons _ h2, _, _, _, hx => by
    have h1 := RepI.cons (k := "item_type") hx .nil
    rw [List.append_nil] at h1
    exact sim_wrapArray h2 (.dict (.cons (.str _) h1))

theorem sim_data_type : SimP cb_data_type hcb_data_type := by
  intro h xs vs F hr hn
  rcases hr with _ | ⟨h1, hr⟩
  · exact .error _
  · exact .ok (sim_wrapArray hr h1.weaken) (by sub_tac)

theorem sim_type_api_pair : SimP cb_type_api_pair hcb_type_api_pair := by
  intro h xs vs F hr hn
  unfold cb_type_api_pair hcb_type_api_pair
  refine (sim_idx hr).bind fun x v G r s _ => ?_
  rw [r.pyStr (s.nodup hn)]
  rcases splitOn '@' (sliceBoth 1 v.pyStr) with _ | ⟨t, _ | ⟨w, _ | ⟨_, _⟩⟩⟩
  · exact .error _
  · exact .error _
  · exact .ok (.dict (.cons (.str _) (.cons (.str _) .nil))) (by intro a; simp)
  · exact .error _

mutual
theorem rep_display (h : Heap) : (v : Val) → Rep h true v.display v []
  | .none => .none
  | .bool _ => .bool _
  | .int _ => .int _
  | .str _ => .str _
  | .elem _ => .elem _
  | .tok _ _ => .tok _ _
  | .list l => .list (rep_displayL h l)
  | .tup2 a b => .tup2 (rep_display h a) (rep_display h b)
  | .dict d => .dict (rep_displayI h d)
theorem rep_displayL (h : Heap) : (v : List Val) → RepL h true (Val.displayL v) v []
  | [] => .nil
  | v :: l => .cons (rep_display h v) (rep_displayL h l)
theorem rep_displayI (h : Heap) : (v : List (String × Val)) → RepI h true (Val.displayI v) v []
  | [] => .nil
  | (_, v) :: l => .cons (rep_display h v) (rep_displayI h l)
end

theorem sim_module_path : SimP cb_module_path hcb_module_path := by
  intro h xs vs F hr hn
  unfold cb_module_path hcb_module_path
  refine (sim_idx hr).bind fun x v G r s _ => ?_
  rw [r.pyStr (s.nodup hn)]
  cases classifyModulePath (sliceBoth 1 v.pyStr) with
  | error e => exact .error _
  | ok w => exact .ok (rep_display h w) (by intro a; simp)

theorem sim_import_alias : SimP cb_import_alias hcb_import_alias := by
  intro h xs vs F hr hn
  rcases hr with _ | ⟨h1, _ | ⟨h2, _ | ⟨h3, hr⟩⟩⟩
  · exact .error _
  · exact .error _
  · simp only [cb_import_alias, hcb_import_alias, h1.pyStr (nd hn), h2.pyStr (nd hn), h2.truthy (nd hn)]
    split
    · exact .ok (.dict (.cons (.str _) (.cons (.str _) .nil))) (by sub_tac)
    · exact .ok (.dict (.cons (.str _) .nil)) (by sub_tac)
  · exact .error _

theorem map_pyStr {h : Heap} {F' : List Nat} (hn : F'.Nodup) : {l : List HV} → {l' : List Val} → {F : List Nat} →
    RepL h false l l' F → Sub F F' → l.map (HV.pyStr h) = l'.map Val.pyStr
  | _, _, _, .nil, _ => rfl
  | _, _, _, .cons h1 h2, hs => by
    rw [List.map_cons, List.map_cons, h1.pyStr (Sub.nodup (Sub.trans (by sub_tac) hs) hn),
      map_pyStr hn h2 (Sub.trans (by sub_tac) hs)]

theorem sim_type_value : SimP cb_type_value hcb_type_value := by
  intro h xs vs F hr hn
  simp only [cb_type_value, hcb_type_value, map_pyStr hn hr (.refl _)]
  exact .ok (.str _) (by intro a; simp)

/-! ### loops and conditions -/

theorem sim_loopCondition {h : Heap} {x : HV} {v : Val} {F : List Nat} (hr : Rep h false x v F) (hn : F.Nodup) :
    Out h F (loopCondition v) (hLoopCondition h x) := by
  by_cases hv : ∃ d, v = .dict d
  · obtain ⟨d', rfl⟩ := hv
    obtain ⟨d, G, e, hd, hs⟩ := hr.obj_dict
    simp only [loopCondition, hLoopCondition, e]
    refine (hr.getOrEmpty "function").bind fun x1 v1 G1 r1 s1 _ => ?_
    refine ((r1.get "type").mono s1).bind fun x2 v2 G2 r2 s2 _ => ?_
    rw [r2.eqStr (s2.nodup hn)]
    split
    · refine ((r1.item "parameters").mono s1).bind fun x3 v3 G3 r3 s3 _ => ?_
      exact (r3.item "arg_1").mono s3
    · exact .ok hr.weaken (.refl _)
  · have hd := hr.obj_not_dict (fun d e => hv ⟨d, e⟩)
    have e1 : loopCondition v = .ok v := by
      cases v with
      | dict d => exact absurd ⟨d, rfl⟩ hv
      | _ => rfl
    have e2 : hLoopCondition h x = .ok x := by
      unfold hLoopCondition
      split
      · rename_i d e; exact absurd e (hd d)
      · rfl
    rw [e1, e2]; exact .ok hr.weaken (.refl _)

theorem sim_loop : SimP cb_loop hcb_loop := by
  intro h xs vs F hr hn
  rcases hr with _ | ⟨h1, _ | ⟨h2, _ | ⟨h3, _ | ⟨h4, hr⟩⟩⟩⟩
  · exact .error _
  · exact .error _
  · exact .error _
  · simp only [cb_loop, hcb_loop]
    have := sim_loopCondition h2 (nd hn)
    generalize loopCondition _ = r, hLoopCondition h _ = s at this
    cases this with
    | error e => exact .error _
    | ok hr hs =>
      refine Out.ok (.dict (.cons h1.weaken (.cons hr (.cons h3.weaken .nil)))) ?_
      intro a; have := hs a; simp only [List.count_append, List.count_nil]; omega
  · exact .error _

theorem sim_loop_array : SimP cb_loop_array hcb_loop_array := by
  intro h xs vs F hr hn
  rcases hr with _ | ⟨h1, _ | ⟨h2, _ | ⟨h3, hr⟩⟩⟩
  · exact .error _
  · exact .error _
  · simp only [cb_loop_array, hcb_loop_array, h1.pyStr (nd hn)]; out_tac
  · exact .error _

theorem sim_loop_array_index : SimP cb_loop_array_index hcb_loop_array_index := by
  intro h xs vs F hr hn
  rcases hr with _ | ⟨h1, _ | ⟨h2, _ | ⟨h3, _ | ⟨h4, hr⟩⟩⟩⟩
  · exact .error _
  · exact .error _
  · exact .error _
  · simp only [cb_loop_array_index, hcb_loop_array_index, h1.pyStr (nd hn), h2.pyStr (nd hn)]; out_tac
  · exact .error _

theorem sim_loop_object : SimP cb_loop_object hcb_loop_object := by
  intro h xs vs F hr hn
  rcases hr with _ | ⟨h1, _ | ⟨h2, _ | ⟨h3, hr⟩⟩⟩
  · exact .error _
  · exact .error _
  · simp only [cb_loop_object, hcb_loop_object, h1.pyStr (nd hn), h2.pyStr (nd hn)]; out_tac
  · exact .error _

theorem sim_deploy_condition : SimP cb_deploy_condition hcb_deploy_condition := by
  sim_args

/-! ### decorators and functions -/

theorem sim_decorator : SimP cb_decorator hcb_decorator := by
  intro h xs vs F hr hn
  rcases hr with _ | ⟨h1, hr⟩
  · exact .error _
  · simp only [cb_decorator, hcb_decorator, h1.pyStr (nd hn)]
    exact (sim_getDecorator _ _ _ _ _ _ hr (nd hn)).mono (by sub_tac)

theorem sim_decorators : SimP cb_decorators hcb_decorators := by
  intro h xs vs F hr hn
  exact .ok (.list hr.weaken) (.refl _)

theorem sim_function : SimP cb_function hcb_function := by
  intro h xs vs F hr hn
  rcases hr with _ | ⟨h1, hr⟩
  · exact .error _
  · simp only [cb_function, hcb_function, h1.pyStr (nd hn)]
    refine ((sim_getFunction _ _ _ _ _ _ hr (nd hn)).mono (by sub_tac)).bind fun x v G r s _ => ?_
    exact .ok (.dict (.cons r .nil)) (Sub.trans (by sub_tac) s)

/-! ### operators -/

theorem sim_operator : SimP cb_operator hcb_operator := by sim_args
theorem sim_binary (t : String) : SimP (cb_binary t) (fun h => hcb_binary h t) := by sim_args

theorem sim_variadic (t : String) : SimP (cb_variadic t) (fun h => hcb_variadic h t) := by
  intro h xs vs F hr hn
  rcases hr with _ | ⟨h1, _ | ⟨h2, hr⟩⟩
  · exact .error _
  · exact .error _
  · obtain ⟨G, hG, hs⟩ := (RepI.cons (k := "operand_1") h1 (.cons (k := "operand_2") h2 (hr.enum "operand_" 3))).mkDict
    exact .ok (.dict (.cons (.str _) (.cons (.dict hG.weaken) .nil))) (Sub.trans (by sub_tac) hs)

theorem sim_not_op : SimP cb_not_op hcb_not_op := by sim_args
theorem sim_minus : SimP cb_minus hcb_minus := by sim_args
theorem sim_conditional : SimP cb_conditional hcb_conditional := by sim_args

theorem sim_filter {h : Heap} {F' : List Nat} (hn : F'.Nodup) : {d : List (String × HV)} → {d' : List (String × Val)} →
    {F : List Nat} → RepI h false d d' F → Sub F F' →
    ∃ G, RepI h false (d.filter (fun p => p.2.truthy h)) (d'.filter (fun p => p.2.truthy)) G ∧ Sub G F
  | _, _, _, .nil, _ => ⟨_, .nil, .refl _⟩
  | _, _, _, .cons h1 h2, hs => by
    obtain ⟨G, hG, hg⟩ := sim_filter hn h2 (Sub.trans (by sub_tac) hs)
    simp only [List.filter_cons, h1.truthy (Sub.nodup (Sub.trans (by sub_tac) hs) hn)]
    split
    · exact ⟨_, .cons h1 hG, by intro a; have := hg a; simp only [List.count_append]; omega⟩
    · exact ⟨_, hG, hg.trans (by sub_tac)⟩

theorem sim_function_accessor : SimP cb_function_accessor hcb_function_accessor := by
  intro h xs vs F hr hn
  rcases hr with _ | ⟨h1, _ | ⟨h2, hr⟩⟩
  · exact .error _
  · exact .error _
  · simp only [cb_function_accessor, hcb_function_accessor, h2.pyStr (nd hn)]
    obtain ⟨K, hK, hk⟩ := sim_filter (nd hn) (hr.enum "operand_" 2) (.refl _)
    obtain ⟨G, hG, hs⟩ := (RepI.cons (k := "operand_1") h1 (.cons (k := "func_name") (.str _) hK)).mkDict
    refine .ok (.dict (.cons (.str _) (.cons (.dict hG.weaken) .nil))) ?_
    intro a; have := hk a; have := hs a
    simp only [List.count_append, List.count_nil] at *; omega

/-! ### data types -/

theorem rep_tokValue {h : Heap} {b : Bool} {x : HV} {v : Val} {F : List Nat} (hr : Rep h b x v F) :
    Rep h b (hTokValue x) (tokValue v) F := by
  cases hr with
  | tok t s => exact .str _
  | tup2 r1 r2 => exact .tup2 r1 r2
  | refL e hl => exact .refL e hl
  | refD e hl => exact .refD e hl
  | list hl => exact .list hl
  | dict hl => exact .dict hl
  | none => exact .none
  | bool b => exact .bool b
  | int b => exact .int b
  | str b => exact .str b
  | elem b => exact .elem b

theorem map_tokValue {h : Heap} {b : Bool} : {l : List HV} → {l' : List Val} → {F : List Nat} →
    RepL h b l l' F → RepL h b (l.map hTokValue) (l'.map tokValue) F
  | _, _, _, .nil => .nil
  | _, _, _, .cons h1 h2 => .cons (rep_tokValue h1) (map_tokValue h2)

theorem sim_array : SimP cb_array hcb_array := by
  intro h xs vs F hr hn
  exact .ok (.list (map_tokValue hr).weaken) (.refl _)

theorem sim_dictPairs {h : Heap} : {l : List HV} → {l' : List Val} → {F : List Nat} →
    RepL h false l l' F → OutI h F (dictPairs l') (hDictPairs l)
  | _, _, _, .nil => .ok .nil (.refl _)
  | _, _, _, .cons h1 h2 => by
    have ih := sim_dictPairs h2
    cases h1 with
    | tup2 r1 r2 =>
      cases r1 with
      | str k =>
        simp only [dictPairs, hDictPairs]
        generalize dictPairs _ = r, hDictPairs _ = s at ih
        cases ih with
        | error e => exact .error _
        | ok hr hs =>
          refine OutI.ok (.cons r2.weaken hr) ?_
          intro a; have := hs a; simp only [List.count_append, List.count_nil]; omega
      | _ => exact .error _
    | _ => exact .error _

theorem sim_object : SimP cb_object hcb_object := by
  intro h xs vs F hr hn
  unfold cb_object hcb_object
  refine (sim_dictPairs hr).bind fun x v G r s => ?_
  obtain ⟨K, hK, hk⟩ := r.mkDict
  exact .ok (.dict hK) (hk.trans s)

theorem sim_pair : SimP cb_pair hcb_pair := by
  intro h xs vs F hr hn
  rcases hr with _ | ⟨h1, _ | ⟨h2, _ | ⟨h3, hr⟩⟩⟩
  · exact .error _
  · exact .error _
  · exact .ok (.tup2 h1.weaken (rep_tokValue h2).weaken) (by sub_tac)
  · exact .error _

theorem sim_key : SimP cb_key hcb_key := by
  intro h xs vs F hr hn
  unfold cb_key hcb_key
  refine (sim_idx hr).bind fun x v G r s _ => ?_
  rw [r.pyStr (s.nodup hn)]
  exact .ok (.str _) (by intro a; simp)

theorem sim_int_type : SimP cb_int_type hcb_int_type := by
  intro h xs vs F hr hn
  unfold cb_int_type hcb_int_type
  refine (sim_idx hr).bind fun x v G r s _ => ?_
  exact (r.pyInt (s.nodup hn)).mono s

theorem sim_transformStringToken {h : Heap} {b : Bool} {x : HV} {v : Val} {F : List Nat} (hr : Rep h b x v F) :
    Out h [] (transformStringToken v) (hTransformStringToken x) := by
  cases hr with
  | tok t s =>
    unfold transformStringToken hTransformStringToken
    split <;> simp_all <;> first | exact .ok (.str _) (.refl _) | exact .ok (.elem _) (.refl _)
  | _ => exact .error _

theorem sim_string : SimP cb_string hcb_string := by
  intro h xs vs F hr hn
  unfold cb_string hcb_string
  refine (sim_idx hr).bind fun x v G r s _ => ?_
  exact (sim_transformStringToken r).mono (by intro a; simp)

theorem sim_multi_line_string : SimP cb_multi_line_string hcb_multi_line_string := by
  intro h xs vs F hr hn
  unfold cb_multi_line_string hcb_multi_line_string
  refine (sim_idx hr).bind fun x v G r s _ => ?_
  rw [r.pyStr (s.nodup hn)]
  exact .ok (.str _) (by intro a; simp)

theorem sim_true : SimP (cb_const (.bool true)) (fun h => hcb_const h (.bool true)) := by
  intro h xs vs F hr hn
  exact .ok (.bool _) (by intro a; simp)
theorem sim_false : SimP (cb_const (.bool false)) (fun h => hcb_const h (.bool false)) := by
  intro h xs vs F hr hn
  exact .ok (.bool _) (by intro a; simp)
theorem sim_null : SimP (cb_const .none) (fun h => hcb_const h .none) := by
  intro h xs vs F hr hn
  exact .ok .none (by intro a; simp)

theorem map_str {h : Heap} {F' : List Nat} (hn : F'.Nodup) : {l : List HV} → {l' : List Val} → {F : List Nat} →
    RepL h false l l' F → Sub F F' →
    RepL h true (l.map (fun v => .str (v.pyStr h))) (l'.map (fun v => .str v.pyStr)) []
  | _, _, _, .nil, _ => .nil
  | _, _, _, .cons h1 h2, hs => by
    rw [List.map_cons, List.map_cons, h1.pyStr (Sub.nodup (Sub.trans (by sub_tac) hs) hn)]
    exact .cons (.str _) (map_str hn h2 (Sub.trans (by sub_tac) hs))

theorem sim_lambda_expression : SimP cb_lambda_expression hcb_lambda_expression := by
  intro h xs vs F hr hn
  rcases hr with _ | ⟨h1, hr⟩
  · exact .error _
  · simp only [cb_lambda_expression, hcb_lambda_expression]
    obtain ⟨G, hG, hs⟩ := hr.reverse
    revert hG
    generalize List.reverse (α := HV) _ = l1
    generalize List.reverse (α := Val) _ = l2
    intro hG
    rcases hG with _ | ⟨g1, hG⟩
    · exact .error _
    · simp only []
      obtain ⟨G', hG', hs'⟩ := hG.reverse
      have hn2 : (_ ++ _ : List Nat).Nodup := Sub.nodup hs (nd hn)
      rw [h1.pyStr (nd hn)]
      obtain ⟨K, hK, hk⟩ := (RepI.cons (k := "var_1") (Rep.str _)
        (RepI.append (.cons (k := "expression") g1.weaken .nil)
          ((map_str (Sub.nodup hs' (nd hn2)) hG' (.refl _)).enum "var_" 2))).mkDict
      refine .ok (.dict (.cons (.str _) (.cons (.dict hK) .nil))) ?_
      intro a
      have := hs a; have := hs' a; have := hk a
      simp only [List.count_append, List.count_nil] at *; omega

end Pycep.Mem
