import Verif.Heap.SimMethods
import Verif.Proofs.SemDecl
/-
`process_child_resource` and `resource`, which change objects in place, follow the definitions on plain
values, as long as no object is met twice.
-/
namespace Pycep.Mem

/-- From the memory `h` with the objects `F` to the memory `h'` with the objects `G`: only objects of `F`
change, and `G` has objects of `F` and new ones. -/
structure Step (h : Heap) (F : List Nat) (h' : Heap) (G : List Nat) : Prop where
  len : h.length ≤ h'.length
  keep : ∀ a : Nat, a < h.length → a ∉ F → h'[a]? = h[a]?
  grow : Grow h F h' G

theorem Step.refl (h : Heap) (F : List Nat) : Step h F h F := ⟨Nat.le_refl _, fun _ _ _ => rfl, .same h F⟩

theorem Step.notMem {h h' : Heap} {F G : List Nat} (s : Step h F h' G) {a : Nat} (ha : a < h.length) (hF : a ∉ F) :
    a ∉ G := by
  intro hG
  have := s.grow a
  have h1 := List.count_pos_iff.mpr hG
  have h2 := List.count_eq_zero.mpr hF
  split at this <;> omega

theorem Step.trans {h h' h'' : Heap} {F G K : List Nat} (s : Step h F h' G) (t : Step h' G h'' K) :
    Step h F h'' K := by
  refine ⟨Nat.le_trans s.len t.len, ?_, ?_⟩
  · intro a ha hF
    rw [t.keep a (Nat.lt_of_lt_of_le ha s.len) (s.notMem ha hF), s.keep a ha hF]
  · intro a
    have h1 := s.grow a
    have h2 := t.grow a
    have := s.len; have := t.len
    split at h1 <;> split at h2 <;> split <;> omega

theorem Step.weaken {h h' : Heap} {F F' G G' : List Nat} (s : Step h F h' G) (hF : Sub F F') (hG : Sub G' G) :
    Step h F' h' G' := by
  refine ⟨s.len, fun a ha h1 => s.keep a ha (fun h2 => h1 (hF.mem h2)), ?_⟩
  intro a
  have := s.grow a; have := hF a; have := hG a
  omega

theorem Step.frame {h h' : Heap} {F G : List Nat} (s : Step h F h' G) (X : List Nat) :
    Step h (F ++ X) h' (G ++ X) := by
  refine ⟨s.len, fun a ha h1 => s.keep a ha (fun h2 => h1 (List.mem_append_left _ h2)), ?_⟩
  intro a
  have := s.grow a
  simp only [List.count_append]
  omega

theorem nodup_count {F : List Nat} (hF : F.Nodup) (a : Nat) : F.count a ≤ 1 :=
  List.nodup_iff_count.mp hF a

theorem Step.nodup {h h' : Heap} {F G : List Nat} (s : Step h F h' G) (hF : F.Nodup) (hl : ∀ a ∈ F, a < h.length) :
    G.Nodup := by
  refine List.nodup_iff_count.mpr fun a => ?_
  have h1 := s.grow a
  have h2 := nodup_count hF a
  split at h1
  · have : F.count a = 0 := by
      apply List.count_eq_zero.mpr
      intro hm
      have := hl a hm
      omega
    omega
  · omega

/-- disjoint parts of a list without repetition -/
theorem disj {F G X : List Nat} (hX : X.Nodup) (hs : Sub (F ++ G) X) {a : Nat} (ha : a ∈ F) : a ∉ G := by
  intro hb
  have h1 := hs a
  have h2 := nodup_count hX a
  have h3 := List.count_pos_iff.mpr ha
  have h4 := List.count_pos_iff.mpr hb
  simp only [List.count_append] at h1
  omega

theorem set_get_ne {h : Heap} {a b : Nat} (o : HV) (hab : a ≠ b) : (h.set a o)[b]? = h[b]? :=
  List.getElem?_set_ne hab

theorem set_get_eq {h : Heap} {a : Nat} (o : HV) (ha : a < h.length) : (h.set a o)[a]? = some o :=
  List.getElem?_set_self ha

/-- replacing the contents of one object -/
theorem step_set {h : Heap} {a : Nat} {o : HV} {F G : List Nat} (ha : a ∈ F) (hs : Sub G F) :
    Step h F (h.set a o) G := by
  refine ⟨by simp, ?_, ?_⟩
  · intro b _ hb
    exact set_get_ne o (fun e => hb (e ▸ ha))
  · intro b
    have := hs b
    omega

/-- a reference to a dictionary -/
theorem Rep.dict_ref {h : Heap} {x : HV} {d' : List (String × Val)} {F : List Nat} (hr : Rep h false x (.dict d') F) :
    ∃ a d F', x = .ref a ∧ h[a]? = some (.dict d) ∧ RepI h false d d' F' ∧ F = a :: F' := by
  cases hr with
  | refD e hd => exact ⟨_, _, _, rfl, e, hd, rfl⟩

theorem sim_store {h : Heap} {x : HV} {d' : List (String × Val)} {F : List Nat} (hr : Rep h false x (.dict d') F)
    (hF : F.Nodup) (k : String) {y : HV} {w : Val} (hy : ∀ h', Rep h' false y w []) :
    ∃ h' G, x.store k y h = .ok h' ∧ Rep h' false x (.dict (dSet k w d')) G ∧ Step h F h' G := by
  obtain ⟨a, d, F', rfl, e, hd, rfl⟩ := hr.dict_ref
  obtain ⟨F0, Fr, hc, -, hset, -⟩ := hd.focus k
  obtain ⟨hnot, hF'⟩ := List.nodup_cons.mp hF
  have hfr : Sub Fr F' := fun b => by have := hc b; omega
  obtain ⟨G, hG, hcG⟩ := hset (h.set a (.dict (hSet k y d))) y w []
    (fun b hb => set_get_ne _ (fun e => hnot (e ▸ hfr.mem hb))) (hy _)
  refine ⟨_, _, by simp only [HV.store, e], .refD (set_get_eq _ (lt_of_get e)) hG, step_set (List.mem_cons_self) ?_⟩
  intro b
  have := hcG b; have := hfr b
  simp only [List.count_cons, List.count_nil] at *
  omega

/-- into one item of a dictionary object and back, after changes in place -/
theorem sim_zoom {h : Heap} {x : HV} {d' : List (String × Val)} {F : List Nat} (hr : Rep h false x (.dict d') F)
    (k : String) {w : Val} (hw : dGet k d' = some w) :
    ∃ (y : HV) (F0 Fr : List Nat), x.item h k = .ok y ∧ Rep h false y w F0 ∧ (∀ a, F.count a = F0.count a + Fr.count a) ∧
      ∀ h' w2 G0, (∀ a ∈ Fr, h'[a]? = h[a]?) → Rep h' false y w2 G0 →
        ∃ G, Rep h' false x (.dict (dSet k w2 d')) G ∧ ∀ a, G.count a = G0.count a + Fr.count a := by
  obtain ⟨a, d, F', rfl, e, hd, rfl⟩ := hr.dict_ref
  obtain ⟨F0, Fr, hc, hg, hset, -⟩ := hd.focus k
  rcases hg with ⟨e1, _, _⟩ | ⟨v, y, e1, e2, hy⟩
  · rw [e1] at hw; exact absurd hw (by simp)
  · rw [e1] at hw
    cases hw
    refine ⟨y, F0, a :: Fr, by simp [HV.item, HV.obj, e, e2], hy, ?_, ?_⟩
    · intro b
      have := hc b
      simp only [List.count_cons] at *
      omega
    · intro h' w2 G0 hk hr2
      obtain ⟨G, hG, hcG⟩ := hset h' y w2 G0 (fun b hb => hk b (List.mem_cons_of_mem _ hb)) hr2
      rw [hSet_same e2] at hG
      refine ⟨_, .refD ((hk a List.mem_cons_self).trans e) hG, ?_⟩
      intro b
      have := hcG b
      simp only [List.count_cons] at *
      omega

/-- `config.setdefault("depends_on", []).append(...)` -/
theorem sim_depends {h : Heap} {x : HV} {d' : List (String × Val)} {F : List Nat} (hr : Rep h false x (.dict d') F)
    (hF : F.Nodup) (s : String) : ∃ y h1, x.setdefaultList "depends_on" h = .ok (y, h1) ∧
      match (dGet "depends_on" d').getD (.list []) with
      | .list deps => ∃ h' G, y.append (.elem s) h1 = .ok h' ∧
          Rep h' false x (.dict (dSet "depends_on" (.list (deps ++ [.elem s])) d')) G ∧ Step h F h' G
      | _ => y.append (.elem s) h1 = .error .attributeError := by
  obtain ⟨a, d, F', rfl, e, hd, rfl⟩ := hr.dict_ref
  obtain ⟨F0, Fr, hc, hg, hset, -⟩ := hd.focus "depends_on"
  obtain ⟨hnot, hF'⟩ := List.nodup_cons.mp hF
  have hfr : Sub Fr F' := fun b => by have := hc b; omega
  have hal := lt_of_get e
  rcases hg with ⟨e1, e2, rfl⟩ | ⟨v, y, e1, e2, hy⟩
  · have hst : (HV.ref a).setdefaultList "depends_on" h = .ok (.ref h.length,
        (h ++ [HV.list []]).set a (.dict (hSet "depends_on" (.ref h.length) d))) := by
      simp only [HV.setdefaultList, HV.obj, e, e2, Option.getD_some, HV.alloc, HV.allocL, HV.store,
        get_append hal, bind, Except.bind]
    refine ⟨_, _, hst, ?_⟩
    rw [e1]
    simp only [Option.getD_none]
    have hne : a ≠ h.length := by omega
    have hlast : ((h ++ [HV.list []]).set a (.dict (hSet "depends_on" (.ref h.length) d)))[h.length]? = some (.list []) := by
      rw [set_get_ne _ hne]
      exact List.getElem?_concat_length
    have happ : (HV.ref h.length).append (.elem s) ((h ++ [HV.list []]).set a (.dict (hSet "depends_on" (.ref h.length) d))) =
        .ok (((h ++ [HV.list []]).set a (.dict (hSet "depends_on" (.ref h.length) d))).set h.length (.list [.elem s])) := by
      simp only [HV.append, hlast, List.nil_append]
    obtain ⟨G, hG, hcG⟩ := hset (((h ++ [HV.list []]).set a (.dict (hSet "depends_on" (.ref h.length) d))).set h.length
        (.list [.elem s])) (.ref h.length) (.list [.elem s]) [h.length]
      (fun b hb => by
        have hb' := hfr.mem hb
        have hbl : b < h.length := hd.lt b hb'
        have hab : a ≠ b := fun e => hnot (e ▸ hb')
        rw [set_get_ne _ (by omega), set_get_ne _ hab, get_append hbl])
      (.refL (set_get_eq _ (by simp)) (.cons (.elem s) .nil))
    refine ⟨_, _, happ, .refD ?_ hG, ?_⟩
    · rw [set_get_ne _ (Ne.symm hne), set_get_eq _ (by simp; omega)]
    · refine ⟨by simp, ?_, ?_⟩
      · intro b hb hbF
        have hab : a ≠ b := fun e => hbF (e ▸ List.mem_cons_self)
        rw [set_get_ne _ (by omega), set_get_ne _ hab, get_append hb]
      · intro b
        have h1 := hcG b
        have h2 := hfr b
        simp only [List.count_cons, List.count_nil, List.length_set, List.length_append, List.length_singleton] at *
        by_cases hb : h.length = b
        · subst hb
          have : ¬ a = h.length := hne
          simp only [beq_self_eq_true, if_true] at h1
          have hi : (if h.length ≤ h.length ∧ h.length < h.length + 1 then 1 else 0) = 1 :=
            if_pos ⟨Nat.le_refl _, Nat.lt_succ_self _⟩
          omega
        · have : (h.length == b) = false := by simpa using hb
          simp only [this, Bool.false_eq_true, if_false] at h1
          omega
  · have hst : (HV.ref a).setdefaultList "depends_on" h = .ok (y, h) := by
      simp only [HV.setdefaultList, HV.obj, e, e2, Option.getD_some]
    refine ⟨_, _, hst, ?_⟩
    rw [e1]
    simp only [Option.getD_some]
    cases hy with
    | @refL _ b l l' Fl el hl =>
      have hbF : b ∈ F' := by
        have := hc b
        have h1 : (b :: Fl).count b ≥ 1 := by simp
        exact List.count_pos_iff.mp (by omega)
      have hba : a ≠ b := fun e => hnot (e ▸ hbF)
      refine ⟨h.set b (.list (l ++ [.elem s])), ?_⟩
      have hsub : Sub ((b :: Fl) ++ Fr) F' := by
        intro c; have := hc c; simp only [List.count_append] at *; omega
      have hnb : b ∉ Fl := by
        intro hm
        have h1 := nodup_count hF' b
        have h2 := hsub b
        have h3 := List.count_pos_iff.mpr hm
        simp only [List.count_append, List.count_cons, beq_self_eq_true, if_true] at h2
        omega
      obtain ⟨G, hG, hcG⟩ := hset (h.set b (.list (l ++ [.elem s]))) (.ref b) (.list (l' ++ [.elem s])) (b :: (Fl ++ ([] ++ [])))
        (fun c hc' => set_get_ne _ (fun e => disj hF' hsub List.mem_cons_self (e ▸ hc')))
        (.refL (set_get_eq _ (lt_of_get el))
          ((RepL.append (.cons (.elem s) .nil) hl).mono (fun c hc' => set_get_ne _ (fun e => hnb (by
            subst e; simpa using hc')))))
      rw [hSet_same e2] at hG
      refine ⟨_, by simp only [HV.append, el], .refD ((set_get_ne _ (Ne.symm hba)).trans e) hG, step_set (List.mem_cons_of_mem _ hbF) ?_⟩
      intro c
      have := hcG c; have := hc c
      simp only [List.count_append, List.count_cons, List.count_nil] at *
      omega
    | refD el hl => simp only [HV.append, el]
    | _ => rfl

/-- outcomes of `process_child_resource` for the configuration `c` -/
inductive OutP (h : Heap) (F : List Nat) (c : HV) :
    Except PyErr (List (String × Val) × List Val) → Except PyErr (List HV × Heap) → Prop
  | error (e : PyErr) : OutP h F c (.error e) (.error e)
  | ok {cfg more more' h' G1 G2} : Rep h' false c (.dict cfg) G1 → RepL h' false more' more G2 →
      Step h F h' (G1 ++ G2) → OutP h F c (.ok (cfg, more)) (.ok (more', h'))

theorem sub_of_count {F F0 Fr : List Nat} (hc : ∀ a, F.count a = F0.count a + Fr.count a) : Sub F (F0 ++ Fr) := by
  intro a; have := hc a; simp only [List.count_append]; omega
theorem sub_of_count' {F F0 Fr : List Nat} (hc : ∀ a, F.count a = F0.count a + Fr.count a) : Sub (F0 ++ Fr) F := by
  intro a; have := hc a; simp only [List.count_append]; omega

theorem sim_processChild (n : Nat) : ∀ {h : Heap} {pn : String} {xt xa c : HV} {vt va : Val} {cfg : List (String × Val)}
    {F : List Nat}, Rep h false c (.dict cfg) F → F.Nodup → (∀ h', Rep h' false xt vt []) → (∀ h', Rep h' false xa va []) →
    OutP h F c (processChild n (.str pn) vt va cfg) (hProcessChild n pn xt xa c h) := by
  induction n with
  | zero =>
    intro h pn xt xa c vt va cfg F hr hF ht ha
    refine OutP.ok hr .nil ?_
    rw [List.append_nil]
    exact .refl _ _
  | succ n ih =>
    intro h pn xt xa c vt va cfg F hr hF ht ha
    obtain ⟨a, d, F1, rfl, e, hd, rfl⟩ := hr.dict_ref
    obtain ⟨F0, Fr, hc, hg, -, her⟩ := hd.focus "__child_resource__"
    obtain ⟨hnot, hF1⟩ := List.nodup_cons.mp hF
    have hal := lt_of_get e
    simp only [processChild, hProcessChild, HV.obj, e, Option.getD_some]
    rcases hg with ⟨e1, e2, rfl⟩ | ⟨v, x, e1, e2, hx⟩
    · rw [e1, e2]
      refine OutP.ok hr .nil ?_
      rw [List.append_nil]
      exact .refl _ _
    rw [e1, e2]
    -- the child is popped
    have hpop : (HV.ref a).pop "__child_resource__" h = .ok (h.set a (.dict (hErase "__child_resource__" d))) := by
      simp only [HV.pop, e]
    have hsubF : Sub (F0 ++ Fr) F1 := sub_of_count' hc
    generalize hh1 : h.set a (.dict (hErase "__child_resource__" d)) = h1 at hpop
    have hk1 : ∀ b ∈ F1, h1[b]? = h[b]? := by
      intro b hb; subst hh1; exact set_get_ne _ (fun e => hnot (e ▸ hb))
    have hx1 : Rep h1 false x v F0 := hx.mono fun b hb => hk1 b (hsubF.mem (List.mem_append_left _ hb))
    have her1 : RepI h1 false (hErase "__child_resource__" d) (dErase "__child_resource__" cfg) Fr :=
      her.mono fun b hb => hk1 b (hsubF.mem (List.mem_append_right _ hb))
    have hc1 : h1[a]? = some (.dict (hErase "__child_resource__" d)) := by subst hh1; exact set_get_eq _ hal
    have S1 : Step h (a :: F1) h1 (F0 ++ (a :: Fr)) := by
      subst hh1
      refine step_set List.mem_cons_self ?_
      intro b; have := hc b; simp only [List.count_append, List.count_cons]; omega
    have hF0 : F0.Nodup := Sub.nodup (fun b => by have := hc b; omega) hF1
    simp only [hpop, bind, Except.bind, adoptChild]
    -- its name
    have o1 := hx1.item "__name__"
    cases i1 : v.item "__name__" with
    | error e => rw [i1] at o1; generalize x.item h1 "__name__" = s at o1; cases o1; exact .error _
    | ok vn =>
    rw [i1] at o1
    generalize hs1 : x.item h1 "__name__" = s at o1
    cases o1 with
    | @ok xn _ Gn rn sn =>
    simp only [rn.pyStr (sn.nodup hF0)]
    obtain ⟨cd, rfl⟩ : ∃ cd, v = .dict cd := by
      cases v with
      | dict cd => exact ⟨cd, rfl⟩
      | _ => cases i1
    generalize hnn : pn ++ "__" ++ vn.pyStr = nn
    have hnn' : (Val.str pn).pyStr ++ "__" ++ vn.pyStr = nn := hnn
    simp only [hnn', Val.setItem]
    obtain ⟨h2, Fc, st2, hx2, S2⟩ := sim_store hx1 hF0 "__name__" (y := .str nn) (w := .str nn) (fun _ => .str _)
    simp only [st2]
    have hFc : Fc.Nodup := S2.nodup hF0 hx1.lt
    -- its attributes
    have o2 := hx2.item "__attrs__"
    cases g2 : dGet "__attrs__" (dSet "__name__" (.str nn) cd) with
    | none =>
      have i2 : (Val.dict (dSet "__name__" (.str nn) cd)).item "__attrs__" = .error .keyError := by
        simp only [Val.item, g2]
      rw [i2] at o2; generalize x.item h2 "__attrs__" = s at o2; cases o2; simp only [i2]; exact .error _
    | some va2 =>
    have i2 : (Val.dict (dSet "__name__" (.str nn) cd)).item "__attrs__" = .ok va2 := by
      simp only [Val.item, g2]
    obtain ⟨xat, Fat, FrA, j2, hat, hcA, backA⟩ := sim_zoom hx2 "__attrs__" g2
    simp only [i2, j2]
    have hFat : Fat.Nodup := Sub.nodup (fun b => by have := hcA b; omega) hFc
    -- its type
    have o3 := hat.item "type"
    cases i3 : va2.item "type" with
    | error e => rw [i3] at o3; generalize xat.item h2 "type" = s at o3; cases o3; exact .error _
    | ok vty =>
    rw [i3] at o3
    generalize hs3 : xat.item h2 "type" = s at o3
    cases o3 with
    | @ok xty _ Gty rty sty =>
    simp only [rty.pyStr (sty.nodup hFat), (ht h2).pyStr List.nodup_nil]
    obtain ⟨ad, rfl⟩ : ∃ ad, va2 = .dict ad := by
      cases va2 with
      | dict ad => exact ⟨ad, rfl⟩
      | _ => cases i3
    generalize hnt : vt.pyStr ++ "/" ++ vty.pyStr = nt
    simp only []
    obtain ⟨h3, Fat3, st3, hat3, S3⟩ := sim_store hat hFat "type" (y := .str nt) (w := .str nt) (fun _ => .str _)
    have hFat3 : Fat3.Nodup := S3.nodup hFat hat.lt
    obtain ⟨h4, Fat4, st4, hat4, S4⟩ := sim_store hat3 hFat3 "api_version" ha
    have hFat4 : Fat4.Nodup := S4.nodup hFat3 hat3.lt
    simp only [st3, st4]
    -- its configuration
    generalize had2 : dSet "api_version" va (dSet "type" (.str nt) ad) = ad2 at hat4
    cases g4 : dGet "config" ad2 with
    | none =>
      have i4 : (Val.dict ad2).item "config" = .error .keyError := by simp only [Val.item, g4]
      have o4 := hat4.item "config"
      rw [i4] at o4; generalize xat.item h4 "config" = s at o4; cases o4; simp only [i4]; exact .error _
    | some vcf =>
    have i4 : (Val.dict ad2).item "config" = .ok vcf := by simp only [Val.item, g4]
    obtain ⟨xcf, Fcf, FrB, j4, hcf, hcB, backB⟩ := sim_zoom hat4 "config" g4
    simp only [i4, j4]
    have hFcf : Fcf.Nodup := Sub.nodup (fun b => by have := hcB b; omega) hFat4
    by_cases hv : ∃ cf, vcf = .dict cf
    · obtain ⟨cf, rfl⟩ := hv
      simp only []
      obtain ⟨y, h4', sd, hdep⟩ := sim_depends hcf hFcf pn
      simp only [sd]
      have hpn : (Val.str pn).pyStr = pn := rfl
      simp only [hpn]
      generalize hdv : (dGet "depends_on" cf).getD (.list []) = dv at hdep
      cases dv with
      | list deps =>
        simp only [] at hdep ⊢
        obtain ⟨h5, Fcf2, ap, hcf2, S5⟩ := hdep
        have hFcf2 : Fcf2.Nodup := S5.nodup hFcf hcf.lt
        obtain ⟨cx, rfl⟩ : ∃ cx, x = .ref cx := by
          obtain ⟨cx, _, _, e, _⟩ := hx1.dict_ref
          exact ⟨cx, e⟩
        have ity : (Val.dict ad2).item "type" = .ok (.str nt) := by
          rw [← had2]
          simp only [Val.item, dGet_dSet_ne (k := "api_version") (k' := "type") (by decide), dGet_dSet_self]
        simp only [ap, HV.alloc, HV.allocI, ity]
        have R := ih (hcf2.ext ⟨[.dict [("resources", .ref cx)]], rfl⟩) hFcf2 (fun _ => .str nt) ha (pn := nn)
        generalize processChild n _ _ _ _ = r, hProcessChild n _ _ _ _ _ = t at R
        cases R with
        | error e => exact .error _
        | @ok cfg' more more' h7 G1 G2 hcfg hmore S7 =>
        have S6 : Step h5 Fcf2 (h5 ++ [.dict [("resources", .ref cx)]]) (Fcf2 ++ [h5.length]) := by
          refine ⟨by simp, fun b hb _ => get_append hb _, ?_⟩
          have := Grow.push (.dict [("resources", .ref cx)]) (Nat.le_refl _) (Grow.same h5 Fcf2)
          intro b
          have := this b
          simp only [List.count_append, List.count_cons, List.count_nil] at *
          omega
        have SB : Step h4 Fcf h7 ((G1 ++ G2) ++ [h5.length]) := S5.trans (S6.trans (S7.frame _))
        have hsB := sub_of_count' hcB
        obtain ⟨GB, hGB, hcGB⟩ := backB h7 _ _ (fun b hb => SB.keep b
          (hat4.lt b (hsB.mem (List.mem_append_right _ hb)))
          (fun hm => disj hFat4 hsB hm hb)) hcfg
        have SA : Step h2 Fat h7 ((GB ++ G2) ++ [h5.length]) := by
          refine (S3.trans S4).trans ((SB.frame FrB).weaken hsB ?_)
          intro b
          have := hcGB b
          simp only [List.count_append] at *
          omega
        have hsA := sub_of_count' hcA
        obtain ⟨GA, hGA, hcGA⟩ := backA h7 _ _ (fun b hb => SA.keep b
          (hx2.lt b (hsA.mem (List.mem_append_right _ hb)))
          (fun hm => disj hFc hsA hm hb)) hGB
        have SX : Step h1 F0 h7 ((GA ++ G2) ++ [h5.length]) := by
          refine S2.trans ((SA.frame FrA).weaken hsA ?_)
          intro b
          have := hcGA b
          simp only [List.count_append] at *
          omega
        have SH := S1.trans (SX.frame (a :: Fr))
        have hentry : h7[h5.length]? = some (.dict [("resources", .ref cx)]) := by
          rw [S7.keep h5.length (by simp) (fun hm => Nat.lt_irrefl _ (hcf2.lt _ hm))]
          exact List.getElem?_concat_length
        have hFr : ∀ b ∈ Fr, b ∉ F0 := fun b hb hm => disj hF1 hsubF hm hb
        have haF0 : a ∉ F0 := fun hm => hnot (hsubF.mem (List.mem_append_left _ hm))
        have hconf : Rep h7 false (.ref a) (.dict (dErase "__child_resource__" cfg)) (a :: Fr) := by
          refine .refD ((SX.keep a (lt_of_get hc1) haF0).trans hc1) (her1.mono fun b hb => ?_)
          exact SX.keep b (her1.lt b hb) (hFr b hb)
        refine OutP.ok hconf (.cons (.refD hentry (.cons hGA .nil)) hmore) (SH.weaken (.refl _) ?_)
        intro b
        simp only [List.count_append, List.count_cons, List.count_nil]
        omega
      | _ => simp only [] at hdep ⊢; rw [hdep]; exact .error _
    · have hno := hcf.obj_not_dict (fun d e => hv ⟨d, e⟩)
      have sd : xcf.setdefaultList "depends_on" h4 = .error .attributeError := by
        unfold HV.setdefaultList
        split
        · rename_i d e; exact absurd e (hno d)
        · rfl
      rw [sd]
      cases vcf with
      | dict cf => exact absurd ⟨cf, rfl⟩ hv
      | _ => exact .error _

end Pycep.Mem
