import Verif.Heap.SimResource
/-
The transformer on values with identity follows the transformer on plain values.
-/
namespace Pycep.Mem

/-- the collected imports and child resources -/
structure RepS (h : Heap) (st' : HState) (st : TState) (F : List Nat) : Prop where
  split : ∃ F1 F2, RepL h false st'.imports st.imports F1 ∧ RepL h false st'.children st.children F2 ∧
    ∀ a, F.count a = F1.count a + F2.count a

theorem RepS.mono {h h' : Heap} {st' : HState} {st : TState} {F : List Nat} (hs : RepS h st' st F)
    (e : ∀ a ∈ F, h'[a]? = h[a]?) : RepS h' st' st F := by
  obtain ⟨F1, F2, h1, h2, hc⟩ := hs.split
  have hsub := sub_of_count' hc
  exact ⟨F1, F2, h1.mono fun a ha => e a (hsub.mem (List.mem_append_left _ ha)),
    h2.mono fun a ha => e a (hsub.mem (List.mem_append_right _ ha)), hc⟩

theorem RepS.lt {h : Heap} {st' : HState} {st : TState} {F : List Nat} (hs : RepS h st' st F) :
    ∀ a ∈ F, a < h.length := by
  obtain ⟨F1, F2, h1, h2, hc⟩ := hs.split
  intro a ha
  rcases List.mem_append.mp ((sub_of_count hc).mem ha) with hm | hm
  · exact h1.lt a hm
  · exact h2.lt a hm

/-- outcomes of a method -/
inductive OutC (h : Heap) (F : List Nat) :
    Except PyErr (Val × TState) → Except PyErr (HV × HState × Heap) → Prop
  | error (e : PyErr) : OutC h F (.error e) (.error e)
  | ok {x v st st' h' G1 G2} : Rep h' false x v G1 → RepS h' st' st G2 → Step h F h' (G1 ++ G2) →
      OutC h F (.ok (v, st)) (.ok (x, st', h'))

/-- `g` follows `f` on arguments with `P` -/
def SimC (P : List Val → Prop) (f : Callback) (g : HCallback) : Prop :=
  ∀ (ln : Bool) (sp : Option Span) (h : Heap) (xs : List HV) (vs : List Val) (F1 F2 : List Nat) (st' : HState) (st : TState),
    P vs → RepL h false xs vs F1 → RepS h st' st F2 → (F1 ++ F2).Nodup →
    OutC h (F1 ++ F2) (f ln sp vs st) (g ln sp xs st' h)

/-- a method returns a display -/
theorem out_return {h : Heap} {F1 F2 : List Nat} {st' : HState} {st : TState} (hst : RepS h st' st F2)
    {r : Except PyErr Val} {s : Except PyErr HV} (ho : Out h F1 r s) :
    OutC h (F1 ++ F2) (r.map (·, st)) (s.map (hReturn h st')) := by
  cases ho with
  | error e => exact .error _
  | @ok x v G hr hs =>
    obtain ⟨K, hK, he, hg⟩ := hr.alloc
    refine OutC.ok hK (hst.mono fun a ha => he.get (hst.lt a ha)) ⟨he.le, fun a ha _ => he.get ha, ?_⟩
    intro a
    have := hg a; have := hs a
    simp only [List.count_append]
    omega

/-- the method runs after another step -/
theorem OutC.after {h h1 : Heap} {F X Y : List Nat} {r : Except PyErr (Val × TState)}
    {s : Except PyErr (HV × HState × Heap)} (st : Step h F h1 X) (hs : Sub Y X) (ho : OutC h1 Y r s) : OutC h F r s := by
  cases ho with
  | error e => exact .error _
  | ok h1 h2 h3 => exact .ok h1 h2 (st.trans (h3.weaken hs (.refl _)))

theorem sim_plain {f : List Val → Except PyErr Val} {g : Heap → List HV → Except PyErr HV} (hfg : SimP f g)
    (P : List Val → Prop) : SimC P (plain f) (hPlain g) := by
  intro ln sp h xs vs F1 F2 st' st _ hr hst hn
  exact out_return hst (hfg h xs vs F1 hr (List.nodup_append.mp hn).1)

theorem sim_withMeta {f : Bool → Option Span → List Val → Except PyErr Val}
    {g : Heap → Bool → Option Span → List HV → Except PyErr HV} (hfg : SimM f g)
    (P : List Val → Prop) : SimC P (withMeta f) (hWithMeta g) := by
  intro ln sp h xs vs F1 F2 st' st _ hr hst hn
  exact out_return hst (hfg ln sp h xs vs F1 hr (List.nodup_append.mp hn).1)

theorem rep_startInit (h : Heap) (ln : Bool) : RepI h true (hStartInit ln) (startInit ln) [] := by
  cases ln
  · exact .cons (.dict (.cons (.dict (.cons (.str _) .nil)) .nil)) .nil
  · exact .cons (.dict (.cons (.dict (.cons (.str _) (.cons (.int _) (.cons (.int _) .nil)))) .nil)) .nil

theorem sections_startInit (ln : Bool) : Sections (hStartInit ln) := by
  intro k x e
  simp only [hStartInit, hGet] at e
  split at e
  · cases e; exact ⟨_, rfl⟩
  · cases e

theorem sim_start (ln : Bool) {h : Heap} {xs : List HV} {vs : List Val} {F1 F2 : List Nat} {st' : HState} {st : TState}
    (hr : RepL h false xs vs F1) (hst : RepS h st' st F2) (hn : (F1 ++ F2).Nodup) :
    Out h (F1 ++ F2) (cb_start ln vs st) (hcb_start h ln xs st') := by
  obtain ⟨K1, K2, h1, h2, hc⟩ := hst.split
  have hall := RepL.append h2 (RepL.append h1 hr)
  have hs : Sub ((F1 ++ K1) ++ K2) (F1 ++ F2) := by
    intro a; have := hc a; simp only [List.count_append]; omega
  have := sim_startLoop hall (hs.nodup hn) (rep_startInit h ln) (sections_startInit ln)
  unfold cb_start hcb_start
  generalize startLoop _ _ = r, hStartLoop _ _ _ = s at this
  cases this with
  | error e => exact .error _
  | @ok x v G hx hs' hsec => exact .ok (.dict hx) (Sub.trans hs' hs)

/-! ### imports -/

theorem sim_importEntry {h : Heap} (ln : Bool) (sp : Option Span) {x y : HV} {v w : Val} {F G : List Nat}
    (hf : Rep h false x v F) (hp : Rep h false y w G) (hG : G.Nodup) :
    Out h [] (importEntry ln sp v w) (hImportEntry h ln sp x y) := by
  unfold importEntry hImportEntry
  have o1 := hp.item "name"
  generalize w.item "name" = r1, y.item h "name" = s1 at o1
  cases o1 with
  | error e => exact .error _
  | @ok xn vn Gn rn sn =>
  have o2 := sim_transformStringToken hf
  generalize transformStringToken v = r2, hTransformStringToken x = s2 at o2
  cases o2 with
  | error e => exact .error _
  | @ok xf vf Gf rf sf =>
  have o3 := hp.get "alias"
  generalize w.get "alias" = r3, y.get h "alias" = s3 at o3
  cases o3 with
  | error e => exact .error _
  | @ok xa va Ga ra sa =>
  simp only [bind, Except.bind, rn.pyStr (sn.nodup hG), ra.pyStr (sa.nodup hG), ra.truthy (sa.nodup hG)]
  cases va.truthy
  · exact out_lines ln sp _ _ (.cons rf .nil) (Sub.trans (by sub_tac) sf)
  · exact out_lines ln sp _ _ (.cons rf (.cons (.str _) .nil)) (Sub.trans (by sub_tac) sf)

theorem sim_mapE {h : Heap} (ln : Bool) (sp : Option Span) {x : HV} {v : Val} {F F' : List Nat} (hf : Rep h false x v F)
    (hn : F'.Nodup) : {l : List HV} → {l' : List Val} → {G : List Nat} → RepL h false l l' G → Sub G F' →
    OutL h [] (mapE (importEntry ln sp v) l') (hMapE (hImportEntry h ln sp x) l)
  | _, _, _, .nil, _ => .ok .nil (.refl _)
  | _, _, _, .cons h1 h2, hs => by
    have o1 := sim_importEntry ln sp hf h1 (Sub.nodup (Sub.trans (by sub_tac) hs) hn)
    have o2 := sim_mapE ln sp hf hn h2 (Sub.trans (by sub_tac) hs)
    simp only [mapE, hMapE]
    generalize importEntry ln sp v _ = r1, hImportEntry h ln sp x _ = s1 at o1
    generalize mapE _ _ = r2, hMapE _ _ = s2 at o2
    cases o1 with
    | error e => exact .error _
    | ok ra sa =>
      cases o2 with
      | error e => exact .error _
      | ok rb sb =>
        refine OutL.ok (.cons ra rb) ?_
        intro a; have := sa a; have := sb a
        simp only [List.count_append, List.count_nil] at *; omega

theorem out_import {h : Heap} {F1 F2 : List Nat} {st' : HState} {st : TState} (hst : RepS h st' st F2)
    {es : List HV} {es' : List Val} {G : List Nat} (hr : RepL h true es es' G) (hG : Sub G []) :
    OutC h (F1 ++ F2) (.ok (.none, { st with imports := st.imports ++ es' }))
      (.ok (.none, { st' with imports := st'.imports ++ (HV.allocL es h).1 }, (HV.allocL es h).2)) := by
  obtain ⟨K, hK, he, hg⟩ := hr.alloc
  have hst2 := hst.mono fun a ha => he.get (hst.lt a ha)
  obtain ⟨K1, K2, h1, h2, hc⟩ := hst2.split
  refine OutC.ok (G2 := (K1 ++ K) ++ K2) .none ⟨K1 ++ K, K2, RepL.append hK h1, h2, fun a => List.count_append⟩ ⟨he.le, fun a ha _ => he.get ha, ?_⟩
  intro a
  have := hg a; have := hG a; have := hc a
  simp only [List.count_append, List.count_nil] at *
  omega

theorem sim_custom_import (P : List Val → Prop) : SimC P cb_custom_import hcb_custom_import := by
  intro ln sp h xs vs F1 F2 st' st _ hr hst hn
  unfold cb_custom_import hcb_custom_import
  have gen : OutC h (F1 ++ F2)
      (match vs.reverse with
        | [] => unpackErr
        | filePath :: pairs => do
          let es ← mapE (importEntry ln sp filePath) pairs.reverse
          .ok (.none, { st with imports := st.imports ++ es }))
      (match xs.reverse with
        | [] => unpackErr
        | filePath :: pairs => do
          let es ← hMapE (hImportEntry h ln sp filePath) pairs.reverse
          let (es, h) := HV.allocL es h
          .ok (.none, { st' with imports := st'.imports ++ es }, h)) := by
    obtain ⟨G, hG, hs⟩ := hr.reverse
    have hGn : G.Nodup := hs.nodup (List.nodup_append.mp hn).1
    revert hG
    generalize List.reverse (α := HV) xs = l1
    generalize List.reverse (α := Val) vs = l2
    intro hG
    rcases hG with _ | ⟨g1, hG⟩
    · exact .error _
    · obtain ⟨G', hG', hs'⟩ := hG.reverse
      have := sim_mapE ln sp g1 (Sub.nodup hs' (nd hGn)) hG' (.refl _)
      simp only []
      generalize mapE _ _ = r, hMapE _ _ = s at this
      cases this with
      | error e => exact .error _
      | ok ra sa => exact out_import hst ra sa
  rcases hr with _ | ⟨h1, _ | ⟨h2, hr⟩⟩
  · exact gen
  · have o2 := sim_transformStringToken h1
    simp only []
    generalize transformStringToken _ = r2, hTransformStringToken _ = s2 at o2
    cases o2 with
    | error e => exact .error _
    | ok ra sa =>
      exact out_import hst (.cons (.dict (.cons (k := "imports") (.dict (.cons (k := "__name__") ra
        (.cons (k := "__attrs__") (.dict .nil) .nil))) .nil)) .nil) (Sub.trans (by sub_tac) sa)
  · exact gen

/-! ### resources -/

/-- the third argument is a pair of strings -/
def TypePair (vs : List Val) : Prop :=
  ∀ a b c rest, vs = a :: b :: c :: rest → ∃ t v, c = .dict [("type", .str t), ("api_version", .str v)]

theorem item_str {h : Heap} {b : Bool} {x : HV} {v : Val} {F : List Nat} (hr : Rep h b x v F) {k s : String}
    (hi : v.item k = .ok (.str s)) : x.item h k = .ok (.str s) := by
  have := hr.item k
  rw [hi] at this
  generalize x.item h k = r at this
  cases this with
  | ok hr _ => cases hr; rfl

theorem resource_tail (ln : Bool) (sp : Option Span) {h : Heap} {x1 x2 x3 x4 x5 : HV} {v1 v2 v4 : Val} {t v : String}
    {d' : List (String × Val)} {F1 F2 F3 F4 F5 FS : List Nat} {st' : HState} {st : TState}
    (h1 : Rep h false x1 v1 F1) (_ : Rep h false x2 v2 F2)
    (h3 : Rep h false x3 (.dict [("type", .str t), ("api_version", .str v)]) F3)
    (h4 : Rep h false x4 v4 F4) (h5 : Rep h false x5 (.dict d') F5) (hst : RepS h st' st FS)
    (hn : (F1 ++ (F2 ++ (F3 ++ (F4 ++ (F5 ++ [])))) ++ FS).Nodup) {xt xa : HV} {vt va : Val} (ht : ∀ h', Rep h' false xt vt [])
    (ha : ∀ h', Rep h' false xa va []) :
    OutC h (F1 ++ (F2 ++ (F3 ++ (F4 ++ (F5 ++ [])))) ++ FS)
      (do
        let (cfg', more) ← processChild ((Val.dict d').depth + 1) (.str v2.pyStr) vt va d'
        let t' ← Val.item (.dict [("type", .str t), ("api_version", .str v)]) "type"
        let v' ← Val.item (.dict [("type", .str t), ("api_version", .str v)]) "api_version"
        let attrs ← addLines ln sp
          [("decorators", orEmptyList v1), ("type", t'), ("api_version", v'),
           ("existing", .bool v4.truthy), ("config", .dict cfg')]
        .ok (elementOf "resources" v2.pyStr attrs, { st with children := st.children ++ more }))
      (do
        let (more, h) ← hProcessChild ((Val.dict d').depth + 1) v2.pyStr xt xa x5 h
        let t ← x3.item h "type"
        let v ← x3.item h "api_version"
        let attrs ← hAddLines ln sp
          [("decorators", hOrEmptyList h x1), ("type", t), ("api_version", v),
           ("existing", .bool (x4.truthy h)), ("config", x5)]
        let (r, h) := (hElementOf "resources" v2.pyStr attrs).alloc h
        .ok (r, { st' with children := st'.children ++ more }, h)) := by
  have it : Val.item (.dict [("type", .str t), ("api_version", .str v)]) "type" = .ok (.str t) := rfl
  have iv : Val.item (.dict [("type", .str t), ("api_version", .str v)]) "api_version" = .ok (.str v) := rfl
  have op := sim_processChild ((Val.dict d').depth + 1) (pn := v2.pyStr) h5 (nd hn) ht ha
  generalize processChild _ _ _ _ _ = r, hProcessChild _ _ _ _ _ _ = s at op
  cases op with
  | error e => exact .error _
  | @ok cfg more more' h' G1 G2 rc rm st5 =>
    have keep : ∀ {K : List Nat}, (K ++ F5).Nodup → (∀ b ∈ K, b < h.length) → ∀ b ∈ K, h'[b]? = h[b]? :=
      fun hK hl b hb => st5.keep b (hl b hb) (disj hK (.refl _) hb)
    have h1' := h1.mono (keep (nd hn) h1.lt)
    have h3' := h3.mono (keep (nd hn) h3.lt)
    have h4' := h4.mono (keep (nd hn) h4.lt)
    have hst' := hst.mono (keep (nd hn) hst.lt)
    obtain ⟨G, hG, hs⟩ := rep_orEmptyList h1' (nd hn)
    obtain ⟨K1, K2, k1, k2, hc⟩ := hst'.split
    have hst2 : RepS h' { st' with children := st'.children ++ more' } { st with children := st.children ++ more }
        (K1 ++ (K2 ++ G2)) := ⟨K1, K2 ++ G2, k1, RepL.append rm k2, fun a => List.count_append⟩
    have o := out_return hst2 (out_lines ln sp "resources" v2.pyStr
      (.cons (k := "decorators") hG (.cons (k := "type") (.str t) (.cons (k := "api_version") (.str v)
        (.cons (k := "existing") (.bool v4.truthy) (.cons (k := "config") rc.weaken .nil))))) (.refl _))
    have o := OutC.after (st5.frame (F1 ++ (F2 ++ (F3 ++ F4)) ++ FS)) (by
      intro a; have := hs a; have := hc a
      simp only [List.count_append, List.count_nil]; omega) o
    have hst6 := st5.frame (F1 ++ (F2 ++ (F3 ++ F4)) ++ FS)
    simp only [bind, Except.bind, it, iv, item_str h3' it, item_str h3' iv, h4'.truthy (nd hn)] at o ⊢
    have o : OutC h (F1 ++ (F2 ++ (F3 ++ (F4 ++ (F5 ++ [])))) ++ FS) _ _ :=
      OutC.after ((Step.refl h _).weaken (.refl _) (by intro a; simp only [List.count_append, List.count_nil]; omega)) (.refl _) o
    generalize addLines _ _ _ = r, hAddLines _ _ _ = s at o ⊢
    cases r <;> cases s <;> exact o

theorem sim_resource : SimC TypePair cb_resource hcb_resource := by
  intro ln sp h xs vs F1 F2 st' st hP hr hst hn
  rcases hr with _ | ⟨h1, _ | ⟨h2, _ | ⟨h3, _ | ⟨h4, _ | ⟨h5, _ | ⟨h6, hr⟩⟩⟩⟩⟩⟩
  · exact .error _
  · exact .error _
  · exact .error _
  · exact .error _
  · exact .error _
  · rename_i x1 v1 F1 x2 v2 F2' x3 v3 F3 x4 v4 F4 x5 v5 F5
    obtain ⟨t, v, rfl⟩ := hP _ _ _ _ rfl
    have it : Val.item (.dict [("type", .str t), ("api_version", .str v)]) "type" = .ok (.str t) := rfl
    have iv : Val.item (.dict [("type", .str t), ("api_version", .str v)]) "api_version" = .ok (.str v) := rfl
    simp only [cb_resource, hcb_resource, h2.pyStr (nd hn), it, iv, item_str h3 it, item_str h3 iv]
    by_cases hv : ∃ d, v5 = .dict d
    · obtain ⟨d', rfl⟩ := hv
      obtain ⟨a, d, F', rfl, e, hd, rfl⟩ := h5.dict_ref
      have hread : HV.read h (.ref a) = .dict d' := h5.read_eq (nd hn)
      simp only [HV.obj, e, Option.getD_some, hread]
      have tail := @fun xt xa vt va => resource_tail ln sp h1 h2 h3 h4 h5 hst hn (xt := xt) (xa := xa) (vt := vt) (va := va)
      rcases RepI.get (k := "__child_resource__") hd with ⟨e1, e2⟩ | ⟨w, y, K, e1, e2, -⟩ <;> simp only [e1, e2]
      · exact tail _ _ _ _ (fun _ => .none) (fun _ => .none)
      · exact tail _ _ _ _ (fun _ => .str _) (fun _ => .str _)
    · have hno := h5.obj_not_dict (fun d e => hv ⟨d, e⟩)
      generalize x5.obj h = o at hno
      cases o with
      | dict d => exact absurd rfl (hno d)
      | _ =>
        cases v5 with
        | dict d => exact absurd ⟨d, rfl⟩ hv
        | _ => exact .error _
  · exact .error _

end Pycep.Mem
