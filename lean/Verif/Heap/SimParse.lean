import Verif.Heap.SimTransform
import Verif.Heap.TreeShape
/-
The whole transformation on values with identity follows the transformation on plain values.
-/
namespace Pycep.Mem

/-! ### the table of methods -/

theorem lookup_simK {α β : Type} {R : String → α → β → Prop} {l : List (String × α)} {l' : List (String × β)}
    (hl : List.Forall₂ (fun p q => p.1 = q.1 ∧ R p.1 p.2 q.2) l l') (k : String) :
    (l.lookup k = none ∧ l'.lookup k = none) ∨ ∃ x y, l.lookup k = some x ∧ l'.lookup k = some y ∧ R k x y := by
  induction hl with
  | nil => exact .inl ⟨rfl, rfl⟩
  | @cons p q l l' h1 h2 ih =>
    obtain ⟨k1, x⟩ := p
    obtain ⟨k2, y⟩ := q
    obtain ⟨rfl, hxy⟩ := h1
    simp only [List.lookup]
    split
    · rename_i hk
      simp only [beq_iff_eq] at hk
      subst hk
      exact .inr ⟨x, y, rfl, rfl, hxy⟩
    · exact ih

/-- what a method may rely on -/
def Need (k : String) (vs : List Val) : Prop := k = "resource" → TypePair vs

def Row (k : String) (f : Callback) (g : HCallback) : Prop := k ≠ "start" → SimC (Need k) f g

theorem SimC.of {P Q : List Val → Prop} {f : Callback} {g : HCallback} (h : SimC P f g) (hpq : ∀ vs, Q vs → P vs) :
    SimC Q f g := fun ln sp h0 xs vs F1 F2 st' st hQ => h ln sp h0 xs vs F1 F2 st' st (hpq _ hQ)

theorem sim_callbacks : List.Forall₂ (fun p q => p.1 = q.1 ∧ Row p.1 p.2 q.2) callbacks hcallbacks := by
  unfold callbacks hcallbacks
  refine List.Forall₂.cons ⟨rfl, fun h => absurd rfl h⟩ ?_
  refine List.Forall₂.cons ⟨rfl, fun _ => sim_withMeta sim_scope _⟩ ?_
  refine List.Forall₂.cons ⟨rfl, fun _ => sim_custom_import _⟩ ?_
  refine List.Forall₂.cons ⟨rfl, fun _ => sim_withMeta sim_extension _⟩ ?_
  refine List.Forall₂.cons ⟨rfl, fun _ => sim_withMeta sim_metadata _⟩ ?_
  refine List.Forall₂.cons ⟨rfl, fun _ => sim_withMeta sim_param _⟩ ?_
  refine List.Forall₂.cons ⟨rfl, fun _ => sim_withMeta sim_var _⟩ ?_
  refine List.Forall₂.cons ⟨rfl, fun _ => sim_withMeta sim_output _⟩ ?_
  refine List.Forall₂.cons ⟨rfl, fun _ => sim_resource.of fun _ h => h rfl⟩ ?_
  refine List.Forall₂.cons ⟨rfl, fun _ => sim_withMeta sim_child_resource _⟩ ?_
  refine List.Forall₂.cons ⟨rfl, fun _ => sim_withMeta sim_module _⟩ ?_
  refine List.Forall₂.cons ⟨rfl, fun _ => sim_withMeta sim_custom_type _⟩ ?_
  refine List.Forall₂.cons ⟨rfl, fun _ => sim_withMeta sim_custom_func _⟩ ?_
  refine List.Forall₂.cons ⟨rfl, fun _ => sim_plain sim_array_suffix _⟩ ?_
  refine List.Forall₂.cons ⟨rfl, fun _ => sim_plain sim_base_type _⟩ ?_
  refine List.Forall₂.cons ⟨rfl, fun _ => sim_plain sim_union_type _⟩ ?_
  refine List.Forall₂.cons ⟨rfl, fun _ => sim_plain sim_data_type _⟩ ?_
  refine List.Forall₂.cons ⟨rfl, fun _ => sim_plain sim_type_api_pair _⟩ ?_
  refine List.Forall₂.cons ⟨rfl, fun _ => sim_plain sim_module_path _⟩ ?_
  refine List.Forall₂.cons ⟨rfl, fun _ => sim_plain sim_import_alias _⟩ ?_
  refine List.Forall₂.cons ⟨rfl, fun _ => sim_plain sim_type_value _⟩ ?_
  refine List.Forall₂.cons ⟨rfl, fun _ => sim_plain sim_loop _⟩ ?_
  refine List.Forall₂.cons ⟨rfl, fun _ => sim_plain sim_loop_array _⟩ ?_
  refine List.Forall₂.cons ⟨rfl, fun _ => sim_plain sim_loop_array_index _⟩ ?_
  refine List.Forall₂.cons ⟨rfl, fun _ => sim_plain sim_loop_object _⟩ ?_
  refine List.Forall₂.cons ⟨rfl, fun _ => sim_plain sim_deploy_condition _⟩ ?_
  refine List.Forall₂.cons ⟨rfl, fun _ => sim_plain sim_decorator _⟩ ?_
  refine List.Forall₂.cons ⟨rfl, fun _ => sim_plain sim_decorators _⟩ ?_
  refine List.Forall₂.cons ⟨rfl, fun _ => sim_plain sim_function _⟩ ?_
  refine List.Forall₂.cons ⟨rfl, fun _ => sim_plain sim_operator _⟩ ?_
  repeat refine List.Forall₂.cons ⟨rfl, fun _ => sim_plain (sim_binary _) _⟩ ?_
  repeat refine List.Forall₂.cons ⟨rfl, fun _ => sim_plain (sim_variadic _) _⟩ ?_
  refine List.Forall₂.cons ⟨rfl, fun _ => sim_plain sim_not_op _⟩ ?_
  refine List.Forall₂.cons ⟨rfl, fun _ => sim_plain (sim_variadic _) _⟩ ?_
  refine List.Forall₂.cons ⟨rfl, fun _ => sim_plain sim_conditional _⟩ ?_
  refine List.Forall₂.cons ⟨rfl, fun _ => sim_plain (sim_binary _) _⟩ ?_
  refine List.Forall₂.cons ⟨rfl, fun _ => sim_plain (sim_binary _) _⟩ ?_
  refine List.Forall₂.cons ⟨rfl, fun _ => sim_plain sim_minus _⟩ ?_
  repeat refine List.Forall₂.cons ⟨rfl, fun _ => sim_plain (sim_binary _) _⟩ ?_
  refine List.Forall₂.cons ⟨rfl, fun _ => sim_plain sim_function_accessor _⟩ ?_
  repeat refine List.Forall₂.cons ⟨rfl, fun _ => sim_plain (sim_binary _) _⟩ ?_
  refine List.Forall₂.cons ⟨rfl, fun _ => sim_plain sim_array _⟩ ?_
  refine List.Forall₂.cons ⟨rfl, fun _ => sim_plain sim_object _⟩ ?_
  refine List.Forall₂.cons ⟨rfl, fun _ => sim_plain sim_pair _⟩ ?_
  refine List.Forall₂.cons ⟨rfl, fun _ => sim_plain sim_key _⟩ ?_
  refine List.Forall₂.cons ⟨rfl, fun _ => sim_plain sim_int_type _⟩ ?_
  refine List.Forall₂.cons ⟨rfl, fun _ => sim_plain sim_string _⟩ ?_
  refine List.Forall₂.cons ⟨rfl, fun _ => sim_plain sim_multi_line_string _⟩ ?_
  refine List.Forall₂.cons ⟨rfl, fun _ => sim_plain sim_true _⟩ ?_
  refine List.Forall₂.cons ⟨rfl, fun _ => sim_plain sim_false _⟩ ?_
  refine List.Forall₂.cons ⟨rfl, fun _ => sim_plain sim_null _⟩ ?_
  refine List.Forall₂.cons ⟨rfl, fun _ => sim_plain sim_lambda_expression _⟩ .nil

/-! ### transforming a tree -/

/-- outcomes of transforming a tree -/
inductive OutT (h : Heap) (F : List Nat) :
    Except VErr (Val × TState) → Except VErr (HV × HState × Heap) → Prop
  | error (e : VErr) : OutT h F (.error e) (.error e)
  | ok {x v st st' h' G1 G2} : Rep h' false x v G1 → RepS h' st' st G2 → Step h F h' (G1 ++ G2) →
      OutT h F (.ok (v, st)) (.ok (x, st', h'))

/-- outcomes of transforming trees -/
inductive OutTL (h : Heap) (F : List Nat) :
    Except VErr (List Val × TState) → Except VErr (List HV × HState × Heap) → Prop
  | error (e : VErr) : OutTL h F (.error e) (.error e)
  | ok {x v st st' h' G1 G2} : RepL h' false x v G1 → RepS h' st' st G2 → Step h F h' (G1 ++ G2) →
      OutTL h F (.ok (v, st)) (.ok (x, st', h'))

theorem pair_value {ln : Bool} {c : List Tree} {sp : Option Span} {st st1 : TState} {v : Val}
    (h : transform ln (.node "type_api_pair" c sp) st = .ok (v, st1)) :
    ∃ t a, v = .dict [("type", .str t), ("api_version", .str a)] := by
  have e : callbacks.lookup "type_api_pair" = some (plain cb_type_api_pair) := rfl
  simp only [transform, bind, Except.bind, e] at h
  split at h
  · cases h
  · rename_i r _
    split at h
    · rename_i r' hr
      cases h
      simp only [plain, Except.map] at hr
      split at hr
      · cases hr
      · rename_i w hw
        cases hr
        unfold cb_type_api_pair at hw
        simp only [bind, Except.bind] at hw
        split at hw
        · cases hw
        · split at hw
          · cases hw; exact ⟨_, _, rfl⟩
          · cases hw
    · cases h

theorem cons_ok {ln : Bool} {t : Tree} {ts : List Tree} {st st2 : TState} {vs : List Val}
    (h : transformList ln (t :: ts) st = .ok (vs, st2)) :
    ∃ v vs' st1, transform ln t st = .ok (v, st1) ∧ transformList ln ts st1 = .ok (vs', st2) ∧ vs = v :: vs' := by
  simp only [transformList, bind, Except.bind] at h
  split at h
  · cases h
  · rename_i r hr
    split at h
    · cases h
    · rename_i r' hr'
      cases h
      exact ⟨_, _, _, hr, hr', rfl⟩

theorem need_kids {ln : Bool} {d : String} {ks : List Tree} {st st2 : TState} {vs : List Val}
    (hw : d = "resource" → ∃ a b c sp rest, ks = a :: b :: .node "type_api_pair" c sp :: rest)
    (h : transformList ln ks st = .ok (vs, st2)) : Need d vs := by
  intro e a b c rest e'
  obtain ⟨k1, k2, c', sp, rest', rfl⟩ := hw e
  obtain ⟨v1, vs1, s1, -, h1, rfl⟩ := cons_ok h
  obtain ⟨v2, vs2, s2, -, h2, rfl⟩ := cons_ok h1
  obtain ⟨v3, vs3, s3, h3, -, rfl⟩ := cons_ok h2
  cases e'
  exact pair_value h3

mutual
theorem sim_transform (ln : Bool) : (t : Tree) → TWf t → ∀ {h : Heap} {st' : HState} {st : TState} {F : List Nat},
    RepS h st' st F → F.Nodup → OutT h F (transform ln t st) (hTransform ln t st' h)
  | .tok t, _, h, st', st, F, hst, _ => by
    simp only [transform, hTransform]
    exact .ok (.tok _ _) hst (.refl _ _)
  | .none, _, h, st', st, F, hst, _ => by
    simp only [transform, hTransform]
    exact .ok .none hst (.refl _ _)
  | .node d ks sp, hw, h, st', st, F, hst, hF => by
    have o := sim_transformList ln ks hw.2.2 hst hF
    simp only [transform, hTransform]
    generalize hr : transformList ln ks st = r, hTransformList ln ks st' h = s at o
    cases o with
    | error e => exact .error _
    | @ok xs vs st1 st1' h1 G1 G2 ra rs hs =>
      simp only [bind, Except.bind]
      have hn := hs.nodup hF hst.lt
      rcases lookup_simK sim_callbacks d with ⟨e1, e2⟩ | ⟨f, g, e1, e2, e3⟩
      · rw [e1, e2]; exact .error _
      · rw [e1, e2]
        have o := e3 hw.1 ln sp h1 xs vs G1 G2 st1' st1 (need_kids hw.2.1 hr) ra rs hn
        simp only []
        generalize f ln sp vs st1 = r, g ln sp xs st1' h1 = s at o
        cases o with
        | error e => exact .error _
        | ok k1 k2 k3 => exact .ok k1 k2 (hs.trans k3)
theorem sim_transformList (ln : Bool) : (ts : List Tree) → TWfL ts → ∀ {h : Heap} {st' : HState} {st : TState} {F : List Nat},
    RepS h st' st F → F.Nodup → OutTL h F (transformList ln ts st) (hTransformList ln ts st' h)
  | [], _, h, st', st, F, hst, _ => by
    simp only [transformList, hTransformList]
    exact .ok .nil hst (.refl _ _)
  | t :: ts, hw, h, st', st, F, hst, hF => by
    have o := sim_transform ln t hw.1 hst hF
    simp only [transformList, hTransformList]
    generalize transform ln t st = r, hTransform ln t st' h = s at o
    cases o with
    | error e => exact .error _
    | @ok x v st1 st1' h1 G1 G2 ra rs hs =>
      have hn := hs.nodup hF hst.lt
      have o := sim_transformList ln ts hw.2 rs (nd hn)
      simp only [bind, Except.bind]
      generalize transformList ln ts st1 = r, hTransformList ln ts st1' h1 = s at o
      cases o with
      | error e => exact .error _
      | @ok xs vs st2 st2' h2 K1 K2 rb rs2 hs2 =>
        have ra' := ra.mono fun a ha => hs2.keep a (ra.lt a ha) (disj hn (.refl _) ha)
        refine .ok (.cons ra' rb) rs2 (hs.trans ((hs2.frame G1).weaken ?_ ?_)) <;>
          (intro a; simp only [List.count_append]; omega)
end

/-- outcomes of the whole transformation -/
inductive OutJ (h : Heap) : Except VErr Val → Except VErr (HV × Heap) → Prop
  | error (e : VErr) : OutJ h (.error e) (.error e)
  | ok {x v h' G} : Rep h' false x v G → Step h [] h' G → OutJ h (.ok v) (.ok (x, h'))

theorem sim_bicepToJson (ln : Bool) {ks : List Tree} {sp : Option Span} (hw : TWfL ks) (h : Heap) :
    OutJ h (bicepToJson ln (.node "start" ks sp)) (hBicepToJson ln (.node "start" ks sp) h) := by
  have e1 : callbacks.lookup "start" = some (fun ln _ args st => (cb_start ln args st).map (·, st)) := rfl
  have e2 : hcallbacks.lookup "start" = some (fun ln _ args st h => (hcb_start h ln args st).map (hReturn h st)) := rfl
  have o := sim_transformList ln ks hw (h := h) (st' := ⟨[], []⟩) (st := ⟨[], []⟩) (F := [])
    ⟨[], [], .nil, .nil, fun a => rfl⟩ List.nodup_nil
  simp only [bicepToJson, hBicepToJson, transform, hTransform, e1, e2]
  generalize transformList ln ks ⟨[], []⟩ = r, hTransformList ln ks ⟨[], []⟩ h = s at o
  cases o with
  | error e => exact .error _
  | @ok xs vs st1 st1' h1 G1 G2 ra rs hs =>
    simp only [bind, Except.bind]
    have hn := hs.nodup List.nodup_nil (fun a ha => absurd ha List.not_mem_nil)
    have o := sim_start ln ra rs hn
    generalize cb_start ln vs st1 = r, hcb_start h1 ln xs st1' = s at o
    cases o with
    | error e => exact .error _
    | @ok x v G hr hsub =>
      obtain ⟨K, hK, he, hg⟩ := hr.alloc
      refine OutJ.ok hK (hs.trans ⟨he.le, fun a ha _ => he.get ha, ?_⟩)
      intro a
      have := hg a; have := hsub a
      change _ ≤ _ + (if h1.length ≤ a ∧ a < (x.alloc h1).2.length then 1 else 0)
      omega

end Pycep.Mem
