import Verif.Spec.Sharing
import Verif.Heap.SimParse
import Verif.Props.Api
import Verif.Props.Plain
/-
C70: the objects of a result.
-/
namespace Pycep.Sharing
open Pycep.Mem

/-! ### Values in memory along paths -/

theorem hGet_lookup (k : String) (d : List (String × HV)) : hGet k d = d.lookup k := by
  induction d with
  | nil => rfl
  | cons p d ih =>
    obtain ⟨k', v⟩ := p
    simp only [hGet, List.lookup]
    by_cases e : k' = k
    · subst e; simp
    · rw [if_neg e, ih, beq_false_of_ne (Ne.symm e)]

theorem dGet_lookup (k : String) (d : List (String × Val)) : dGet k d = d.lookup k := by
  induction d with
  | nil => rfl
  | cons p d ih =>
    obtain ⟨k', v⟩ := p
    simp only [dGet, List.lookup]
    by_cases e : k' = k
    · subst e; simp
    · rw [if_neg e, ih, beq_false_of_ne (Ne.symm e)]

theorem repL_get {h : Heap} {b : Bool} : {l : List HV} → {l' : List Val} → {F : List Nat} → RepL h b l l' F → (i : Nat) →
    (l[i]? = none ∧ l'[i]? = none) ∨ ∃ x v G, l[i]? = some x ∧ l'[i]? = some v ∧ Rep h b x v G ∧ Sub G F
  | _, _, _, .nil, _ => .inl ⟨rfl, rfl⟩
  | _, _, _, .cons h1 h2, 0 => .inr ⟨_, _, _, rfl, rfl, h1, by sub_tac⟩
  | _, _, _, .cons h1 h2, i + 1 => by
    rcases repL_get h2 i with h | ⟨x, v, G, e1, e2, hr, hs⟩
    · exact .inl (by simpa using h)
    · exact .inr ⟨x, v, G, by simpa using e1, by simpa using e2, hr, Sub.trans hs (by sub_tac)⟩

theorem repL_get2 {h : Heap} {b : Bool} : {l : List HV} → {l' : List Val} → {F : List Nat} → RepL h b l l' F →
    (i j : Nat) → i ≠ j → ∀ {x y : HV}, l[i]? = some x → l[j]? = some y →
    ∃ v w G K, Rep h b x v G ∧ Rep h b y w K ∧ Sub (G ++ K) F
  | _, _, _, .nil, _, _, _, _, _, e1, _ => by simp at e1
  | _, _, _, .cons h1 h2, 0, 0, hij, _, _, _, _ => absurd rfl hij
  | _, _, _, .cons h1 h2, 0, j + 1, _, x, y, e1, e2 => by
    simp at e1 e2
    subst e1
    rcases repL_get h2 j with ⟨h, -⟩ | ⟨x', v, G, e3, -, hr, hs⟩
    · rw [e2] at h; cases h
    · rw [e2] at e3; cases e3
      exact ⟨_, _, _, _, h1, hr, by intro a; have := hs a; simp only [List.count_append]; omega⟩
  | _, _, _, .cons h1 h2, i + 1, 0, _, x, y, e1, e2 => by
    simp at e1 e2
    subst e2
    rcases repL_get h2 i with ⟨h, -⟩ | ⟨x', v, G, e3, -, hr, hs⟩
    · rw [e1] at h; cases h
    · rw [e1] at e3; cases e3
      exact ⟨_, _, _, _, hr, h1, by intro a; have := hs a; simp only [List.count_append]; omega⟩
  | _, _, _, .cons h1 h2, i + 1, j + 1, hij, x, y, e1, e2 => by
    simp at e1 e2
    obtain ⟨v, w, G, K, r1, r2, hs⟩ := repL_get2 h2 i j (by omega) e1 e2
    exact ⟨v, w, G, K, r1, r2, by intro a; have := hs a; simp only [List.count_append] at *; omega⟩

/-- one step -/
theorem sub_rep {h : Heap} {x : HV} {v : Val} {F : List Nat} (hr : Rep h false x v F) (s : Sel) :
    (sub h x s = none ∧ subV v s = none) ∨
    ∃ y w a F' G, sub h x s = some y ∧ subV v s = some w ∧ x = .ref a ∧ F = a :: F' ∧ Rep h false y w G ∧ Sub G F' := by
  cases hr with
  | refD e hd =>
    cases s with
    | pos i => exact .inl ⟨by simp [sub, e], rfl⟩
    | key k =>
      simp only [sub, e, subV, ← hGet_lookup, ← dGet_lookup]
      rcases RepI.get (k := k) hd with ⟨e1, e2⟩ | ⟨v, y, G, e1, e2, hr, hs⟩
      · exact .inl ⟨e2, e1⟩
      · exact .inr ⟨_, _, _, _, _, e2, e1, rfl, rfl, hr, hs⟩
  | refL e hl =>
    cases s with
    | key i => exact .inl ⟨by simp [sub, e], rfl⟩
    | pos i =>
      simp only [sub, e, subV]
      rcases repL_get hl i with ⟨e1, e2⟩ | ⟨y, v, G, e1, e2, hr, hs⟩
      · exact .inl ⟨e1, e2⟩
      · exact .inr ⟨_, _, _, _, _, e1, e2, rfl, rfl, hr, hs⟩
  | _ => exact .inl ⟨by simp [sub], by cases s <;> rfl⟩

/-- two different steps -/
theorem sub_rep2 {h : Heap} {x : HV} {v : Val} {F : List Nat} (hr : Rep h false x v F) {s s' : Sel} (hs : s ≠ s')
    {y z : HV} (e1 : sub h x s = some y) (e2 : sub h x s' = some z) :
    ∃ v w G K, Rep h false y v G ∧ Rep h false z w K ∧ Sub (G ++ K) F := by
  cases hr with
  | @refD _ a d d' F e hd =>
    cases s with
    | pos i => simp [sub, e] at e1
    | key k =>
      cases s' with
      | pos i => simp [sub, e] at e2
      | key k' =>
        simp only [sub, e, ← hGet_lookup] at e1 e2
        have hk : k ≠ k' := fun h => hs (by rw [h])
        rcases RepI.get (k := k) hd with ⟨e3, e4⟩ | ⟨v, y', G, e3, e4, -, -⟩
        · rw [e1] at e4; cases e4
        rcases RepI.get (k := k') hd with ⟨e5, e6⟩ | ⟨w, z', G', e5, e6, -, -⟩
        · rw [e2] at e6; cases e6
        obtain ⟨x1, x2, G1, G2, f1, f2, r1, r2, hs⟩ := RepI.get2 hk hd e3 e5
        rw [e1] at f1; cases f1
        rw [e2] at f2; cases f2
        exact ⟨_, _, _, _, r1, r2, by intro b; have := hs b; rw [List.count_cons]; omega⟩
  | @refL _ a l l' F e hl =>
    cases s with
    | key k => simp [sub, e] at e1
    | pos i =>
      cases s' with
      | key k => simp [sub, e] at e2
      | pos j =>
        simp only [sub, e] at e1 e2
        obtain ⟨v, w, G, K, r1, r2, hs⟩ := repL_get2 hl i j (fun h => hs (by rw [h])) e1 e2
        exact ⟨_, _, _, _, r1, r2, by intro b; have := hs b; rw [List.count_cons]; omega⟩
  | _ => simp [sub] at e1

/-- what is reached is represented, with some of the objects -/
theorem reach_rep {h : Heap} (p : List Sel) : ∀ {x : HV} {v : Val} {F : List Nat}, Rep h false x v F →
    (reach h x p = none ∧ reachV v p = none) ∨
    ∃ y w G, reach h x p = some y ∧ reachV v p = some w ∧ Rep h false y w G ∧ Sub G F := by
  induction p with
  | nil => intro x v F hr; exact .inr ⟨_, _, _, rfl, rfl, hr, .refl _⟩
  | cons s p ih =>
    intro x v F hr
    rcases sub_rep hr s with ⟨e1, e2⟩ | ⟨y, w, a, F', G, e1, e2, -, rfl, hy, hs⟩
    · exact .inl ⟨by simp [reach, e1], by simp [reachV, e2]⟩
    · simp only [reach, reachV, e1, e2, Option.bind_some]
      rcases ih hy with h | ⟨y', w', G', f1, f2, hy', hs'⟩
      · exact .inl h
      · exact .inr ⟨_, _, _, f1, f2, hy', by
          intro b; have := hs b; have := hs' b; rw [List.count_cons]; omega⟩

theorem reach_ref {h : Heap} {p : List Sel} {x : HV} {v : Val} {F : List Nat} (hr : Rep h false x v F) {a : Nat}
    (e : reach h x p = some (.ref a)) : a ∈ F := by
  rcases reach_rep p hr with ⟨f, -⟩ | ⟨y, w, G, f, -, hy, hs⟩
  · rw [e] at f; cases f
  · rw [e] at f; cases f
    cases hy with
    | refL => exact hs.mem (List.mem_cons_self ..)
    | refD => exact hs.mem (List.mem_cons_self ..)

theorem unshared_rep {h : Heap} : ∀ (p q : List Sel) {x : HV} {v : Val} {F : List Nat}, Rep h false x v F → F.Nodup →
    ∀ a, reach h x p = some (.ref a) → reach h x q = some (.ref a) → p = q
  | [], [], _, _, _, _, _, _, _, _ => rfl
  | [], s :: q, x, v, F, hr, hF, a, e1, e2 => by
    cases e1
    rcases sub_rep hr s with ⟨f, -⟩ | ⟨y, w, a', F', G, f1, f2, ea, rfl, hy, hs⟩
    · simp [reach, f] at e2
    · cases ea
      simp only [reach, f1, Option.bind_some] at e2
      exact absurd (hs.mem (reach_ref hy e2)) (List.nodup_cons.mp hF).1
  | s :: p, [], x, v, F, hr, hF, a, e1, e2 => by
    cases e2
    rcases sub_rep hr s with ⟨f, -⟩ | ⟨y, w, a', F', G, f1, f2, ea, rfl, hy, hs⟩
    · simp [reach, f] at e1
    · cases ea
      simp only [reach, f1, Option.bind_some] at e1
      exact absurd (hs.mem (reach_ref hy e1)) (List.nodup_cons.mp hF).1
  | s :: p, s' :: q, x, v, F, hr, hF, a, e1, e2 => by
    obtain ⟨y, f1, e1⟩ := Option.bind_eq_some_iff.mp (show (sub h x s).bind (reach h · p) = _ from e1)
    obtain ⟨z, f2, e2⟩ := Option.bind_eq_some_iff.mp (show (sub h x s').bind (reach h · q) = _ from e2)
    by_cases hss : s = s'
    · subst hss
      rw [f1] at f2; cases f2
      rcases sub_rep hr s with ⟨f, -⟩ | ⟨y', w, a', F', G, f, -, -, rfl, hy, hs⟩
      · rw [f1] at f; cases f
      · rw [f1] at f; cases f
        rw [unshared_rep p q hy (hs.nodup (List.nodup_cons.mp hF).2) a e1 e2]
    · obtain ⟨v, w, G, K, r1, r2, hs⟩ := sub_rep2 hr hss f1 f2
      exact absurd (reach_ref r2 e2) (disj hF hs (reach_ref r1 e1))

theorem json_reach {K : String → Prop} (p : List Sel) : ∀ {v w : Val}, Json K v → reachV v p = some w → Json K w := by
  induction p with
  | nil => intro v w h e; cases e; exact h
  | cons s p ih =>
    intro v w h e
    obtain ⟨u, f, e⟩ := Option.bind_eq_some_iff.mp (show (subV v s).bind (reachV · p) = _ from e)
    refine ih ?_ e
    cases h with
    | @list l hl =>
      cases s with
      | key k => simp [subV] at f
      | pos i => exact hl _ (List.mem_of_getElem? f)
    | @dict d _ _ hd =>
      cases s with
      | pos i => simp [subV] at f
      | key k =>
        simp only [subV, List.lookup_eq_some_iff] at f
        obtain ⟨l1, l2, rfl, -⟩ := f
        exact hd (k, u) (by simp)
    | _ => cases s <;> simp [subV] at f

theorem repI_keys {h : Heap} {b : Bool} : {d : List (String × HV)} → {d' : List (String × Val)} → {F : List Nat} →
    RepI h b d d' F → d.map Prod.fst = d'.map Prod.fst
  | _, _, _, .nil => rfl
  | _, _, _, .cons _ h2 => by simp [repI_keys h2]

theorem repL_length {h : Heap} {b : Bool} : {l : List HV} → {l' : List Val} → {F : List Nat} →
    RepL h b l l' F → l.length = l'.length
  | _, _, _, .nil => rfl
  | _, _, _, .cons _ h2 => by simp [repL_length h2]

theorem like_rep {h : Heap} {x : HV} {v : Val} {F : List Nat} {K : String → Prop} (hr : Rep h false x v F) (hj : Json K v) :
    Like h x v := by
  cases hr with
  | none => exact .none
  | bool b => exact .bool b
  | int i => exact .int i
  | str s => exact .str s
  | elem s => exact .elem s
  | tok t s => cases hj
  | tup2 => cases hj
  | refL e hl => exact .list e (repL_length hl)
  | refD e hd => exact .dict e (repI_keys hd)

theorem is_rep {h : Heap} {x : HV} {v : Val} {F : List Nat} {K : String → Prop} (hr : Rep h false x v F) (hj : Json K v) :
    Is h x v := by
  intro p
  rcases reach_rep p hr with h | ⟨y, w, G, e1, e2, hy, -⟩
  · exact .inl h
  · exact .inr ⟨y, w, e1, e2, like_rep hy (json_reach p hj e2)⟩

/-! ### Parsing in memory follows parsing -/

/-- outcomes of parsing -/
inductive OutA (h : Heap) : Except ApiErr Val → Except ApiErr (HV × Heap) → Prop
  | error (e : ApiErr) : OutA h (.error e) (.error e)
  | ok {x v h' G} : Rep h' false x v G → Mem.Step h [] h' G → OutA h (.ok v) (.ok (x, h'))

theorem sim_parse (P : Parser) (text : Option String) (path : Option PathArg) (h : Heap) :
    OutA h (P.parse text path) (P.hparse text path h) := by
  unfold Parser.parse Parser.hparse
  rcases createTree'_cases text path with ⟨e, -, f⟩ | ⟨t, m, -, -, f, -⟩ | ⟨t, -, -, -, f⟩ | ⟨t, tree, p, -, -, -, -, hc, f⟩
  · rw [f]; exact .error _
  · rw [f]; exact .error _
  · rw [f]; exact .error _
  · rw [f]
    obtain ⟨ks, e, hw⟩ := twf_program p
    rw [e] at hc
    match tree, hc with
    | .node d ks' sp, hc =>
      simp only [Tree.core, «nd», Tree.node.injEq] at hc
      obtain ⟨rfl, hk, -⟩ := hc
      rw [← hk] at hw
      have o := sim_bicepToJson P.addLineNumbers (sp := sp) (twfL_core _ hw) h
      simp only [bind, Except.bind]
      generalize bicepToJson _ _ = r, hBicepToJson _ _ _ = s at o
      cases o with
      | error e => cases e <;> exact .error _
      | ok k1 k2 => exact .ok k1 k2
    | .tok _, hc => simp [Tree.core, «nd»] at hc
    | .none, hc => simp [Tree.core, «nd»] at hc

theorem sim_ok {P : Parser} {text : Option String} {path : Option PathArg} {h h' : Heap} {x : HV}
    (e : P.hparse text path h = .ok (x, h')) :
    ∃ v G, P.parse text path = .ok v ∧ Rep h' false x v G ∧ Mem.Step h [] h' G ∧ G.Nodup := by
  have o := sim_parse P text path h
  rw [e] at o
  generalize P.parse text path = r at o
  cases o with
  | ok k1 k2 => exact ⟨_, _, rfl, k1, k2, k2.nodup List.nodup_nil (fun a ha => absurd ha List.not_mem_nil)⟩

theorem new_of_step {h h' : Heap} {G : List Nat} (st : Mem.Step h [] h' G) {a : Nat} (ha : a ∈ G) :
    h.length ≤ a ∧ a < h'.length := by
  have h1 := st.grow a
  have h2 := List.count_pos_iff.mpr ha
  simp only [List.count_nil] at h1
  split at h1
  · assumption
  · omega

/-! ### C70 -/

/-- **C70**: the result of `parse`, seen as objects: it is the result described by the other
properties, no dictionary or list occurs in two places of it, all of them are new, and no object that
existed before the call has changed. -/
theorem C70_fresh_objects {P : Parser} {text : Option String} {path : Option PathArg} {h h' : Heap} {x : HV}
    (e : P.hparse text path h = .ok (x, h')) :
    (∃ v, P.parse text path = .ok v ∧ Is h' x v) ∧ Unshared h' x ∧
    (∀ p a, reach h' x p = some (.ref a) → h.length ≤ a ∧ a < h'.length) ∧
    (∀ a, a < h.length → h'[a]? = h[a]?) := by
  obtain ⟨v, G, hv, hr, st, hn⟩ := sim_ok e
  exact ⟨⟨v, hv, is_rep hr (C09_plain_data hv)⟩, fun p q a => unshared_rep p q hr hn a,
    fun p a he => new_of_step st (reach_ref hr he), fun a ha => st.keep a ha List.not_mem_nil⟩

/-- **C70**: the objects in memory do not influence whether `parse` succeeds, nor its errors. -/
theorem C70_memory_irrelevant (P : Parser) (text : Option String) (path : Option PathArg) (h : Heap) (e : ApiErr) :
    P.hparse text path h = .error e ↔ P.parse text path = .error e := by
  have o := sim_parse P text path h
  generalize P.parse text path = r, P.hparse text path h = s at o
  cases o with
  | error e' => simp
  | ok => simp

/-- without sharing, a change of one object is seen only on the paths through it -/
theorem reach_set {h : Heap} {p : List Sel} {a : Nat} (o : HV) : ∀ (q r : List Sel) {y : HV},
    (∀ s, reach h y s = some (.ref a) → r ++ s = p) → ¬ p <+: r ++ q →
    reach (h.set a o) y q = reach h y q
  | [], _, _, _, _ => rfl
  | s :: q, r, y, hu, hq => by
    have hs : sub (h.set a o) y s = sub h y s := by
      cases y with
      | ref b =>
        have hab : a ≠ b := by
          rintro rfl
          have := hu [] rfl
          rw [← this, List.append_nil] at hq
          exact hq (List.prefix_append _ _)
        simp only [sub, set_get_ne o hab]
      | _ => rfl
    simp only [reach, hs]
    cases hy : sub h y s with
    | none => rfl
    | some z =>
      simp only [Option.bind_some]
      refine reach_set o q (r ++ [s]) (fun s' e => ?_) (by simpa using hq)
      have := hu (s :: s') (by simp [reach, hy, e])
      simpa using this

/-- **C70**: whoever changes a dictionary or list of a result, at the path `p`, sees the change only
at `p` and below. -/
theorem C70_edit_is_local {P : Parser} {text : Option String} {path : Option PathArg} {h h' : Heap} {x : HV}
    (e : P.hparse text path h = .ok (x, h')) {p : List Sel} {a : Nat} (hp : reach h' x p = some (.ref a)) (o : HV) :
    ∀ q, ¬ p <+: q → reach (h'.set a o) x q = reach h' x q ∧
      ∀ b, reach h' x q = some (.ref b) → (h'.set a o)[b]? = h'[b]? := by
  have hu := (C70_fresh_objects e).2.1
  intro q hq
  refine ⟨reach_set (p := p) o q [] (fun s hs => hu _ _ _ hs hp) hq, fun b hb => set_get_ne o ?_⟩
  rintro rfl
  exact hq (hu _ _ _ hp hb ▸ List.prefix_refl _)

/-- **C70**: two results have no object in common; the later call leaves the earlier result as it was,
and whatever is done to a dictionary or list of one of them, the other stays what it is. -/
theorem C70_results_independent {P Q : Parser} {t1 t2 : Option String} {f1 f2 : Option PathArg} {h h1 h2 : Heap} {x y : HV}
    (e1 : P.hparse t1 f1 h = .ok (x, h1)) (e2 : Q.hparse t2 f2 h1 = .ok (y, h2)) :
    (∀ p q a b, reach h2 x p = some (.ref a) → reach h2 y q = some (.ref b) → a ≠ b) ∧
    ∃ v w, P.parse t1 f1 = .ok v ∧ Q.parse t2 f2 = .ok w ∧ Is h2 x v ∧ Is h2 y w ∧
      (∀ p a o, reach h2 x p = some (.ref a) → Is (h2.set a o) y w) ∧
      (∀ p a o, reach h2 y p = some (.ref a) → Is (h2.set a o) x v) := by
  obtain ⟨v, G, hv, hr, st, hn⟩ := sim_ok e1
  obtain ⟨w, K, hw, hs, st2, hn2⟩ := sim_ok e2
  have hr2 : Rep h2 false x v G := hr.mono fun a ha => st2.keep a (hr.lt a ha) List.not_mem_nil
  have hd : ∀ a ∈ G, ∀ b ∈ K, a ≠ b := by
    intro a ha b hb
    have h3 := new_of_step st ha
    have h4 := new_of_step st2 hb
    omega
  refine ⟨fun p q a b ha hb => hd a (reach_ref hr2 ha) b (reach_ref hs hb), v, w, hv, hw,
    is_rep hr2 (C09_plain_data hv), is_rep hs (C09_plain_data hw), ?_, ?_⟩
  · intro p a o ha
    exact is_rep (hs.mono fun b hb => set_get_ne o (hd a (reach_ref hr2 ha) b hb)) (C09_plain_data hw)
  · intro p a o ha
    exact is_rep (hr2.mono fun b hb => set_get_ne o (hd b hb a (reach_ref hs ha)).symm) (C09_plain_data hv)

/-! ### An example -/

/-- run a check on the result of `hparse` -/
def onResult (r : Except ApiErr (HV × Heap)) (f : HV → Heap → Bool) : Bool :=
  match r with
  | .ok (x, h) => f x h
  | .error _ => false

theorem onResult_true {r : Except ApiErr (HV × Heap)} {f : HV → Heap → Bool} (h : onResult r f = true) :
    ∃ x h', r = .ok (x, h') ∧ f x h' = true := by
  match r, h with
  | .ok (x, h'), h => exact ⟨x, h', rfl, h⟩

/-- the address of an object -/
def address : Option HV → Nat
  | some (.ref a) => a
  | _ => 0

def exampleText : String :=
  "resource a 'x@1' = {\n  p: []\n  resource b 'y' = {\n    q: []\n  }\n}\n"

/-- A resource with a nested one, parsed when the memory holds two objects: the result and the paths to
some of its objects, which are all different. -/
example : ∃ x h, Parser.hparse ⟨false⟩ (some exampleText) .none [.list [], .dict [("k", .ref 0)]] = .ok (x, h) ∧
    [address (reach h x [.key "resources", .key "a", .key "config"]),
     address (reach h x [.key "resources", .key "a", .key "config", .key "p"]),
     address (reach h x [.key "resources", .key "a", .key "decorators"]),
     address (reach h x [.key "resources", .key "a__b", .key "config"]),
     address (reach h x [.key "resources", .key "a__b", .key "config", .key "depends_on"]),
     address (reach h x [.key "resources", .key "a__b", .key "config", .key "q"]),
     address (reach h x [.key "resources", .key "a__b", .key "decorators"])] = [9, 3, 12, 5, 10, 4, 6] := by
  have h := onResult_true (r := Parser.hparse ⟨false⟩ (some exampleText) .none [.list [], .dict [("k", .ref 0)]])
    (f := fun x h => [address (reach h x [.key "resources", .key "a", .key "config"]),
     address (reach h x [.key "resources", .key "a", .key "config", .key "p"]),
     address (reach h x [.key "resources", .key "a", .key "decorators"]),
     address (reach h x [.key "resources", .key "a__b", .key "config"]),
     address (reach h x [.key "resources", .key "a__b", .key "config", .key "depends_on"]),
     address (reach h x [.key "resources", .key "a__b", .key "config", .key "q"]),
     address (reach h x [.key "resources", .key "a__b", .key "decorators"])] == [9, 3, 12, 5, 10, 4, 6]) (by decide +kernel)
  obtain ⟨x, h', e, f⟩ := h
  exact ⟨x, h', e, by simpa using f⟩

end Pycep.Sharing
