import Verif.Heap.Transformer
import Mathlib.Data.List.Perm.Subperm
/-
A value in a memory represents a plain value, using the objects listed.
-/
namespace Pycep.Mem

mutual
/-- `Rep b h x v F`: in the memory `h`, `x` looks like `v`; `F` lists the objects met on the way, one
entry for each time an object is met.  Displays are allowed only with `b = true`. -/
inductive Rep (h : Heap) : Bool → HV → Val → List Nat → Prop
  | none {b} : Rep h b .none .none []
  | bool {b} (x : Bool) : Rep h b (.bool x) (.bool x) []
  | int {b} (i : Int) : Rep h b (.int i) (.int i) []
  | str {b} (s : String) : Rep h b (.str s) (.str s) []
  | elem {b} (s : String) : Rep h b (.elem s) (.elem s) []
  | tok {b} (t s : String) : Rep h b (.tok t s) (.tok t s) []
  | tup2 {b x y v w F G} : Rep h b x v F → Rep h b y w G → Rep h b (.tup2 x y) (.tup2 v w) (F ++ G)
  | list {l l' F} : RepL h true l l' F → Rep h true (.list l) (.list l') F
  | dict {d d' F} : RepI h true d d' F → Rep h true (.dict d) (.dict d') F
  | refL {b a l l' F} : h[a]? = some (.list l) → RepL h false l l' F → Rep h b (.ref a) (.list l') (a :: F)
  | refD {b a d d' F} : h[a]? = some (.dict d) → RepI h false d d' F → Rep h b (.ref a) (.dict d') (a :: F)
/-- the members of a list -/
inductive RepL (h : Heap) : Bool → List HV → List Val → List Nat → Prop
  | nil {b} : RepL h b [] [] []
  | cons {b x v F l l' G} : Rep h b x v F → RepL h b l l' G → RepL h b (x :: l) (v :: l') (F ++ G)
/-- the items of a dictionary -/
inductive RepI (h : Heap) : Bool → List (String × HV) → List (String × Val) → List Nat → Prop
  | nil {b} : RepI h b [] [] []
  | cons {b k x v F d d' G} : Rep h b x v F → RepI h b d d' G →
      RepI h b ((k, x) :: d) ((k, v) :: d') (F ++ G)
end

/-- no object more often than in the other list -/
def Sub (G F : List Nat) : Prop := ∀ a : Nat, G.count a ≤ F.count a

theorem Sub.refl (F : List Nat) : Sub F F := fun _ => Nat.le_refl _
theorem Sub.trans {F G K : List Nat} (h1 : Sub F G) (h2 : Sub G K) : Sub F K :=
  fun a => Nat.le_trans (h1 a) (h2 a)
theorem Sub.nodup {F G : List Nat} (h : Sub G F) (hF : F.Nodup) : G.Nodup := by
  exact List.nodup_iff_count.mpr
    fun a => Nat.le_trans (h a) (List.nodup_iff_count.mp hF a)
theorem Sub.mem {F G : List Nat} (h : Sub G F) {a : Nat} (ha : a ∈ G) : a ∈ F := by
  have := h a
  have h1 := List.count_pos_iff.mpr ha
  exact List.count_pos_iff.mp (by omega)
theorem Sub.append {F G F' G' : List Nat} (h1 : Sub F F') (h2 : Sub G G') : Sub (F ++ G) (F' ++ G') := by
  intro a
  have := h1 a; have := h2 a
  simp only [List.count_append]; omega

mutual
theorem Rep.weaken {h : Heap} {b : Bool} : {x : HV} → {v : Val} → {F : List Nat} → Rep h b x v F → Rep h true x v F
  | _, _, _, .none => .none
  | _, _, _, .bool _ => .bool _
  | _, _, _, .int _ => .int _
  | _, _, _, .str _ => .str _
  | _, _, _, .elem _ => .elem _
  | _, _, _, .tok _ _ => .tok _ _
  | _, _, _, .tup2 h1 h2 => .tup2 h1.weaken h2.weaken
  | _, _, _, .list hl => .list hl
  | _, _, _, .dict hd => .dict hd
  | _, _, _, .refL e hl => .refL e hl
  | _, _, _, .refD e hd => .refD e hd
theorem RepL.weaken {h : Heap} {b : Bool} : {x : List HV} → {v : List Val} → {F : List Nat} → RepL h b x v F → RepL h true x v F
  | _, _, _, .nil => .nil
  | _, _, _, .cons h1 h2 => .cons h1.weaken h2.weaken
theorem RepI.weaken {h : Heap} {b : Bool} : {x : List (String × HV)} → {v : List (String × Val)} → {F : List Nat} → RepI h b x v F → RepI h true x v F
  | _, _, _, .nil => .nil
  | _, _, _, .cons h1 h2 => .cons h1.weaken h2.weaken
end

mutual
theorem Rep.mono {h h' : Heap} {b : Bool} : {x : HV} → {v : Val} → {F : List Nat} → Rep h b x v F →
    (∀ a ∈ F, h'[a]? = h[a]?) → Rep h' b x v F
  | _, _, _, .none, _ => .none
  | _, _, _, .bool _, _ => .bool _
  | _, _, _, .int _, _ => .int _
  | _, _, _, .str _, _ => .str _
  | _, _, _, .elem _, _ => .elem _
  | _, _, _, .tok _ _, _ => .tok _ _
  | _, _, _, .tup2 h1 h2, e => .tup2 (h1.mono fun a ha => e a (List.mem_append_left _ ha))
      (h2.mono fun a ha => e a (List.mem_append_right _ ha))
  | _, _, _, .list hl, e => .list (hl.mono e)
  | _, _, _, .dict hd, e => .dict (hd.mono e)
  | _, _, _, .refL e hl, e' => .refL ((e' _ List.mem_cons_self).trans e)
      (hl.mono fun a ha => e' a (List.mem_cons_of_mem _ ha))
  | _, _, _, .refD e hd, e' => .refD ((e' _ List.mem_cons_self).trans e)
      (hd.mono fun a ha => e' a (List.mem_cons_of_mem _ ha))
theorem RepL.mono {h h' : Heap} {b : Bool} : {x : List HV} → {v : List Val} → {F : List Nat} → RepL h b x v F →
    (∀ a ∈ F, h'[a]? = h[a]?) → RepL h' b x v F
  | _, _, _, .nil, _ => .nil
  | _, _, _, .cons h1 h2, e => .cons (h1.mono fun a ha => e a (List.mem_append_left _ ha))
      (h2.mono fun a ha => e a (List.mem_append_right _ ha))
theorem RepI.mono {h h' : Heap} {b : Bool} : {x : List (String × HV)} → {v : List (String × Val)} → {F : List Nat} →
    RepI h b x v F → (∀ a ∈ F, h'[a]? = h[a]?) → RepI h' b x v F
  | _, _, _, .nil, _ => .nil
  | _, _, _, .cons h1 h2, e => .cons (h1.mono fun a ha => e a (List.mem_append_left _ ha))
      (h2.mono fun a ha => e a (List.mem_append_right _ ha))
end

theorem lt_of_get {h : Heap} {a : Nat} {o : HV} (e : h[a]? = some o) : a < h.length := by
  obtain ⟨hlt, _⟩ := List.getElem?_eq_some_iff.mp e
  exact hlt

mutual
theorem Rep.lt {h : Heap} {b : Bool} : {x : HV} → {v : Val} → {F : List Nat} → Rep h b x v F →
    ∀ a ∈ F, a < h.length
  | _, _, _, .tup2 h1 h2, a, ha => by
    rcases List.mem_append.mp ha with ha | ha
    · exact h1.lt a ha
    · exact h2.lt a ha
  | _, _, _, .list hl, a, ha => hl.lt a ha
  | _, _, _, .dict hl, a, ha => hl.lt a ha
  | _, _, _, .refL e hl, a, ha => by
    rcases List.mem_cons.mp ha with rfl | ha
    · exact lt_of_get e
    · exact hl.lt a ha
  | _, _, _, .refD e hl, a, ha => by
    rcases List.mem_cons.mp ha with rfl | ha
    · exact lt_of_get e
    · exact hl.lt a ha
theorem RepL.lt {h : Heap} {b : Bool} : {x : List HV} → {v : List Val} → {F : List Nat} → RepL h b x v F →
    ∀ a ∈ F, a < h.length
  | _, _, _, .cons h1 h2, a, ha => by
    rcases List.mem_append.mp ha with ha | ha
    · exact h1.lt a ha
    · exact h2.lt a ha
theorem RepI.lt {h : Heap} {b : Bool} : {x : List (String × HV)} → {v : List (String × Val)} → {F : List Nat} →
    RepI h b x v F → ∀ a ∈ F, a < h.length
  | _, _, _, .cons h1 h2, a, ha => by
    rcases List.mem_append.mp ha with ha | ha
    · exact h1.lt a ha
    · exact h2.lt a ha
end

/-! ### reading back -/

/-- weight of an object -/
def weight (h : Heap) (a : Nat) : Nat := ((h[a]?).getD .none).size + 1

theorem weight_eq {h : Heap} {a : Nat} {o : HV} (e : h[a]? = some o) : weight h a = o.size + 1 := by
  simp [weight, e]

/-- weight of a list of objects -/
def weights (h : Heap) (F : List Nat) : Nat := (F.map (weight h)).sum

theorem weights_append (h : Heap) (F G : List Nat) : weights h (F ++ G) = weights h F + weights h G := by
  simp [weights]

theorem weights_cons (h : Heap) (a : Nat) (G : List Nat) : weights h (a :: G) = weight h a + weights h G := by
  simp [weights]

mutual
theorem Rep.see {h : Heap} {b : Bool} : {x : HV} → {v : Val} → {F : List Nat} → Rep h b x v F →
    ∀ n, x.size + weights h F ≤ n → x.see h n = v
  | _, _, _, .none, 0, hn => by simp [HV.size] at hn
  | _, _, _, .none, _ + 1, _ => rfl
  | _, _, _, .bool _, 0, hn => by simp [HV.size] at hn
  | _, _, _, .bool _, _ + 1, _ => rfl
  | _, _, _, .int _, 0, hn => by simp [HV.size] at hn
  | _, _, _, .int _, _ + 1, _ => rfl
  | _, _, _, .str _, 0, hn => by simp [HV.size] at hn
  | _, _, _, .str _, _ + 1, _ => rfl
  | _, _, _, .elem _, 0, hn => by simp [HV.size] at hn
  | _, _, _, .elem _, _ + 1, _ => rfl
  | _, _, _, .tok _ _, 0, hn => by simp [HV.size] at hn
  | _, _, _, .tok _ _, _ + 1, _ => rfl
  | _, _, _, .tup2 h1 h2, 0, hn => by simp [HV.size] at hn
  | _, _, _, .tup2 h1 h2, n + 1, hn => by
    simp only [HV.size, weights_append] at hn
    simp only [HV.see]
    rw [h1.see n (by omega), h2.see n (by omega)]
  | _, _, _, .list hl, 0, hn => by simp [HV.size] at hn
  | _, _, _, .list hl, n + 1, hn => by
    simp only [HV.size] at hn
    simp only [HV.see]
    rw [hl.see n (by omega)]
  | _, _, _, .dict hl, 0, hn => by simp [HV.size] at hn
  | _, _, _, .dict hl, n + 1, hn => by
    simp only [HV.size] at hn
    simp only [HV.see]
    rw [hl.see n (by omega)]
  | _, _, _, .refL e hl, 0, hn => by simp [HV.size] at hn
  | _, _, _, .refL e hl, 1, hn => by
    simp only [HV.size, weights_cons, weight_eq e] at hn
    omega
  | _, _, _, .refL e hl, n + 2, hn => by
    simp only [HV.size, weights_cons, weight_eq e] at hn
    simp only [HV.see, e]
    rw [hl.see n (by omega)]
  | _, _, _, .refD e hl, 0, hn => by simp [HV.size] at hn
  | _, _, _, .refD e hl, 1, hn => by
    simp only [HV.size, weights_cons, weight_eq e] at hn
    omega
  | _, _, _, .refD e hl, n + 2, hn => by
    simp only [HV.size, weights_cons, weight_eq e] at hn
    simp only [HV.see, e]
    rw [hl.see n (by omega)]
theorem RepL.see {h : Heap} {b : Bool} : {x : List HV} → {v : List Val} → {F : List Nat} → RepL h b x v F →
    ∀ n, HV.sizeL x + weights h F ≤ n → x.map (HV.see h n) = v
  | _, _, _, .nil, _, _ => rfl
  | _, _, _, .cons h1 h2, n, hn => by
    simp only [HV.sizeL, weights_append] at hn
    rw [List.map_cons, h1.see n (by omega), h2.see n (by omega)]
theorem RepI.see {h : Heap} {b : Bool} : {x : List (String × HV)} → {v : List (String × Val)} → {F : List Nat} →
    RepI h b x v F → ∀ n, HV.sizeI x + weights h F ≤ n → x.map (fun p => (p.1, HV.see h n p.2)) = v
  | _, _, _, .nil, _, _ => rfl
  | _, _, _, .cons h1 h2, n, hn => by
    simp only [HV.sizeI, weights_append] at hn
    rw [List.map_cons, h1.see n (by omega), h2.see n (by omega)]
end

theorem sum_sublist {l l' : List Nat} (hs : l.Sublist l') : l.sum ≤ l'.sum := by
  induction hs with
  | slnil => exact Nat.le_refl _
  | cons a _ ih => simp only [List.sum_cons]; omega
  | cons_cons a _ ih => simp only [List.sum_cons]; omega

theorem sum_perm {l l' : List Nat} (hs : l.Perm l') : l.sum = l'.sum := by
  induction hs with
  | nil => rfl
  | cons a _ ih => simp only [List.sum_cons, ih]
  | swap a b l => simp only [List.sum_cons]; omega
  | trans _ _ ih1 ih2 => exact ih1.trans ih2

theorem weights_le {h : Heap} {F : List Nat} (hF : F.Nodup) (hlt : ∀ a ∈ F, a < h.length) :
    weights h F ≤ h.size := by
  have hsub : F.Subperm (List.range h.length) :=
    hF.subperm (fun a ha => List.mem_range.mpr (hlt a ha))
  obtain ⟨l, hp, hl⟩ := hsub
  have e1 : weights h F = weights h l := (sum_perm (hp.map (weight h))).symm
  have e2 : weights h l ≤ weights h (List.range h.length) := sum_sublist (hl.map (weight h))
  have e3 : weights h (List.range h.length) = h.size := by
    unfold weights Heap.size
    congr 1
    apply List.ext_getElem
    · simp
    · intro i h1 h2
      simp only [List.length_map, List.length_range] at h1
      simp [weight, h1]
  omega

/-- a value without sharing is read back as the plain value -/
theorem Rep.read_eq {h : Heap} {b : Bool} {x : HV} {v : Val} {F : List Nat} (hr : Rep h b x v F)
    (hF : F.Nodup) : x.read h = v := by
  refine hr.see _ ?_
  have := weights_le hF hr.lt
  omega

/-! ### storing a display -/

theorem get_append {h : Heap} {a : Nat} (ha : a < h.length) (l : Heap) : (h ++ l)[a]? = h[a]? :=
  List.getElem?_append_left ha

/-- `h'` is `h` with further objects -/
def Ext (h h' : Heap) : Prop := ∃ l, h' = h ++ l

theorem Ext.refl (h : Heap) : Ext h h := ⟨[], by simp⟩
theorem Ext.trans {h h' h'' : Heap} (e1 : Ext h h') (e2 : Ext h' h'') : Ext h h'' := by
  obtain ⟨l1, rfl⟩ := e1
  obtain ⟨l2, rfl⟩ := e2
  exact ⟨l1 ++ l2, by simp⟩
theorem Ext.le {h h' : Heap} (e : Ext h h') : h.length ≤ h'.length := by
  obtain ⟨l, rfl⟩ := e
  simp
theorem Ext.get {h h' : Heap} (e : Ext h h') {a : Nat} (ha : a < h.length) : h'[a]? = h[a]? := by
  obtain ⟨l, rfl⟩ := e
  exact get_append ha l

/-- objects of `G` are those of `F` and new ones, each new one once -/
def Grow (h : Heap) (F : List Nat) (h' : Heap) (G : List Nat) : Prop :=
  ∀ a : Nat, G.count a ≤ F.count a + (if h.length ≤ a ∧ a < h'.length then 1 else 0)

theorem Rep.ext {h h' : Heap} {b : Bool} {x : HV} {v : Val} {F : List Nat} (hr : Rep h b x v F) (e : Ext h h') :
    Rep h' b x v F := hr.mono fun a ha => e.get (hr.lt a ha)
theorem RepL.ext {h h' : Heap} {b : Bool} {x : List HV} {v : List Val} {F : List Nat} (hr : RepL h b x v F)
    (e : Ext h h') : RepL h' b x v F := hr.mono fun a ha => e.get (hr.lt a ha)
theorem RepI.ext {h h' : Heap} {b : Bool} {x : List (String × HV)} {v : List (String × Val)} {F : List Nat}
    (hr : RepI h b x v F) (e : Ext h h') : RepI h' b x v F := hr.mono fun a ha => e.get (hr.lt a ha)

theorem Grow.same (h : Heap) (F : List Nat) : Grow h F h F := fun _ => Nat.le_add_right _ _

theorem Grow.append {h h1 h2 : Heap} {F F' G G' : List Nat} (l1 : h.length ≤ h1.length) (l2 : h1.length ≤ h2.length)
    (g1 : Grow h F h1 F') (g2 : Grow h1 G h2 G') : Grow h (F ++ G) h2 (F' ++ G') := by
  intro a
  have h1' := g1 a
  have h2' := g2 a
  simp only [List.count_append]
  split at h1' <;> split at h2' <;> split <;> omega

theorem Grow.push {h h1 : Heap} {F F' : List Nat} (o : HV) (l1 : h.length ≤ h1.length)
    (g1 : Grow h F h1 F') : Grow h F (h1 ++ [o]) (h1.length :: F') := by
  intro a
  have h1' := g1 a
  simp only [List.count_cons, List.length_append, List.length_singleton]
  by_cases e : h1.length = a
  · subst e
    simp only [beq_self_eq_true, if_true]
    split at h1' <;> split <;> omega
  · have : (h1.length == a) = false := by simpa using e
    simp only [this, Bool.false_eq_true, if_false]
    split at h1' <;> split <;> omega

mutual
theorem Rep.alloc {h : Heap} {b : Bool} : {x : HV} → {v : Val} → {F : List Nat} → Rep h b x v F →
    ∃ G, Rep (x.alloc h).2 false (x.alloc h).1 v G ∧ Ext h (x.alloc h).2 ∧ Grow h F (x.alloc h).2 G
  | _, _, _, .none => ⟨_, .none, .refl _, .same _ _⟩
  | _, _, _, .bool _ => ⟨_, .bool _, .refl _, .same _ _⟩
  | _, _, _, .int _ => ⟨_, .int _, .refl _, .same _ _⟩
  | _, _, _, .str _ => ⟨_, .str _, .refl _, .same _ _⟩
  | _, _, _, .elem _ => ⟨_, .elem _, .refl _, .same _ _⟩
  | _, _, _, .tok _ _ => ⟨_, .tok _ _, .refl _, .same _ _⟩
  | _, _, _, .refL e hl => ⟨_, .refL e hl, .refl _, .same _ _⟩
  | _, _, _, .refD e hl => ⟨_, .refD e hl, .refl _, .same _ _⟩
  | _, _, _, .tup2 (x := x) (y := y) h1 h2 => by
    obtain ⟨G1, r1, e1, g1⟩ := h1.alloc
    obtain ⟨G2, r2, e2, g2⟩ := (h2.ext e1).alloc
    exact ⟨G1 ++ G2, .tup2 (r1.ext e2) r2, e1.trans e2, g1.append e1.le e2.le g2⟩
  | _, _, _, .list hl => by
    obtain ⟨G, r, e, g⟩ := hl.alloc
    refine ⟨_ :: G, .refL (l := (HV.allocL _ h).1) ?_ (r.ext ⟨_, rfl⟩), e.trans ⟨_, rfl⟩, g.push _ e.le⟩
    exact List.getElem?_concat_length
  | _, _, _, .dict hl => by
    obtain ⟨G, r, e, g⟩ := hl.alloc
    refine ⟨_ :: G, .refD (d := (HV.allocI _ h).1) ?_ (r.ext ⟨_, rfl⟩), e.trans ⟨_, rfl⟩, g.push _ e.le⟩
    exact List.getElem?_concat_length
theorem RepL.alloc {h : Heap} {b : Bool} : {x : List HV} → {v : List Val} → {F : List Nat} → RepL h b x v F →
    ∃ G, RepL (HV.allocL x h).2 false (HV.allocL x h).1 v G ∧ Ext h (HV.allocL x h).2 ∧ Grow h F (HV.allocL x h).2 G
  | _, _, _, .nil => ⟨_, .nil, .refl _, .same _ _⟩
  | _, _, _, .cons h1 h2 => by
    obtain ⟨G1, r1, e1, g1⟩ := h1.alloc
    obtain ⟨G2, r2, e2, g2⟩ := (h2.ext e1).alloc
    exact ⟨G1 ++ G2, .cons (r1.ext e2) r2, e1.trans e2, g1.append e1.le e2.le g2⟩
theorem RepI.alloc {h : Heap} {b : Bool} : {x : List (String × HV)} → {v : List (String × Val)} → {F : List Nat} →
    RepI h b x v F →
    ∃ G, RepI (HV.allocI x h).2 false (HV.allocI x h).1 v G ∧ Ext h (HV.allocI x h).2 ∧ Grow h F (HV.allocI x h).2 G
  | _, _, _, .nil => ⟨_, .nil, .refl _, .same _ _⟩
  | _, _, _, .cons h1 h2 => by
    obtain ⟨G1, r1, e1, g1⟩ := h1.alloc
    obtain ⟨G2, r2, e2, g2⟩ := (h2.ext e1).alloc
    exact ⟨G1 ++ G2, .cons (r1.ext e2) r2, e1.trans e2, g1.append e1.le e2.le g2⟩
end

end Pycep.Mem
