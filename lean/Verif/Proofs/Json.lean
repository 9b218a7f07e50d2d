import Verif.Spec.Json
import Verif.Props.Funcs
/-
Everything that is reported is plain data.
-/
namespace Pycep

/-- the reserved key -/
abbrev marker : String := "__child_resource__"

/-- only the reserved key may be forbidden -/
def Allows (K : String → Prop) : Prop := ∀ k, k ≠ marker → K k

/-- items of a plain dictionary -/
def JItems (K : String → Prop) (ps : List (String × Val)) : Prop :=
  (ps.map Prod.fst).Nodup ∧ ∀ p ∈ ps, K p.1 ∧ Json K p.2

section
variable {K : String → Prop}

theorem JItems.json {ps} (h : JItems K ps) : Json K (.dict ps) :=
  .dict h.1 (fun p hp => (h.2 p hp).1) (fun p hp => (h.2 p hp).2)

theorem Json.items {ps} (h : Json K (.dict ps)) : JItems K ps := by
  cases h with
  | dict h1 h2 h3 => exact ⟨h1, fun p hp => ⟨h2 p hp, h3 p hp⟩⟩

theorem jnil : JItems K [] := ⟨by simp, by simp⟩

theorem jcons {k v ps} (hk : k ∉ ps.map Prod.fst) (hK : K k) (hv : Json K v) (h : JItems K ps) :
    JItems K ((k, v) :: ps) :=
  ⟨by rw [List.map_cons, List.nodup_cons]; exact ⟨hk, h.1⟩, by
    intro p hp
    rcases List.mem_cons.mp hp with rfl | hp
    · exact ⟨hK, hv⟩
    · exact h.2 p hp⟩

theorem Json.listOf {l} (h : Json K (.list l)) : ∀ x ∈ l, Json K x := by cases h; assumption

theorem json_get {k d v} (h : Json K (.dict d)) (hg : dGet k d = some v) : Json K v := by
  have hm : ∃ p ∈ d, p.2 = v := by
    clear h
    induction d with
    | nil => simp [dGet] at hg
    | cons p d ih =>
      obtain ⟨a, w⟩ := p
      simp only [dGet] at hg
      split at hg
      · cases hg; exact ⟨_, List.mem_cons_self .., rfl⟩
      · obtain ⟨p, hp, h⟩ := ih hg; exact ⟨p, List.mem_cons_of_mem _ hp, h⟩
  obtain ⟨p, hp, rfl⟩ := hm
  exact (h.items.2 p hp).2

theorem dSet_keys (k : String) (v : Val) (d : List (String × Val)) :
    ∀ x, x ∈ (dSet k v d).map Prod.fst ↔ x = k ∨ x ∈ d.map Prod.fst := by
  intro x
  induction d with
  | nil => simp [dSet]
  | cons p d ih =>
    obtain ⟨a, w⟩ := p
    simp only [dSet]
    split
    · rename_i h
      subst h
      simp
    · rw [List.map_cons, List.mem_cons, ih]
      simp only [List.map_cons, List.mem_cons]
      tauto

theorem jset {k v d} (h : JItems K d) (hK : K k) (hv : Json K v) : JItems K (dSet k v d) := by
  induction d with
  | nil => exact jcons (by simp) hK hv jnil
  | cons p d ih =>
    obtain ⟨a, w⟩ := p
    obtain ⟨h1, h2⟩ := h
    rw [List.map_cons, List.nodup_cons] at h1
    have hd : JItems K d := ⟨h1.2, fun p hp => h2 p (List.mem_cons_of_mem _ hp)⟩
    have hp := h2 _ (List.mem_cons_self ..)
    simp only [dSet]
    split
    · rename_i h; subst h
      exact jcons h1.1 hK hv hd
    · rename_i h
      refine jcons ?_ hp.1 hp.2 (ih hd)
      rw [dSet_keys]
      rintro (h' | h')
      · exact h h'
      · exact h1.1 h'

theorem dErase_sub {k : String} {d : List (String × Val)} : (dErase k d).Sublist d := by
  induction d with
  | nil => exact .slnil
  | cons p d ih =>
    obtain ⟨a, w⟩ := p
    simp only [dErase]
    split
    · exact .cons _ (List.Sublist.refl _)
    · exact .cons_cons _ ih

theorem jerase {k d} (h : JItems K d) : JItems K (dErase k d) :=
  ⟨(dErase_sub.map _).nodup h.1, fun p hp => h.2 p (dErase_sub.subset hp)⟩

theorem jlastWins {ps : List (String × Val)} (h : ∀ p ∈ ps, K p.1 ∧ Json K p.2) : JItems K (lastWins ps) := by
  refine ⟨by rw [lastWins_keys]; exact nodup_eraseDups _, ?_⟩
  intro p hp
  unfold lastWins at hp
  obtain ⟨k, hk, rfl⟩ := List.mem_map.mp hp
  rw [List.mem_eraseDups] at hk
  obtain ⟨q, hq, rfl⟩ := List.mem_map.mp hk
  refine ⟨(h q hq).1, ?_⟩
  cases hl : ps.reverse.lookup q.1 with
  | none => exact .none
  | some v => exact (h _ (List.mem_reverse.mp (lookup_mem hl))).2

/-- keys of the last-wins dictionary that differ from one key -/
theorem jlastWins_erase {ps : List (String × Val)} {k : String} (h : ∀ p ∈ ps, p.1 ≠ k → K p.1 ∧ Json K p.2) :
    JItems K (dErase k (lastWins ps)) := by
  have hnd : ((lastWins ps).map Prod.fst).Nodup := by rw [lastWins_keys]; exact nodup_eraseDups _
  have hmem : ∀ p ∈ lastWins ps, p.1 ≠ k → K p.1 ∧ Json K p.2 := by
    intro p hp hne
    unfold lastWins at hp
    obtain ⟨k', hk, rfl⟩ := List.mem_map.mp hp
    rw [List.mem_eraseDups] at hk
    obtain ⟨q, hq, rfl⟩ := List.mem_map.mp hk
    refine ⟨(h q hq hne).1, ?_⟩
    cases hl : ps.reverse.lookup q.1 with
    | none => exact .none
    | some v => exact (h _ (List.mem_reverse.mp (lookup_mem hl)) hne).2
  have gen : ∀ d : List (String × Val), (d.map Prod.fst).Nodup → (∀ p ∈ d, p.1 ≠ k → K p.1 ∧ Json K p.2) →
      JItems K (dErase k d) := by
    intro d
    induction d with
    | nil => intro _ _; exact jnil
    | cons p d ih =>
      obtain ⟨a, w⟩ := p
      intro h1 h2
      rw [List.map_cons, List.nodup_cons] at h1
      simp only [dErase]
      split
      · rename_i h
        subst h
        refine ⟨h1.2, fun p hp => h2 p (List.mem_cons_of_mem _ hp) ?_⟩
        intro he
        rw [← he] at h1
        exact h1.1 (List.mem_map.mpr ⟨p, hp, rfl⟩)
      · rename_i h
        have := h2 _ (List.mem_cons_self ..) h
        refine jcons ?_ this.1 this.2 (ih h1.2 (fun p hp => h2 p (List.mem_cons_of_mem _ hp)))
        intro hm
        exact h1.1 ((dErase_sub.map _).subset hm)
  exact gen _ hnd hmem

theorem jlines (hK : Allows K) (ln : Bool) (l : Lines) : JItems K (lineItems ln l) := by
  unfold lineItems
  cases ln
  · exact jnil
  · exact jcons (by simp) (hK _ (by decide)) .int (jcons (by simp) (hK _ (by decide)) .int jnil)

theorem numbered_ne {pre : String} (h : pre.toList.isPrefixOf marker.toList = false) (n : Nat) :
    pre ++ toString n ≠ marker := by
  intro he
  have : pre.toList ++ (toString n).toList = marker.toList := by rw [← he, String.toList_append]
  have h' : pre.toList.isPrefixOf marker.toList = true := by
    rw [← this, List.isPrefixOf_iff_prefix]; exact List.prefix_append ..
  rw [h] at h'; cases h'

theorem numbered_keys (pre : String) (n : Nat) (vs : List Val) :
    ∀ k, k ∈ (numbered pre n vs).map Prod.fst → ∃ m, n ≤ m ∧ k = pre ++ toString m := by
  intro k
  induction vs generalizing n with
  | nil => simp [numbered]
  | cons v vs ih =>
    simp only [numbered, List.map_cons, List.mem_cons]
    rintro (rfl | h)
    · exact ⟨n, Nat.le_refl _, rfl⟩
    · obtain ⟨m, hm, rfl⟩ := ih _ h
      exact ⟨m, by omega, rfl⟩

theorem jnumbered (hK : Allows K) {pre : String} (h : pre.toList.isPrefixOf marker.toList = false) (n : Nat)
    {vs : List Val} (hv : ∀ v ∈ vs, Json K v) : JItems K (numbered pre n vs) := by
  induction vs generalizing n with
  | nil => exact jnil
  | cons v vs ih =>
    refine jcons ?_ (hK _ (numbered_ne h n)) (hv _ (List.mem_cons_self ..))
      (ih (n + 1) (fun v hv' => hv v (List.mem_cons_of_mem _ hv')))
    intro hm
    obtain ⟨m, hm, he⟩ := numbered_keys _ _ _ _ hm
    have := pre_toString_inj he
    omega

/-! ### Functions and decorators -/

theorem rest_keys_ne {pre : String} (h : pre.toList.isPrefixOf marker.toList = false) (a i m : Nat) :
    ∀ q ∈ Signature.rest pre a i m, q.1 ≠ marker := by
  induction m generalizing a i with
  | zero => simp [Signature.rest]
  | succ m ih =>
    intro q hq
    rw [Signature.rest] at hq
    rcases List.mem_cons.mp hq with rfl | hq
    · exact numbered_ne h a
    · exact ih _ _ q hq

/-- the keys of reported parameters -/
theorem report_keys : ∀ s ∈ signatures, ∀ args ps, s.report args = .params ps → ∀ q ∈ ps, q.1 ≠ marker := by
  have hfi : ∀ ks : List String, marker ∉ ks → ∀ i, ∀ q ∈ Signature.firsts i ks, q.1 ≠ marker := by
    intro ks hk i q hq he
    have := List.mem_map_of_mem (f := Prod.fst) hq
    rw [firsts_keys, he] at this
    exact hk this
  have hgi : ∀ ks : List String, marker ∉ ks → ∀ m i, ∀ q ∈ Signature.given m i ks, q.1 ≠ marker := by
    intro ks hk m i q hq he
    have := List.mem_map_of_mem (f := Prod.fst) hq
    rw [given_keys, he] at this
    exact hk this
  have c1 : ∀ ks, marker ∉ ks → ∀ vs ps, Signature.atLeast ks vs = .params ps → ∀ q ∈ ps, q.1 ≠ marker := by
    intro ks hk vs ps hr; unfold Signature.atLeast at hr; split at hr <;> cases hr; exact hfi _ hk _
  have c2 : ∀ ks, marker ∉ ks → ∀ vs ps, Signature.exactly ks vs = .params ps → ∀ q ∈ ps, q.1 ≠ marker := by
    intro ks hk vs ps hr; unfold Signature.exactly at hr; split at hr <;> cases hr; exact hfi _ hk _
  have c3 : ∀ r ks, marker ∉ ks → ∀ vs ps, Signature.someOf r ks vs = .params ps → ∀ q ∈ ps, q.1 ≠ marker := by
    intro r ks hk vs ps hr; unfold Signature.someOf at hr; split at hr <;> cases hr; exact hgi _ hk _ _
  have c4 : ∀ ks pre st, marker ∉ ks → pre.toList.isPrefixOf marker.toList = false → ∀ vs ps,
      Signature.variadic ks pre st vs = .params ps → ∀ q ∈ ps, q.1 ≠ marker := by
    intro ks pre st hk hpre vs ps hr q hq; unfold Signature.variadic at hr; split at hr <;> cases hr
    rcases List.mem_append.mp hq with hq | hq
    · exact hfi _ hk _ q hq
    · exact rest_keys_ne hpre _ _ _ q hq
  have c5 : ∀ vs ps, Signature.bare vs = .params ps → ∀ q ∈ ps, q.1 ≠ marker := by intro vs ps hr; cases hr
  have c6 : ∀ ks, marker ∉ ks → ∀ vs ps, Signature.upToThree ks vs = .params ps → ∀ q ∈ ps, q.1 ≠ marker := by
    intro ks hk vs ps hr; unfold Signature.upToThree at hr; split at hr <;> cases hr; exact hgi _ hk _ _
  have c7 : ∀ vs ps, Signature.pickZones vs = .params ps → ∀ q ∈ ps, q.1 ≠ marker := by
    intro vs ps hr; unfold Signature.pickZones at hr; split at hr <;> cases hr
    exact hgi _ (by decide) _ _
  have c8 : ∀ vs ps, Signature.listKeys vs = .params ps → ∀ q ∈ ps, q.1 ≠ marker := by
    intro vs ps hr; unfold Signature.listKeys at hr; split at hr <;> cases hr; decide
  have c9 : ∀ vs ps, Signature.resourceId vs = .params ps → ∀ q ∈ ps, q.1 ≠ marker := by
    intro vs ps hr; unfold Signature.resourceId at hr
    split at hr <;> cases hr
    · decide
    · decide
    · decide
    · intro q hq
      simp only [List.cons_append, List.mem_cons, List.mem_append, List.not_mem_nil, or_false] at hq
      rcases hq with rfl | hq | rfl | rfl
      · decide
      · exact rest_keys_ne (by decide) _ _ _ q hq
      · decide
      · decide
  have c10 : ∀ vs ps, Signature.subscriptionResourceId vs = .params ps → ∀ q ∈ ps, q.1 ≠ marker := by
    intro vs ps hr; unfold Signature.subscriptionResourceId at hr
    split at hr <;> cases hr <;> decide
  have c11 : ∀ vs ps, Signature.resourceGroup vs = .params ps → ∀ q ∈ ps, q.1 ≠ marker := by
    intro vs ps hr; unfold Signature.resourceGroup at hr
    split at hr
    · cases hr; decide
    · split at hr <;> cases hr <;> decide
    · cases hr; decide
  simp only [signatures, List.forall_mem_cons, List.not_mem_nil, false_implies, implies_true, and_true]
  repeat' apply And.intro
  all_goals first
    | exact c1 _ (by decide) | exact c2 _ (by decide) | exact c3 _ _ (by decide)
    | exact c4 _ _ _ (by decide) (by decide) | exact c5
    | exact c6 _ (by decide) | exact c7 | exact c8 | exact c9 | exact c10 | exact c11

theorem json_function (hK : Allows K) {f : String} {vs : List Val} {y : Val} (hv : ∀ v ∈ vs, Json K v)
    (h : Functions.getFunction f f vs = .ok y) : Json K y := by
  have hf := funVal_iff.mp h
  cases hf with
  | @known s ps hs _ hr =>
    refine (jcons (by simp) (hK _ (by decide)) .str (jcons (by simp) (hK _ (by decide)) ?_ jnil)).json
    refine JItems.json ⟨?_, ?_⟩
    · rw [List.map_map]
      exact report_distinct s hs vs ps hr
    · intro p hp
      obtain ⟨q, hq, rfl⟩ := List.mem_map.mp hp
      refine ⟨hK _ (report_keys s hs vs ps hr q hq), ?_⟩
      obtain ⟨k, src⟩ := q
      cases src with
      | arg i =>
        simp only [Src.val]
        cases hi : vs[i]? with
        | none => exact .none
        | some x => exact hv _ (List.mem_of_getElem? hi)
      | absent => exact .none
      | text s => exact .str
  | bare => exact (jcons (by simp) (hK _ (by decide)) .str jnil).json
  | unknown =>
    exact (jcons (by simp) (hK _ (by decide)) .str (jcons (by simp) (hK _ (by decide))
      (jnumbered hK (by decide) 1 hv).json jnil)).json

theorem json_minValArg {a y : Val} (ha : Json K a) (h : Decorators.minValArg a = .ok y) : Json K y := by
  unfold Decorators.minValArg at h
  split at h
  · rename_i d
    obtain ⟨o, ho, h⟩ := bind_ok' h
    obtain ⟨t, ht, h⟩ := bind_ok' h
    split at h
    · obtain ⟨ops, hops, h⟩ := bind_ok' h
      obtain ⟨n, hn, h⟩ := bind_ok' h
      cases n <;> simp only [mulNegOne] at h <;> cases h
      · exact .int
      · exact .int
      · exact .str
      · exact .str
      · exact .str
      · exact .list (by simp)
    · cases h; exact ha
  · cases h; exact ha

theorem json_ddata (hK : Allows K) {t : String} {a : Val} (ha : Json K a) : Json K (Decorators.ddata t a) :=
  (jcons (by simp) (hK _ (by decide)) .str (jcons (by simp) (hK _ (by decide)) ha jnil)).json

theorem json_decorator (hK : Allows K) {d : String} {vs : List Val} {y : Val} (hv : ∀ v ∈ vs, Json K v)
    (h : Decorators.getDecorator d d vs = .ok y) : Json K y := by
  have hflag : ∀ t : String, Json K (.dict [("type", .str t)]) := fun t =>
    (jcons (by simp) (hK _ (by decide)) .str jnil).json
  have key : ∀ e ∈ Decorators.DECORATORS, ∀ n y, e.2 n vs = .ok y → Json K y := by
    have c2 : ∀ n y, Decorators.deco_min_val n vs = .ok y → Json K y := by
      intro n y h
      unfold Decorators.deco_min_val at h
      cases vs with
      | nil => cases h
      | cons a vs =>
        simp only at h
        cases hm : Decorators.minValArg a with
        | error e => rw [hm] at h; cases h
        | ok x =>
          rw [hm] at h
          cases h
          exact json_ddata hK (json_minValArg (hv _ (List.mem_cons_self ..)) hm)
    have c3 : ∀ n y, Decorators.deco_max_val n vs = .ok y → Json K y := by
      intro n y h
      unfold Decorators.deco_max_val at h
      cases vs with
      | nil => cases h
      | cons a vs =>
        simp only at h
        have : ∀ (a x : Val), pyInt a = .ok x → Json K x := by
          intro a x hx
          cases a <;> simp only [pyInt] at hx
          case bool => cases hx; exact .int
          case int => cases hx; exact .int
          case str s => cases hi : intOfStr s <;> rw [hi] at hx <;> cases hx; exact .int
          case elem s => cases hi : intOfStr s <;> rw [hi] at hx <;> cases hx; exact .int
          case tok _ s => cases hi : intOfStr s <;> rw [hi] at hx <;> cases hx; exact .int
          all_goals cases hx
        cases hm : pyInt a with
        | error e => rw [hm] at h; cases h
        | ok x =>
          rw [hm] at h
          cases h
          exact json_ddata hK (this a x hm)
    simp only [Decorators.DECORATORS, List.forall_mem_cons, List.not_mem_nil, false_implies, implies_true, and_true]
    repeat' apply And.intro
    all_goals first
      | exact c2 | exact c3
      | (intro n y h; cases h; exact hflag _)
      | (intro n y h
         cases vs with
         | nil => cases h
         | cons a vs => cases h; exact json_ddata hK (hv _ (List.mem_cons_self ..)))
  unfold Decorators.getDecorator at h
  cases hg : Decorators.DECORATORS.lookup d with
  | some g =>
    rw [hg] at h
    exact key _ (lookup_mem hg) d y h
  | none =>
    rw [hg] at h
    unfold Decorators.unknown_deco at h
    cases vs with
    | nil => cases h; exact hflag _
    | cons a vs => cases h; exact json_ddata hK (hv _ (List.mem_cons_self ..))

/-! ### Expressions -/

theorem json_op (hK : Allows K) {t : String} {ps} (h : JItems K ps) : Json K (opVal t ps) :=
  (jcons (by simp) (hK _ (by decide)) (jcons (by simp) (hK _ (by decide)) .str
    (jcons (by simp) (hK _ (by decide)) h.json jnil)).json jnil).json

theorem json_loopCondition {c y : Val} (hc : Json K c) (h : loopCondition c = .ok y) : Json K y := by
  unfold loopCondition at h
  split at h
  · rename_i d
    obtain ⟨f, hf, h⟩ := bind_ok' h
    obtain ⟨t, ht, h⟩ := bind_ok' h
    split at h
    · obtain ⟨ps, hps, h⟩ := bind_ok' h
      have jf : Json K f := by
        simp only [Val.getOrEmpty] at hf
        cases hg : dGet "function" d with
        | none => rw [hg] at hf; cases hf; exact jnil.json
        | some x => rw [hg] at hf; cases hf; exact json_get hc hg
      have item : ∀ {v : Val} {k x}, Json K v → v.item k = .ok x → Json K x := by
        intro v k x hv hx
        unfold Val.item at hx
        split at hx
        · split at hx
          · cases hx; exact json_get hv (by assumption)
          · cases hx
        · cases hx
      exact item (item jf hps) h
    · cases h; exact hc
  · cases h; exact hc

mutual
theorem json_expr (hK : Allows K) {ln : Bool} : (e : Expr) → {v : Val} → e.Keys K → e.val ln = .ok v → Json K v
  | .null, v, _, h => by rw [Expr.val] at h; cases h; exact .none
  | .tru, v, _, h => by rw [Expr.val] at h; cases h; exact .bool
  | .fls, v, _, h => by rw [Expr.val] at h; cases h; exact .bool
  | .int d, v, _, h => by rw [Expr.val] at h; split at h <;> cases h; exact .int
  | .ident x, v, _, h => by rw [Expr.val] at h; cases h; exact .elem
  | .str b, v, _, h => by rw [Expr.val] at h; cases h; exact .str
  | .multi b, v, _, h => by rw [Expr.val] at h; cases h; exact .str
  | .array es, v, hk, h => by
    rw [Expr.Keys] at hk
    rw [Expr.val] at h
    obtain ⟨vs, hvs, h⟩ := bind_ok' h
    cases h
    exact .list (json_exprs hK es hk hvs)
  | .object is, v, hk, h => by
    rw [Expr.Keys] at hk
    rw [Expr.val] at h
    obtain ⟨vs, hvs, h⟩ := bind_ok' h
    cases h
    exact (jlastWins (json_items hK is hk hvs)).json
  | .call f es, v, hk, h => by
    rw [Expr.Keys] at hk
    rw [Expr.val] at h
    obtain ⟨vs, hvs, h⟩ := bind_ok' h
    obtain ⟨data, hd, h⟩ := bind_ok' h
    cases h
    exact (jcons (by simp) (hK _ (by decide))
      (json_function hK (json_exprs hK es hk hvs) (inRule_ok hd)) jnil).json
  | .bin op a b, v, hk, h => by
    rw [Expr.Keys] at hk
    rw [Expr.val] at h
    obtain ⟨x, hx, h⟩ := bind_ok' h
    obtain ⟨y, hy, h⟩ := bind_ok' h
    cases h
    exact json_op hK (jcons (by simp) (hK _ (by decide)) (json_expr hK a hk.1 hx)
      (jcons (by simp) (hK _ (by decide)) (json_expr hK b hk.2 hy) jnil))
  | .not a, v, hk, h => by
    rw [Expr.Keys] at hk
    rw [Expr.val] at h
    obtain ⟨x, hx, h⟩ := bind_ok' h
    cases h
    exact json_op hK (jcons (by simp) (hK _ (by decide)) (json_expr hK a hk hx) jnil)
  | .minus a, v, hk, h => by
    rw [Expr.Keys] at hk
    rw [Expr.val] at h
    obtain ⟨x, hx, h⟩ := bind_ok' h
    cases h
    exact json_op hK (jcons (by simp) (hK _ (by decide)) (json_expr hK a hk hx) jnil)
  | .cond c t f, v, hk, h => by
    rw [Expr.Keys] at hk
    rw [Expr.val] at h
    obtain ⟨x, hx, h⟩ := bind_ok' h
    obtain ⟨y, hy, h⟩ := bind_ok' h
    obtain ⟨z, hz, h⟩ := bind_ok' h
    cases h
    exact json_op hK (jcons (by simp) (hK _ (by decide)) (json_expr hK c hk.1 hx)
      (jcons (by simp) (hK _ (by decide)) (json_expr hK t hk.2.1 hy)
        (jcons (by simp) (hK _ (by decide)) (json_expr hK f hk.2.2 hz) jnil)))
  | .method a f es, v, hk, h => by
    rw [Expr.Keys] at hk
    rw [Expr.val] at h
    obtain ⟨x, hx, h⟩ := bind_ok' h
    obtain ⟨vs, hvs, h⟩ := bind_ok' h
    cases h
    have hn : JItems K (numbered "operand_" 2 vs) := jnumbered hK (by decide) 2 (json_optExprs hK es hk.2 hvs)
    have hfs : (List.filter (fun p => p.2.truthy) (numbered "operand_" 2 vs)).Sublist (numbered "operand_" 2 vs) :=
      List.filter_sublist
    have hf : JItems K (List.filter (fun p => p.2.truthy) (numbered "operand_" 2 vs)) :=
      ⟨(hfs.map _).nodup hn.1, fun p hp => hn.2 p (hfs.subset hp)⟩
    have hne : ∀ k, k ∈ (List.filter (fun p => p.2.truthy) (numbered "operand_" 2 vs)).map Prod.fst →
        ∃ m, 2 ≤ m ∧ k = "operand_" ++ toString m := fun k hk =>
      numbered_keys _ _ _ _ ((hfs.map _).subset hk)
    refine json_op hK (jcons ?_ (hK _ (by decide)) (json_expr hK a hk.1 hx)
      (jcons ?_ (hK _ (by decide)) .str hf))
    · rw [List.map_cons, List.mem_cons]
      rintro (h | h)
      · simp at h
      · obtain ⟨m, hm, he⟩ := hne _ h
        have h1 : ("operand_1" : String) = "operand_" ++ toString 1 := by decide
        rw [h1] at he
        have := pre_toString_inj he
        omega
    · intro h
      obtain ⟨m, hm, he⟩ := hne _ h
      have := congrArg String.toList he
      rw [String.toList_append] at this
      have h2 : "operand_".toList.isPrefixOf "func_name".toList = true := by
        rw [this, List.isPrefixOf_iff_prefix]; exact List.prefix_append ..
      revert h2; decide
  | .lambda x e, v, hk, h => by
    rw [Expr.Keys] at hk
    rw [Expr.val] at h
    obtain ⟨x, hx, h⟩ := bind_ok' h
    obtain ⟨b, hb, h⟩ := bind_ok' h
    cases h
    exact (jcons (by simp) (hK _ (by decide)) .str (jcons (by simp) (hK _ (by decide))
      (jcons (by simp) (hK _ (by decide)) .str
        (jcons (by simp) (hK _ (by decide)) (json_expr hK e hk.2 hb) jnil)).json jnil)).json
  | .lambdaN v1 v2 v3 vs e, v, hk, h => by
    rw [Expr.Keys] at hk
    rw [Expr.val] at h
    obtain ⟨x1, hx1, h⟩ := bind_ok' h
    obtain ⟨x2, hx2, h⟩ := bind_ok' h
    obtain ⟨x3, hx3, h⟩ := bind_ok' h
    obtain ⟨xs, hxs, h⟩ := bind_ok' h
    obtain ⟨b, hb, h⟩ := bind_ok' h
    cases h
    have hn : JItems K (numbered "var_" 1 ((x1 :: x2 :: x3 :: xs).map (fun x => Val.str x.pyStr))) :=
      jnumbered hK (by decide) 1 (by
        intro v hv
        obtain ⟨_, _, rfl⟩ := List.mem_map.mp hv
        exact .str)
    have hne : "expression" ∉ (numbered "var_" 1 ((x1 :: x2 :: x3 :: xs).map (fun x => Val.str x.pyStr))).map Prod.fst := by
      intro h
      obtain ⟨m, hm, he⟩ := numbered_keys _ _ _ _ h
      have := congrArg String.toList he
      rw [String.toList_append] at this
      have h2 : "var_".toList.isPrefixOf "expression".toList = true := by
        rw [this, List.isPrefixOf_iff_prefix]; exact List.prefix_append ..
      revert h2; decide
    refine (jcons (by simp) (hK _ (by decide)) .str (jcons (by simp) (hK _ (by decide)) (JItems.json ?_) jnil)).json
    refine ⟨?_, ?_⟩
    · rw [List.map_append, List.nodup_append]
      refine ⟨hn.1, by simp, ?_⟩
      intro a ha b hb he
      subst he
      simp only [List.map_cons, List.map_nil, List.mem_singleton] at hb
      subst hb
      exact hne ha
    · intro p hp
      rcases List.mem_append.mp hp with hp | hp
      · exact hn.2 p hp
      · rw [List.mem_singleton] at hp
        subst hp
        exact ⟨hK "expression" (by decide), json_expr hK e hk.2.2.2.2 hb⟩
theorem json_exprs (hK : Allows K) {ln : Bool} : (es : List Expr) → {vs : List Val} → Expr.KeysL K es →
    Expr.vals ln es = .ok vs → ∀ v ∈ vs, Json K v
  | [], vs, _, h => by rw [Expr.vals] at h; cases h; simp
  | e :: es, vs, hk, h => by
    rw [Expr.KeysL] at hk
    rw [Expr.vals] at h
    obtain ⟨x, hx, h⟩ := bind_ok' h
    obtain ⟨xs, hxs, h⟩ := bind_ok' h
    cases h
    intro v hv
    rcases List.mem_cons.mp hv with rfl | hv
    · exact json_expr hK e hk.1 hx
    · exact json_exprs hK es hk.2 hxs v hv
theorem json_optExpr (hK : Allows K) {ln : Bool} : (e : Option Expr) → {v : Val} → Expr.KeysOpt K e →
    Expr.optVal ln e = .ok v → Json K v
  | .none, v, _, h => by rw [Expr.optVal] at h; cases h; exact .none
  | some e, v, hk, h => by
    rw [Expr.KeysOpt] at hk
    rw [Expr.optVal] at h
    exact json_expr hK e hk h
theorem json_optExprs (hK : Allows K) {ln : Bool} : (es : List (Option Expr)) → {vs : List Val} → Expr.KeysO K es →
    Expr.optVals ln es = .ok vs → ∀ v ∈ vs, Json K v
  | [], vs, _, h => by rw [Expr.optVals] at h; cases h; simp
  | e :: es, vs, hk, h => by
    rw [Expr.KeysO] at hk
    rw [Expr.optVals] at h
    obtain ⟨x, hx, h⟩ := bind_ok' h
    obtain ⟨xs, hxs, h⟩ := bind_ok' h
    cases h
    intro v hv
    rcases List.mem_cons.mp hv with rfl | hv
    · exact json_optExpr hK e hk.1 hx
    · exact json_optExprs hK es hk.2 hxs v hv
theorem json_item (hK : Allows K) {ln : Bool} : (i : Item) → {p : String × Val} → i.Keys K →
    i.val ln = .ok p → K p.1 ∧ Json K p.2
  | .pair k e, p, hk, h => by
    rw [Item.Keys] at hk
    rw [Item.val] at h
    obtain ⟨x, hx, h⟩ := bind_ok' h
    cases h
    exact ⟨hk.1, json_expr hK e hk.2 hx⟩
  | .pairLoop k l, p, hk, h => by
    rw [Item.Keys] at hk
    rw [Item.val] at h
    obtain ⟨x, hx, h⟩ := bind_ok' h
    cases h
    exact ⟨hk.1, json_loop hK l hk.2 hx⟩
  | .child l n t ex c, p, hk, h => by
    rw [Item.Keys] at hk
    rw [Item.val] at h
    obtain ⟨x, hx, h⟩ := bind_ok' h
    cases h
    refine ⟨hk.1, ?_⟩
    have hc := json_config hK c hk.2 hx
    have hl := jlines hK ln (l.1, l.2 - 1)
    refine (jcons (by simp) (hK _ (by decide)) .str (jcons (by simp) (hK _ (by decide)) (JItems.json ?_) jnil)).json
    refine jcons ?_ (hK _ (by decide)) (.list (by simp)) (jcons ?_ (hK _ (by decide)) .str
      (jcons ?_ (hK _ (by decide)) .str (jcons ?_ (hK _ (by decide)) .bool (jcons ?_ (hK _ (by decide)) hc hl)))) <;>
    cases ln <;> simp [lineItems]
theorem json_items (hK : Allows K) {ln : Bool} : (is : List Item) → {ps : List (String × Val)} → Item.KeysL K is →
    Item.vals ln is = .ok ps → ∀ p ∈ ps, K p.1 ∧ Json K p.2
  | [], ps, _, h => by rw [Item.vals] at h; cases h; simp
  | i :: is, ps, hk, h => by
    rw [Item.KeysL] at hk
    rw [Item.vals] at h
    obtain ⟨x, hx, h⟩ := bind_ok' h
    obtain ⟨xs, hxs, h⟩ := bind_ok' h
    cases h
    intro v hv
    rcases List.mem_cons.mp hv with rfl | hv
    · exact json_item hK i hk.1 hx
    · exact json_items hK is hk.2 hxs v hv
theorem json_loop (hK : Allows K) {ln : Bool} : (l : Loop) → {v : Val} → l.Keys K → l.val ln = .ok v → Json K v
  | .mk hd c b, v, hk, h => by
    rw [Loop.Keys] at hk
    rw [Loop.val] at h
    obtain ⟨x, hx, h⟩ := bind_ok' h
    obtain ⟨y, hy, h⟩ := bind_ok' h
    obtain ⟨z, hz, h⟩ := bind_ok' h
    obtain ⟨y', hy', h⟩ := bind_ok' h
    cases h
    exact (jcons (by simp) (hK _ (by decide)) (json_head hK hd hk.1 hx)
      (jcons (by simp) (hK _ (by decide)) (json_loopCondition (json_optExpr hK c hk.2.1 hy) (inRule_ok hy'))
      (jcons (by simp) (hK _ (by decide)) (json_expr hK b hk.2.2 hz) jnil))).json
theorem json_head (hK : Allows K) {ln : Bool} : (l : LoopHead) → {v : Val} → l.Keys K → l.val ln = .ok v → Json K v
  | .arr x e, v, hk, h => by
    rw [LoopHead.Keys] at hk
    rw [LoopHead.val] at h
    obtain ⟨y, hy, h⟩ := bind_ok' h
    cases h
    exact (jcons (by simp) (hK _ (by decide)) .str (jcons (by simp) (hK _ (by decide))
      (jcons (by simp) (hK _ (by decide)) .str (jcons (by simp) (hK _ (by decide)) (json_expr hK e hk hy) jnil)).json
      jnil)).json
  | .arrIdx x i e, v, hk, h => by
    rw [LoopHead.Keys] at hk
    rw [LoopHead.val] at h
    obtain ⟨y, hy, h⟩ := bind_ok' h
    cases h
    exact (jcons (by simp) (hK _ (by decide)) .str (jcons (by simp) (hK _ (by decide))
      (jcons (by simp) (hK _ (by decide)) .str (jcons (by simp) (hK _ (by decide)) .str
        (jcons (by simp) (hK _ (by decide)) (json_expr hK e hk hy) jnil))).json
      jnil)).json
  | .obj x e, v, hk, h => by
    rw [LoopHead.Keys] at hk
    rw [LoopHead.val] at h
    obtain ⟨y, hy, h⟩ := bind_ok' h
    cases h
    exact (jcons (by simp) (hK _ (by decide)) .str (jcons (by simp) (hK _ (by decide))
      (jcons (by simp) (hK _ (by decide)) .str (jcons (by simp) (hK _ (by decide)) .str jnil)).json
      jnil)).json
theorem json_config (hK : Allows K) {ln : Bool} : (c : Config) → {v : Val} → c.Keys K → c.val ln = .ok v → Json K v
  | .obj is, v, hk, h => by
    rw [Config.Keys] at hk
    rw [Config.val] at h
    obtain ⟨vs, hvs, h⟩ := bind_ok' h
    cases h
    exact (jlastWins (json_items hK is hk hvs)).json
  | .loop l, v, hk, h => by
    rw [Config.Keys] at hk
    rw [Config.val] at h
    exact json_loop hK l hk h
  | .cond c e, v, hk, h => by
    rw [Config.Keys] at hk
    rw [Config.val] at h
    obtain ⟨x, hx, h⟩ := bind_ok' h
    obtain ⟨y, hy, h⟩ := bind_ok' h
    cases h
    exact (jcons (by simp) (hK _ (by decide)) (json_expr hK c hk.1 hx)
      (jcons (by simp) (hK _ (by decide)) (json_expr hK e hk.2 hy) jnil)).json
end

theorem json_decos (hK : Allows K) {ln : Bool} {ds : List Deco} {vs : List Val} (hk : ∀ d ∈ ds, d.Keys K)
    (h : decoVals ln ds = .ok vs) : ∀ v ∈ vs, Json K v := by
  induction ds generalizing vs with
  | nil => rw [decoVals] at h; cases h; simp
  | cons d ds ih =>
    rw [decoVals] at h
    obtain ⟨x, hx, h⟩ := bind_ok' h
    obtain ⟨xs, hxs, h⟩ := bind_ok' h
    cases h
    intro v hv
    rcases List.mem_cons.mp hv with rfl | hv
    · have hd := hk _ (List.mem_cons_self ..)
      unfold Deco.Keys at hd
      unfold Deco.val at hx
      obtain ⟨name, arg⟩ := d
      cases arg with
      | none =>
        simp only [bind, Except.bind] at hx
        exact json_decorator hK (by simp) (inRule_ok hx)
      | some e =>
        simp only at hx
        obtain ⟨a, ha, hx⟩ := bind_ok' hx
        rw [Expr.KeysOpt] at hd
        refine json_decorator hK ?_ (inRule_ok hx)
        intro v hv
        rw [List.mem_singleton] at hv
        subst hv
        exact json_expr hK e hd ha
    · exact ih (fun d hd => hk d (List.mem_cons_of_mem _ hd)) hxs v hv

/-! ### Data types -/

theorem json_arrayOf (hK : Allows K) {v : Val} (h : Json K v) : ∀ n, Json K (arrayOf n v)
  | 0 => h
  | n + 1 => (jcons (by simp) (hK _ (by decide)) .str
      (jcons (by simp) (hK _ (by decide)) (json_arrayOf hK h n) jnil)).json

mutual
theorem json_type (hK : Allows K) : (d : DataType) → Json K d.val
  | .mk b n => by rw [DataType.val]; exact json_arrayOf hK (json_base hK b) n
theorem json_base (hK : Allows K) : (b : BaseType) → Json K b.val
  | .name x => by rw [BaseType.val]; exact .str
  | .union d1 d2 ds => by
    rw [BaseType.val]
    refine (jcons (by simp) (hK _ (by decide)) .str (jcons (by simp) (hK _ (by decide)) (.list ?_) jnil)).json
    intro v hv
    rcases List.mem_cons.mp hv with rfl | hv
    · exact json_type hK d1
    · rcases List.mem_cons.mp hv with rfl | hv
      · exact json_type hK d2
      · exact json_types hK ds v hv
theorem json_types (hK : Allows K) : (ds : List DataType) → ∀ v ∈ DataType.vals ds, Json K v
  | [] => by rw [DataType.vals]; simp
  | d :: ds => by
    rw [DataType.vals]
    intro v hv
    rcases List.mem_cons.mp hv with rfl | hv
    · exact json_type hK d
    · exact json_types hK ds v hv
end

/-! ### Module references -/

theorem json_module (hK : Allows K) {fp : String} {v : Val} (h : classifyModulePath fp = .ok v) : Json K v := by
  have gr : ∀ n gs, Json K (group n gs) := fun _ _ => .str
  have d : ∀ t x, Json K x → Json K (.dict [("type", .str t), ("detail", x)]) := fun t x hx =>
    (jcons (by simp) (hK _ (by decide)) .str (jcons (by simp) (hK _ (by decide)) hx jnil)).json
  unfold classifyModulePath at h
  split at h
  · split at h
    · cases h
      exact d _ _ (jcons (by simp) (hK _ (by decide)) .str (jcons (by simp) (hK _ (by decide)) .str
        (jcons (by simp) (hK _ (by decide)) (gr _ _) (jcons (by simp) (hK _ (by decide)) (gr _ _)
          (jcons (by simp) (hK _ (by decide)) .bool jnil))))).json
    · split at h
      · cases h
        exact d _ _ (jcons (by simp) (hK _ (by decide)) .str (jcons (by simp) (hK _ (by decide)) (gr _ _)
          (jcons (by simp) (hK _ (by decide)) (gr _ _) (jcons (by simp) (hK _ (by decide)) (gr _ _)
            (jcons (by simp) (hK _ (by decide)) .bool jnil))))).json
      · cases h
  · split at h
    · split at h
      · cases h
      · cases h
        exact d _ _ (jcons (by simp) (hK _ (by decide)) .str (jcons (by simp) (hK _ (by decide)) (gr _ _)
          (jcons (by simp) (hK _ (by decide)) (gr _ _) (jcons (by simp) (hK _ (by decide)) (gr _ _)
            (jcons (by simp) (hK _ (by decide)) .bool jnil))))).json
    · split at h
      · split at h
        · cases h
        · cases h
          exact d _ _ (jcons (by simp) (hK _ (by decide)) .str (jcons (by simp) (hK _ (by decide)) (gr _ _)
            (jcons (by simp) (hK _ (by decide)) (gr _ _) (jcons (by simp) (hK _ (by decide)) (gr _ _)
              (jcons (by simp) (hK _ (by decide)) (gr _ _) jnil))))).json
      · split at h
        · split at h
          · cases h
          · cases h
            exact d _ _ (jcons (by simp) (hK _ (by decide)) .str (jcons (by simp) (hK _ (by decide)) (gr _ _)
              (jcons (by simp) (hK _ (by decide)) (gr _ _) (jcons (by simp) (hK _ (by decide)) (gr _ _) jnil)))).json
        · cases h
          exact d _ _ (jcons (by simp) (hK _ (by decide)) .str (jcons (by simp) (hK _ (by decide)) .str jnil)).json

theorem json_item_get {v : Val} {k : String} {x : Val} (hv : Json K v) (hx : v.item k = .ok x) : Json K x := by
  unfold Val.item at hx
  split at hx
  · split at hx
    · cases hx; exact json_get hv (by assumption)
    · cases hx
  · cases hx

/-! ### Declarations -/

/-- an entry with plain attributes -/
def JEntry (K : String → Prop) (e : Entry) : Prop := K e.sec ∧ K e.name ∧ JItems K e.attrs

/-- all entries of a contribution are plain -/
def JOut (K : String → Prop) (o : Out) : Prop := ∀ e ∈ o.own ++ o.imports ++ o.children, JEntry K e

theorem jout_own {e : Entry} (h : JEntry K e) : JOut K { own := [e] } := by
  intro e' he
  simp at he
  subst he; exact h

theorem jalias (hK : Allows K) (a : Option Ident) (ln : Bool) (l : Lines) :
    JItems K (aliasItem a ++ lineItems ln l) := by
  cases a with
  | none => exact jlines hK ln l
  | some x => exact jcons (by cases ln <;> simp [lineItems]) (hK _ (by decide)) .str (jlines hK ln l)

theorem jtypeItem (hK : Allows K) (a : Option DataType) (ln : Bool) (l : Lines) :
    JItems K (typeItem a ++ lineItems ln l) := by
  cases a with
  | none => exact jlines hK ln l
  | some x => exact jcons (by cases ln <;> simp [lineItems]) (hK _ (by decide)) (json_type hK x) (jlines hK ln l)

theorem json_decl (hK : Allows K) {R : Config → Prop} {ln : Bool} {l : Lines} {d : Decl} {o : Out}
    (hR : ∀ ds x b ex c, K (txt x.1) → (∀ d ∈ ds, d.Keys K) → R c →
      (Decl.resource ds x b ex c).out ln l = .ok o → JOut K o)
    (hk : d.Keys K R) (h : d.out ln l = .ok o) : JOut K o := by
  have hl := jlines hK ln l
  cases d with
  | scope b =>
    rw [Decl.out] at h
    split at h <;> cases h
    exact jout_own ⟨hK "globals" (by decide), hK "scope" (by decide),
      jcons (by cases ln <;> simp [lineItems]) (hK _ (by decide)) .str hl⟩
  | importNs b =>
    rw [Decl.out] at h
    cases h
    intro e he
    simp at he
    subst he
    exact ⟨hK "imports" (by decide), hk, jnil⟩
  | importFrom i is b =>
    rw [Decl.out] at h
    cases h
    intro e he
    simp only [List.nil_append, List.append_nil] at he
    obtain ⟨j, hj, rfl⟩ := List.mem_map.mp he
    refine ⟨hK "imports" (by decide), hk j hj, jcons ?_ (hK _ (by decide)) .str (jalias hK j.alias ln l)⟩
    cases j.alias <;> cases ln <;> simp [lineItems, aliasItem]
  | extension x is a =>
    rw [Decl.out] at h
    obtain ⟨c, hc, h⟩ := bind_ok' h
    cases h
    have ha := jalias hK a ln l
    refine jout_own ⟨hK "extensions" (by decide), hk.1, ?_⟩
    cases is with
    | none => rw [configItem] at hc; cases hc; exact ha
    | some is =>
      rw [configItem] at hc
      obtain ⟨ps, hps, hc⟩ := bind_ok' hc
      cases hc
      split
      · exact ha
      · exact jcons (by cases a <;> cases ln <;> simp [lineItems, aliasItem]) (hK _ (by decide))
          (jlastWins (json_items hK is (hk.2 is rfl) hps)).json ha
  | metadata x b =>
    rw [Decl.out] at h
    cases h
    exact jout_own ⟨hK "metadata" (by decide), hk, jcons (by cases ln <;> simp [lineItems]) (hK _ (by decide)) .str hl⟩
  | param ds x t e =>
    rw [Decl.out] at h
    obtain ⟨vs, hvs, h⟩ := bind_ok' h
    obtain ⟨y, hy, h⟩ := bind_ok' h
    cases h
    refine jout_own ⟨hK "parameters" (by decide), hk.1, ?_⟩
    refine jcons ?_ (hK _ (by decide)) (.list (json_decos hK hk.2.1 hvs)) (jcons ?_ (hK _ (by decide)) (json_type hK t)
      (jcons ?_ (hK _ (by decide)) (json_optExpr hK e hk.2.2 hy) hl)) <;> cases ln <;> simp [lineItems]
  | var ds x t e =>
    rw [Decl.out] at h
    obtain ⟨vs, hvs, h⟩ := bind_ok' h
    obtain ⟨y, hy, h⟩ := bind_ok' h
    cases h
    have he : Json K y := by
      cases e with
      | expr e => exact json_expr hK e hk.2.2 hy
      | loop e => exact json_loop hK e hk.2.2 hy
    refine jout_own ⟨hK "variables" (by decide), hk.1, ?_⟩
    refine jcons ?_ (hK _ (by decide)) (.list (json_decos hK hk.2.1 hvs))
      (jcons ?_ (hK _ (by decide)) he (jtypeItem hK t ln l)) <;> cases t <;> cases ln <;> simp [lineItems, typeItem]
  | output ds x t e =>
    rw [Decl.out] at h
    obtain ⟨vs, hvs, h⟩ := bind_ok' h
    obtain ⟨y, hy, h⟩ := bind_ok' h
    cases h
    have he : Json K y := by
      cases e with
      | expr e => exact json_expr hK e hk.2.2 hy
      | loop e => exact json_loop hK e hk.2.2 hy
    refine jout_own ⟨hK "outputs" (by decide), hk.1, ?_⟩
    refine jcons ?_ (hK _ (by decide)) (.list (json_decos hK hk.2.1 hvs)) (jcons ?_ (hK _ (by decide)) (json_type hK t)
      (jcons ?_ (hK _ (by decide)) he hl)) <;> cases ln <;> simp [lineItems]
  | resource ds x b ex c => exact hR ds x b ex c hk.1 hk.2.1 hk.2.2 h
  | module ds x b c =>
    rw [Decl.out] at h
    obtain ⟨vs, hvs, h⟩ := bind_ok' h
    obtain ⟨m, hm, h⟩ := bind_ok' h
    obtain ⟨y, hy, h⟩ := bind_ok' h
    obtain ⟨t, ht, h⟩ := bind_ok' h
    obtain ⟨d, hd, h⟩ := bind_ok' h
    cases h
    have jm := json_module hK (inRule_ok hm)
    refine jout_own ⟨hK "modules" (by decide), hk.1, ?_⟩
    refine jcons ?_ (hK _ (by decide)) (.list (json_decos hK hk.2.1 hvs))
      (jcons ?_ (hK _ (by decide)) (json_item_get jm (inRule_ok ht))
      (jcons ?_ (hK _ (by decide)) (json_item_get jm (inRule_ok hd))
      (jcons ?_ (hK _ (by decide)) (json_config hK c hk.2.2 hy) hl))) <;> cases ln <;> simp [lineItems]
  | typ ds x e es =>
    rw [Decl.out] at h
    obtain ⟨vs, hvs, h⟩ := bind_ok' h
    obtain ⟨y, hy, h⟩ := bind_ok' h
    cases h
    have he : Json K y := by
      unfold typeVal at hy
      split at hy
      · exact json_expr hK e hk.2.2.1 hy
      · obtain ⟨_, _, hy⟩ := bind_ok' hy
        obtain ⟨_, _, hy⟩ := bind_ok' hy
        cases hy; exact .str
    refine jout_own ⟨hK "types" (by decide), hk.1, ?_⟩
    refine jcons ?_ (hK _ (by decide)) (.list (json_decos hK hk.2.1 hvs))
      (jcons ?_ (hK _ (by decide)) he hl) <;> cases ln <;> simp [lineItems]
  | func ds x ps ret body =>
    rw [Decl.out] at h
    obtain ⟨vs, hvs, h⟩ := bind_ok' h
    obtain ⟨y, hy, h⟩ := bind_ok' h
    cases h
    have ha : JItems K (lastWins (ps.map (fun p => (txt p.1.1, p.2.val)))) := by
      apply jlastWins
      intro q hq
      obtain ⟨p, hp, rfl⟩ := List.mem_map.mp hq
      exact ⟨hk.2.2.1 p hp, json_type hK _⟩
    refine jout_own ⟨hK "functions" (by decide), hk.1, ?_⟩
    refine jcons ?_ (hK _ (by decide)) (.list (json_decos hK hk.2.1 hvs)) (jcons ?_ (hK _ (by decide)) ha.json
      (jcons ?_ (hK _ (by decide)) (json_type hK ret)
        (jcons ?_ (hK _ (by decide)) (json_expr hK body hk.2.2.2 hy) hl))) <;> cases ln <;> simp [lineItems]

theorem json_collect {es : List Entry} (h : ∀ e ∈ es, JEntry K e) : Json K (.dict (collect es)) := by
  refine JItems.json ⟨?_, ?_⟩
  · unfold collect
    rw [List.map_map]
    simp only [Function.comp_def, List.map_id']
    exact nodup_eraseDups _
  · intro p hp
    unfold collect at hp
    obtain ⟨s, hs, rfl⟩ := List.mem_map.mp hp
    rw [List.mem_eraseDups] at hs
    obtain ⟨e, he, rfl⟩ := List.mem_map.mp hs
    refine ⟨(h e he).1, (jlastWins ?_).json⟩
    intro q hq
    obtain ⟨e', he', rfl⟩ := List.mem_map.mp hq
    have := h e' (List.mem_filter.mp he').1
    exact ⟨this.2.1, this.2.2.json⟩

theorem json_program (hK : Allows K) {R : Config → Prop} {ln : Bool} {p : Program} {v : Val}
    (hR : ∀ l o ds x b ex c, K (txt x.1) → (∀ d ∈ ds, d.Keys K) → R c →
      (Decl.resource ds x b ex c).out ln l = .ok o → JOut K o)
    (hk : ∀ q ∈ p, q.2.Keys K R) (h : p.val ln = .ok v) : Json K v := by
  rw [Program.val] at h
  obtain ⟨os, hos, h⟩ := bind_ok' h
  cases h
  have hout : ∀ (p : Program) (os : List Out), (∀ q ∈ p, q.2.Keys K R) → p.outs ln = .ok os → ∀ o ∈ os, JOut K o := by
    intro p
    induction p with
    | nil => intro os _ hos; rw [Program.outs] at hos; cases hos; simp
    | cons q p ih =>
      intro os hk hos
      obtain ⟨l, d⟩ := q
      rw [Program.outs] at hos
      obtain ⟨o, ho, hos⟩ := bind_ok' hos
      obtain ⟨os', hos', hos⟩ := bind_ok' hos
      cases hos
      intro o' ho'
      rcases List.mem_cons.mp ho' with rfl | ho'
      · exact json_decl hK (hR l _) (hk _ (List.mem_cons_self ..)) ho
      · exact ih os' (fun q hq => hk q (List.mem_cons_of_mem _ hq)) hos' o' ho'
  replace hout := hout p os hk hos
  apply json_collect
  intro e he
  unfold entries at he
  rcases List.mem_cons.mp he with rfl | he
  · exact ⟨hK "globals" (by decide), hK "scope" (by decide),
      jcons (by cases ln <;> simp [lineItems]) (hK _ (by decide)) .str (jlines hK ln _)⟩
  · rcases List.mem_append.mp he with he | he
    · rcases List.mem_append.mp he with he | he
      · obtain ⟨o, ho, he⟩ := List.mem_flatMap.mp he
        exact hout o ho e (by simp [he])
      · obtain ⟨o, ho, he⟩ := List.mem_flatMap.mp he
        exact hout o ho e (by simp [he])
    · obtain ⟨o, ho, he⟩ := List.mem_flatMap.mp he
      exact hout o ho e (by simp [he])

end

end Pycep
