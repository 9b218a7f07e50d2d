import Verif.Spec.Nested
import Verif.Proofs.Place
/-
What is reported about nested resources.
-/
namespace Pycep

/-- the body of a nested resource as it is reported: without the resource nested in it, with the
name of the parent appended to the dependencies -/
def nestedConfig (parent : String) (deps : List Val) (d : List (String × Val)) : List (String × Val) :=
  dErase "__child_resource__" (dSet "depends_on" (.list (deps ++ [.elem parent])) d)

/-- the dependencies of a body, none if absent -/
def DepsOf (d : List (String × Val)) (deps : List Val) : Prop :=
  dGet "depends_on" d = some (.list deps) ∨ dGet "depends_on" d = .none ∧ deps = []

/-- the entries of a chain of nested resources -/
inductive NestedOut (ln : Bool) (api : String) : String → String → List Nested → List Entry → Prop where
  | nil {n t} : NestedOut ln api n t [] []
  | cons {n t r rs es d deps} : r.config.val ln = .ok (.dict d) → DepsOf d deps →
      NestedOut ln api (n ++ "__" ++ txt r.name.1) (t ++ "/" ++ txt r.type) rs es →
      NestedOut ln api n t (r :: rs) (⟨"resources", n ++ "__" ++ txt r.name.1,
        [("decorators", .list []), ("type", .str (t ++ "/" ++ txt r.type)),
         ("api_version", .str api), ("existing", .bool r.existing),
         ("config", .dict (nestedConfig n deps d))] ++ lineItems ln (r.lines.1, r.lines.2 - 1)⟩ :: es)

theorem dErase_absent {k : String} {d : List (String × Val)} (h : dGet k d = .none) : dErase k d = d := by
  induction d with
  | nil => rfl
  | cons p d ih =>
    obtain ⟨a, v⟩ := p
    simp only [dGet] at h
    split at h
    · cases h
    · rename_i hne
      rw [dErase, if_neg hne, ih h]

theorem noChild_get {ln : Bool} {c : Config} {d : List (String × Val)} (h : NoChild c)
    (hv : c.val ln = .ok (.dict d)) : dGet "__child_resource__" d = .none := by
  cases c with
  | obj is =>
    rw [Config.val] at hv
    obtain ⟨ps, hps, hv⟩ := bind_ok' hv
    cases hv
    exact items_absent hps h
  | loop l =>
    rw [Config.val] at hv
    obtain ⟨d', e, hd⟩ := loop_noChild hv
    cases e; exact hd
  | cond a e =>
    rw [Config.val] at hv
    obtain ⟨_, _, hv⟩ := bind_ok' hv; obtain ⟨_, _, hv⟩ := bind_ok' hv
    cases hv; rfl

theorem childOf_get {ln : Bool} {c : Config} {d : List (String × Val)} {r : Nested} (h : ChildOf c r)
    (hv : c.val ln = .ok (.dict d)) : ∃ d', r.config.val ln = .ok d' ∧
      dGet "__child_resource__" d = some (.dict [("__name__", .str (txt r.name.1)), ("__attrs__", .dict
      ([("decorators", .list []), ("type", .str (txt r.type)), ("api_version", .str ""),
        ("existing", .bool r.existing), ("config", d')] ++ lineItems ln (r.lines.1, r.lines.2 - 1)))]) := by
  obtain ⟨is, rfl, hl⟩ := h
  rw [Config.val] at hv
  obtain ⟨ps, hps, hv⟩ := bind_ok' hv
  cases hv
  obtain ⟨v, hv, hg⟩ := items_last hps hl
  rw [hg]
  unfold Nested.item at hv
  rw [Item.inner, Item.val] at hv
  cases hc : r.config.val ln with
  | error e => rw [hc] at hv; cases hv
  | ok d' =>
    rw [hc] at hv
    cases hv
    exact ⟨d', rfl, rfl⟩

theorem config_isDict {ln : Bool} {c : Config} {v : Val} (hv : c.val ln = .ok v) : ∃ d, v = .dict d := by
  cases c with
  | obj is =>
    rw [Config.val] at hv; obtain ⟨ps, hps, hv⟩ := bind_ok' hv; cases hv; exact ⟨_, rfl⟩
  | loop l =>
    rw [Config.val] at hv
    obtain ⟨d', e, _⟩ := loop_noChild hv
    exact ⟨_, e⟩
  | cond a e =>
    rw [Config.val] at hv
    obtain ⟨_, _, hv⟩ := bind_ok' hv; obtain ⟨_, _, hv⟩ := bind_ok' hv
    cases hv; exact ⟨_, rfl⟩

/-- what `processChild` does on a chain -/
theorem processChild_chain {ln : Bool} {api : String} {c : Config} {rs : List Nested} (hc : Chain c rs)
    {n : Nat} {N T : String} {cfg d cfg' : List (String × Val)} {more : List Val}
    (hn : rs.length < n)
    (hv : c.val ln = .ok (.dict d)) (hg : dGet "__child_resource__" cfg = dGet "__child_resource__" d)
    (h : processChild n (.str N) (.str T) (.str api) cfg = .ok (cfg', more)) :
    cfg' = dErase "__child_resource__" cfg ∧ NestedOut ln api N T rs (more.map childEntry) := by
  induction hc generalizing n N T cfg d cfg' more with
  | nil hno =>
    cases n with
    | zero => simp at hn
    | succ n =>
      rw [noChild_get hno hv] at hg
      rw [processChild, hg] at h
      cases h
      exact ⟨(dErase_absent hg).symm, .nil⟩
  | @cons c r rs hch _ ih =>
    cases n with
    | zero => simp at hn
    | succ n =>
      obtain ⟨v', hd', hget⟩ := childOf_get hch hv
      obtain ⟨d', rfl⟩ := config_isDict hd'
      rw [hget] at hg
      rw [processChild, hg] at h
      simp only at h
      obtain ⟨⟨ch, attrs, nn, cc⟩, had, h⟩ := bind_ok' h
      simp only at h
      -- the adopted child
      have hadopt : ∃ deps, DepsOf d' deps ∧
          adoptChild (.str N) (.str T) (.str api) (.dict [("__name__", .str (txt r.name.1)), ("__attrs__", .dict
            ([("decorators", .list []), ("type", .str (txt r.type)), ("api_version", .str ""),
            ("existing", .bool r.existing), ("config", .dict d')] ++
            lineItems ln (r.lines.1, r.lines.2 - 1)))]) = .ok
          (.dict [("__name__", .str (N ++ "__" ++ txt r.name.1)), ("__attrs__", .dict
            ([("decorators", .list []), ("type", .str (txt r.type)), ("api_version", .str ""),
            ("existing", .bool r.existing), ("config", .dict d')] ++
            lineItems ln (r.lines.1, r.lines.2 - 1)))],
           .dict ([("decorators", .list []), ("type", .str (T ++ "/" ++ txt r.type)), ("api_version", .str api),
            ("existing", .bool r.existing), ("config", .dict d')] ++
            lineItems ln (r.lines.1, r.lines.2 - 1)),
           .str (N ++ "__" ++ txt r.name.1),
           .dict (dSet "depends_on" (.list (deps ++ [.elem N])) d')) := by
        unfold adoptChild at had ⊢
        simp only [Val.item, dGet, Val.setItem, dSet, bind, Except.bind, if_true,
          List.cons_append, List.nil_append, String.reduceEq, if_false, Val.pyStr] at had ⊢
        cases hdep : dGet "depends_on" d' with
        | none =>
          refine ⟨[], .inr ⟨hdep, rfl⟩, ?_⟩
          simp
        | some x =>
          rw [hdep] at had
          cases x with
          | list deps => exact ⟨deps, .inl hdep, rfl⟩
          | _ => simp at had
      obtain ⟨deps, hdeps, hadopt⟩ := hadopt
      rw [hadopt] at had
      cases had
      simp only [Val.item, dGet, List.cons_append, if_true, List.nil_append, String.reduceEq, if_false,
        bind, Except.bind] at h
      cases hp : processChild n (.str (N ++ "__" ++ txt r.name.1)) (.str (T ++ "/" ++ txt r.type)) (.str api)
          (dSet "depends_on" (.list (deps ++ [.elem N])) d') with
      | error e => rw [hp] at h; cases h
      | ok q =>
        obtain ⟨cfg2, more2⟩ := q
        rw [hp] at h
        simp only [Val.setItem, dSet, String.reduceEq, if_false, if_true] at h
        cases h
        have hg' : dGet "__child_resource__" (dSet "depends_on" (.list (deps ++ [.elem N])) d') =
            dGet "__child_resource__" d' := dGet_dSet_ne (by decide) _ _
        obtain ⟨h1, h2⟩ := ih (by simpa using hn) hd' hg' hp
        refine ⟨rfl, ?_⟩
        rw [List.map_cons]
        have : childEntry (D [("resources", .dict [("__name__", .str (N ++ "__" ++ txt r.name.1)),
            ("__attrs__", .dict (("decorators", .list []) :: ("type", .str (T ++ "/" ++ txt r.type)) ::
              ("api_version", .str api) :: ("existing", .bool r.existing) :: ("config", .dict cfg2) ::
              lineItems ln (r.lines.1, r.lines.2 - 1)))])]) =
            ⟨"resources", N ++ "__" ++ txt r.name.1,
              [("decorators", .list []), ("type", .str (T ++ "/" ++ txt r.type)),
               ("api_version", .str api), ("existing", .bool r.existing),
               ("config", .dict cfg2)] ++ lineItems ln (r.lines.1, r.lines.2 - 1)⟩ := by
          simp [childEntry, D, dGet]
        rw [this, h1]
        exact .cons hd' hdeps h2

end Pycep
