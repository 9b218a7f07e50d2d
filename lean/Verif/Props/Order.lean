import Verif.Spec.Order
import Verif.Proofs.Documents
import Verif.Props.Join
import Mathlib.Data.List.Perm.Basic
/-
C69: the order of declarations.
-/
namespace Pycep

/-! ### Rearranging -/

theorem Decl.Apart.symm {d d' : Decl} (h : d.Apart d') : d'.Apart d :=
  ⟨fun q hq hq' => h.1 q hq' hq, fun n => (h.2 n).symm⟩

theorem Rearranged.symm {p q : Program} (h : Rearranged p q) : Rearranged q p := by
  induction h with
  | refl => exact .refl
  | swap h => exact .swap h.symm
  | trans _ _ ih1 ih2 => exact .trans ih2 ih1

theorem Rearranged.cons {p q : Program} (d : Lines × Decl) (h : Rearranged p q) : Rearranged (d :: p) (d :: q) := by
  induction h with
  | refl => exact .refl
  | @swap a x y b h => exact .swap (a := d :: a) h
  | trans _ _ ih1 ih2 => exact .trans ih1 ih2

theorem Rearranged.perm {p q : Program} (h : Rearranged p q) : p.Perm q := by
  induction h with
  | refl => exact .refl _
  | swap _ => exact List.Perm.append_left _ (.swap _ _ _)
  | trans _ _ ih1 ih2 => exact ih1.trans ih2

/-- declarations of which no two compete may be put into any order -/
theorem Rearranged.of_perm {p q : Program} (h : p.Perm q) (hp : p.Pairwise (fun x y => x.2.Apart y.2)) :
    Rearranged p q := by
  induction h with
  | nil => exact .refl
  | cons d _ ih => exact .cons _ (ih (List.pairwise_cons.mp hp).2)
  | swap x y l => exact .swap (a := []) ((List.pairwise_cons.mp hp).1 x (by simp))
  | trans h1 _ ih1 ih2 =>
    exact .trans (ih1 hp) (ih2 ((h1.pairwise_iff (fun h => h.symm)).mp hp))

/-! ### Entries -/

/-- the entries at a place -/
def entriesAt (es : List Entry) (q : String × String) : List Entry := es.filter (fun e => e.place = q)

theorem entriesAt_append (a b : List Entry) (q) : entriesAt (a ++ b) q = entriesAt a q ++ entriesAt b q :=
  List.filter_append ..

theorem entriesAt_nil {es : List Entry} {q} (h : ∀ e ∈ es, e.place ≠ q) : entriesAt es q = [] := by
  rw [entriesAt, List.filter_eq_nil_iff]
  intro e he
  simpa using h e he

theorem secItems_at (es : List Entry) (s n : String) :
    (secItems es s).filter (fun p => p.1 = n) = (entriesAt es (s, n)).map (fun e => (e.name, .dict e.attrs)) := by
  rw [secItems, List.filter_map, entriesAt, List.filter_filter]
  congr 1
  refine List.filter_congr fun e _ => ?_
  by_cases h1 : e.sec = s <;> by_cases h2 : e.name = n <;> simp [Entry.place, h1, h2]

theorem lookup_filter {l l' : List (String × Val)} {n : String}
    (h : l.filter (fun p => p.1 = n) = l'.filter (fun p => p.1 = n)) : l.reverse.lookup n = l'.reverse.lookup n := by
  have key : ∀ l : List (String × Val), l.lookup n = (l.filter (fun p => p.1 = n)).head?.map Prod.snd := by
    intro l
    induction l with
    | nil => rfl
    | cons p l ih =>
      obtain ⟨m, v⟩ := p
      by_cases hm : m = n
      · subst hm; simp
      · have : (n == m) = false := by simpa using fun h => hm h.symm
        rw [List.lookup_cons, this]
        simp [hm, ih]
  rw [key, key, List.filter_reverse, List.filter_reverse, h]

/-- dictionaries with the same values are equal up to order -/
theorem perm_of_dGet {l l' : List (String × Val)} (h : (l.map Prod.fst).Nodup) (h' : (l'.map Prod.fst).Nodup)
    (he : ∀ k, dGet k l = dGet k l') : l.Perm l' := by
  rw [List.perm_ext_iff_of_nodup (List.Nodup.of_map _ h) (List.Nodup.of_map _ h')]
  rintro ⟨k, v⟩
  constructor
  · intro hm
    exact mem_of_dGet (he k ▸ dGet_mem h hm)
  · intro hm
    exact mem_of_dGet (he k ▸ dGet_mem h' hm)

theorem mem_sec {es : List Entry} {s : String} : s ∈ es.map Entry.sec ↔ ∃ n, entriesAt es (s, n) ≠ [] := by
  constructor
  · intro h
    obtain ⟨e, he, rfl⟩ := List.mem_map.mp h
    refine ⟨e.name, List.ne_nil_of_mem (a := e) ?_⟩
    simp [entriesAt, he, Entry.place]
  · rintro ⟨n, h⟩
    obtain ⟨e, he⟩ := List.exists_mem_of_ne_nil _ h
    simp only [entriesAt, List.mem_filter, decide_eq_true_eq, Entry.place, Prod.mk.injEq] at he
    exact he.2.1 ▸ List.mem_map_of_mem he.1

/-- equal entries at every place, in the same order: equal results up to order -/
theorem reordered_of {es es' : List Entry} (h : ∀ q, entriesAt es q = entriesAt es' q) :
    Reordered (.dict (collect es)) (.dict (collect es')) := by
  have hk : (es.map Entry.sec).eraseDups.Perm (es'.map Entry.sec).eraseDups := by
    rw [List.perm_ext_iff_of_nodup (nodup_eraseDups _) (nodup_eraseDups _)]
    intro s
    simp only [List.mem_eraseDups, mem_sec, h]
  refine ⟨_, _, _, rfl, rfl, hk.map _, ?_⟩
  unfold collect
  rw [List.forall₂_map_left_iff, List.forall₂_map_right_iff, List.forall₂_same]
  intro s _
  refine ⟨rfl, _, _, rfl, rfl, perm_of_dGet (lastWins_nodup _) (lastWins_nodup _) fun n => ?_⟩
  rw [dGet_lastWins, dGet_lastWins]
  refine lookup_filter ?_
  have h1 := secItems_at es s n
  have h2 := secItems_at es' s n
  unfold secItems at h1 h2
  rw [h1, h2, h]

/-! ### Declarations that change places -/

theorem own_places {ln : Bool} {l : Lines} {d : Decl} {o : Out} (h : d.out ln l = .ok o) {e : Entry}
    (he : e ∈ o.own ∨ e ∈ o.imports) : e.place ∈ d.places := by
  obtain ⟨h1, h2, _⟩ := out_places h
  rcases he with he | he
  · have : e.place ∈ d.ownName := h1 ▸ List.mem_map_of_mem he
    cases d <;> first | exact this | simp [Decl.ownName] at this
  · have : e.place ∈ d.importNames.map (fun n => ("imports", n)) := h2 ▸ List.mem_map_of_mem he
    cases d <;> simp only [Decl.importNames, List.map_nil, List.not_mem_nil] at this
    · exact this
    · rw [List.map_map] at this
      simp only [Decl.places, Decl.declares]
      refine Eq.mp (congrArg (_ ∈ ·) (List.map_congr_left fun i _ => ?_)) this
      simp only [Function.comp_apply]
      cases i.name <;> rfl

theorem nested_places {ln : Bool} {l : Lines} {d : Decl} {o : Out} (h : d.out ln l = .ok o) {n : String}
    (hn : d.NestsNot n) : ∀ e ∈ o.children, e.place ≠ ("resources", n) := by
  intro e he hp
  refine notNested_children (p := [(l, d)]) (os := [o]) (.cons h .nil) (n := n) ?_ e (by simpa using he)
    (congrArg Prod.snd hp)
  intro l' ds x b ex c hm
  simp only [List.mem_singleton, Prod.mk.injEq] at hm
  exact hn _ _ _ _ _ hm.2.symm

theorem swap_entries {ln : Bool} {l l' : Lines} {d d' : Decl} {o o' : Out} (h : d.out ln l = .ok o)
    (h' : d'.out ln l' = .ok o') (ha : d.Apart d') (a b : List Out) (q) :
    entriesAt (entries ln (a ++ o :: o' :: b)) q = entriesAt (entries ln (a ++ o' :: o :: b)) q := by
  have comm : ∀ {x y : List Entry}, (entriesAt x q = [] ∨ entriesAt y q = []) →
      entriesAt x q ++ entriesAt y q = entriesAt y q ++ entriesAt x q := by
    rintro x y (h | h) <;> simp [h]
  have key : ∀ f : Out → List Entry, (entriesAt (f o) q = [] ∨ entriesAt (f o') q = []) →
      entriesAt ((a ++ o :: o' :: b).flatMap f) q = entriesAt ((a ++ o' :: o :: b).flatMap f) q := by
    intro f hf
    simp only [List.flatMap_append, List.flatMap_cons, entriesAt_append]
    rw [← List.append_assoc (entriesAt (f o) q), comm hf, List.append_assoc]
  have own : ∀ {l : Lines} {d : Decl} {o : Out}, d.out ln l = .ok o → q ∉ d.places →
      entriesAt o.own q = [] ∧ entriesAt o.imports q = [] := by
    intro l d o h hq
    exact ⟨entriesAt_nil fun e he hp => hq (hp ▸ own_places h (.inl he)),
      entriesAt_nil fun e he hp => hq (hp ▸ own_places h (.inr he))⟩
  have hown : (entriesAt o.own q = [] ∧ entriesAt o.imports q = []) ∨
      (entriesAt o'.own q = [] ∧ entriesAt o'.imports q = []) := by
    by_cases hq : q ∈ d.places
    · exact .inr (own h' (ha.1 q hq))
    · exact .inl (own h hq)
  have hch : entriesAt o.children q = [] ∨ entriesAt o'.children q = [] := by
    obtain ⟨s, n⟩ := q
    by_cases hs : s = "resources"
    · subst hs
      exact (ha.2 n).imp (fun hn => entriesAt_nil (nested_places h hn)) (fun hn => entriesAt_nil (nested_places h' hn))
    · exact .inl (entriesAt_nil fun e he hp => hs (((out_places h).2.2.1 e he) ▸ (congrArg Prod.fst hp).symm))
  have split : ∀ os, entriesAt (entries ln os) q = entriesAt [defaultScope ln] q ++
      (entriesAt (os.flatMap Out.own) q ++ entriesAt (os.flatMap Out.imports) q ++
        entriesAt (os.flatMap Out.children) q) := by
    intro os
    rw [← entriesAt_append, ← entriesAt_append, ← entriesAt_append]
    rfl
  rw [split, split, key Out.own (hown.imp And.left And.left), key Out.imports (hown.imp And.right And.right), key Out.children hch]

theorem contribs_join {ln : Bool} {p q : Program} {os os' : List Out} (h : Contribs ln p os) (h' : Contribs ln q os') :
    Contribs ln (p ++ q) (os ++ os') := by
  induction h with
  | nil => exact h'
  | cons ho _ ih => exact .cons ho ih

theorem rearranged_entries {ln : Bool} {p p' : Program} (h : Rearranged p p') : ∀ {os}, Contribs ln p os →
    ∃ os', Contribs ln p' os' ∧ ∀ q, entriesAt (entries ln os) q = entriesAt (entries ln os') q := by
  induction h with
  | refl => exact fun hc => ⟨_, hc, fun _ => rfl⟩
  | @swap a x y b ha =>
    intro os hc
    obtain ⟨os1, os2, rfl, h1, h2⟩ := contribs_append hc
    cases h2 with
    | @cons l d _ o _ ho h2 =>
      cases h2 with
      | @cons l' d' _ o' os3 ho' h3 =>
        exact ⟨os1 ++ o' :: o :: os3, contribs_join h1 (.cons ho' (.cons ho h3)), swap_entries ho ho' ha _ _⟩
  | trans _ _ ih1 ih2 =>
    intro os hc
    obtain ⟨os', hc', h1⟩ := ih1 hc
    obtain ⟨os'', hc'', h2⟩ := ih2 hc'
    exact ⟨os'', hc'', fun q => (h1 q).trans (h2 q)⟩

/-- the meaning of rearranged declarations -/
theorem rearranged_val {ln : Bool} {p p' : Program} (h : Rearranged p p') {v : Val} (hv : p.val ln = .ok v) :
    ∃ v', p'.val ln = .ok v' ∧ Reordered v v' := by
  rw [Program.val] at hv
  cases ho : p.outs ln with
  | error e => rw [ho] at hv; cases hv
  | ok os =>
    rw [ho] at hv
    cases hv
    obtain ⟨os', hc', he⟩ := rearranged_entries h (contribs_iff.mpr ho)
    exact ⟨_, by rw [Program.val, contribs_iff.mp hc']; rfl, reordered_of he⟩

/-- **C69.** Two documents with the same declarations in another order have equal results, up to the
order of sections and of names. -/
theorem C69_order {text path text' path' v v'} (h : (Parser.mk false).parse text path = .ok v)
    (h' : (Parser.mk false).parse text' path' = .ok v') :
    ∃ t p t' p', chosenText text path = .ok t ∧ Spells t p ∧ chosenText text' path' = .ok t' ∧ Spells t' p' ∧
      (Rearranged p.bare p'.bare → Reordered v v') := by
  obtain ⟨t, p, h1, h2, h3⟩ := parse_ok h
  obtain ⟨t', p', h1', h2', h3'⟩ := parse_ok h'
  refine ⟨t, p, t', p', h1, h2, h1', h2', fun hr => ?_⟩
  obtain ⟨w, hw, ho⟩ := rearranged_val hr ((Program.bare_val p).trans h3)
  have := hw.symm.trans ((Program.bare_val p').trans h3')
  cases this
  exact ho

/-- **C69.** If a document can be parsed, so can every clearly written document with the same
declarations in another order, and the results are equal up to the order of sections and of names. -/
theorem C69_outcome {text path text' path'} {t t' : String} {p p' : Program} (h : chosenText text path = .ok t)
    (h' : chosenText text' path' = .ok t') (hw : Writes t p) (hw' : Writes t' p') (hc : p.clear = true)
    (hc' : p'.clear = true) {n : Nat} (ho : Occ t'.toList n) (hn : n % 2 = 0)
    (hr : Rearranged p.bare p'.bare) {v} (hv : (Parser.mk false).parse text path = .ok v) :
    ∃ v', (Parser.mk false).parse text' path' = .ok v' ∧ Reordered v v' := by
  have hval : isValid t = true := by
    rcases parse_cases (Parser.mk false) text path with
      ⟨e, _, h2⟩ | ⟨_, _, _, _, h2, _⟩ | ⟨_, _, _, h2⟩ | ⟨t2, _, h2, hv2, _⟩
    · rw [hv] at h2; cases h2
    · rw [hv] at h2; cases h2
    · rw [hv] at h2; cases h2
    · rw [h] at h2; cases h2; exact hv2
  have hval' : isValid t' = true := by rw [isValid_iff ho, hn]; rfl
  rw [parse_writes _ h hval hw hc] at hv
  have hv : p.val false = .ok v := by
    cases hp : p.val false with
    | ok w => rw [hp] at hv; cases hv; rfl
    | error e => rw [hp] at hv; cases e <;> cases hv
  obtain ⟨v', hv', hre⟩ := rearranged_val hr ((Program.bare_val p).trans hv)
  refine ⟨v', ?_, hre⟩
  rw [parse_writes _ h' hval' hw' hc']
  show liftV (p'.val false) = _
  rw [← Program.bare_val p', hv']
  rfl

/-! ### Concrete cases -/

/-- A parameter, a resource with a nested one and an import may be put into any order. -/
example (a n m : Ident) (t : DataType) (hne : txt a.1 ≠ txt m.1) :
    Rearranged
      [((0, 0), .param [] a t .none), ((0, 0), .param [] m t .none),
       ((0, 0), .resource [] n "A/b@1".toList false (.obj [.child (0, 0) m "w".toList false (.obj [])])),
       ((0, 0), .importFrom ⟨.name a, .none⟩ [] ['f'])]
      [((0, 0), .importFrom ⟨.name a, .none⟩ [] ['f']),
       ((0, 0), .resource [] n "A/b@1".toList false (.obj [.child (0, 0) m "w".toList false (.obj [])])),
       ((0, 0), .param [] m t .none), ((0, 0), .param [] a t .none)] := by
  refine .of_perm (List.reverse_perm _).symm ?_
  simp [Decl.Apart, Decl.places, Decl.declares, Decl.ownName, Decl.NestsNot, ImportName.text, hne]

/-- What it says about two texts: the results are not equal as lists of entries, but equal up to
order. -/
example : ∃ v v', Parser.parse ⟨false⟩ (some "param a string\nvar b = 1\nparam c int\n") .none = .ok v ∧
    Parser.parse ⟨false⟩ (some "var b = 1\nparam c int\nparam a string\n") .none = .ok v' ∧ v ≠ v' ∧ Reordered v v' := by
  refine ⟨.dict [("globals", .dict [("scope", .dict [("value", .str "resourceGroup")])]),
      ("parameters", .dict [("a", .dict [("decorators", .list []), ("type", .str "string"), ("default", .none)]),
        ("c", .dict [("decorators", .list []), ("type", .str "int"), ("default", .none)])]),
      ("variables", .dict [("b", .dict [("decorators", .list []), ("value", .int 1)])])],
    .dict [("globals", .dict [("scope", .dict [("value", .str "resourceGroup")])]),
      ("variables", .dict [("b", .dict [("decorators", .list []), ("value", .int 1)])]),
      ("parameters", .dict [("c", .dict [("decorators", .list []), ("type", .str "int"), ("default", .none)]),
        ("a", .dict [("decorators", .list []), ("type", .str "string"), ("default", .none)])])],
    eq_of_outIs (by decide +kernel), eq_of_outIs (by decide +kernel), by simp, ?_⟩
  refine ⟨_, _, [_, _, _], rfl, rfl, .cons _ (.swap _ _ _), ?_⟩
  exact .cons ⟨rfl, _, _, rfl, rfl, .refl _⟩ (.cons ⟨rfl, _, _, rfl, rfl, .swap _ _ _⟩
    (.cons ⟨rfl, _, _, rfl, rfl, .refl _⟩ .nil))

/-- Declarations of the same name compete: their order matters. -/
example : ∃ v v', Parser.parse ⟨false⟩ (some "var b = 1\nvar b = 2\n") .none = .ok v ∧
    Parser.parse ⟨false⟩ (some "var b = 2\nvar b = 1\n") .none = .ok v' ∧ ¬ Reordered v v' := by
  refine ⟨.dict [("globals", .dict [("scope", .dict [("value", .str "resourceGroup")])]),
      ("variables", .dict [("b", .dict [("decorators", .list []), ("value", .int 2)])])],
    .dict [("globals", .dict [("scope", .dict [("value", .str "resourceGroup")])]),
      ("variables", .dict [("b", .dict [("decorators", .list []), ("value", .int 1)])])],
    eq_of_outIs (by decide +kernel), eq_of_outIs (by decide +kernel), ?_⟩
  rintro ⟨ss, ss', qs, e, e', hp, hf⟩
  cases e; cases e'
  have hm : ∀ q ∈ qs, q.1 = "variables" →
      q.2 = .dict [("b", .dict [("decorators", .list []), ("value", .int 1)])] := by
    intro q hq hk
    rcases List.mem_cons.mp (hp.mem_iff.mp hq) with rfl | hq
    · simp at hk
    · rw [List.mem_singleton.mp hq]
  cases hf with
  | cons _ hf =>
    cases hf with
    | @cons _ q _ _ h _ =>
      obtain ⟨hk, ns, ns', e1, e2, hpn⟩ := h
      rw [hm q (by simp) hk.symm] at e2
      cases e1; cases e2
      have := List.perm_singleton.mp hpn
      simp at this

end Pycep
