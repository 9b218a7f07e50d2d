import Verif.Props.Api
import Verif.Spec.Path
import Verif.Spec.Reported
import Verif.Proofs.SemErr
import Verif.Proofs.Examples
/-
C08, C10, C11: shape of the result, how declarations are collected, the target scope.
-/
namespace Pycep

/-! ### Dictionaries made by assignments -/

theorem lookup_mem_keys {ps : List (String × Val)} {k : String} : (ps.lookup k).isSome ↔ k ∈ ps.map Prod.fst := by
  induction ps with
  | nil => simp
  | cons p ps ih =>
    obtain ⟨a, v⟩ := p
    simp only [List.lookup_cons, List.map_cons, List.mem_cons]
    by_cases h : k = a
    · simp [h]
    · simp [h, ih, beq_eq_false_iff_ne.mpr h]

theorem dGet_lastWins (ps : List (String × Val)) (k : String) : dGet k (lastWins ps) = ps.reverse.lookup k := by
  unfold lastWins
  rw [dGet_map (f := fun k => (ps.reverse.lookup k).getD .none)]
  have h : k ∈ (ps.map Prod.fst).eraseDups ↔ (ps.reverse.lookup k).isSome := by
    rw [lookup_mem_keys, List.mem_eraseDups, List.map_reverse, List.mem_reverse]
  cases hl : ps.reverse.lookup k with
  | none =>
    rw [if_neg]; rw [h, hl]; simp
  | some v =>
    rw [if_pos]
    · rfl
    · rw [h, hl]; rfl

/-- the value of the last assignment to `k` -/
theorem lookup_reverse {ps : List (String × Val)} {k : String} {v : Val} :
    ps.reverse.lookup k = some v ↔ ∃ a b, ps = a ++ (k, v) :: b ∧ k ∉ b.map Prod.fst := by
  induction ps with
  | nil => simp
  | cons p ps ih =>
    obtain ⟨x, u⟩ := p
    rw [List.reverse_cons, List.lookup_append]
    cases hl : ps.reverse.lookup k with
    | some w =>
      simp only [Option.some_or]
      constructor
      · intro h
        cases h
        obtain ⟨a, b, e, hb⟩ := ih.mp hl
        exact ⟨(x, u) :: a, b, by rw [e]; rfl, hb⟩
      · rintro ⟨a, b, e, hb⟩
        cases a with
        | nil =>
          simp only [List.nil_append, List.cons.injEq, Prod.mk.injEq] at e
          obtain ⟨⟨rfl, rfl⟩, rfl⟩ := e
          have := lookup_mem_keys.mp (by rw [hl]; rfl : (ps.reverse.lookup x).isSome)
          rw [List.map_reverse, List.mem_reverse] at this
          exact (hb this).elim
        | cons p a =>
          simp only [List.cons_append, List.cons.injEq] at e
          rw [← hl]
          exact ih.mpr ⟨a, b, e.2, hb⟩
    | none =>
      simp only [Option.none_or]
      have hk : k ∉ ps.map Prod.fst := by
        intro h
        have := lookup_mem_keys.mpr (by rwa [List.map_reverse, List.mem_reverse] : k ∈ ps.reverse.map Prod.fst)
        rw [hl] at this; cases this
      rw [List.lookup_cons]
      by_cases h : k = x
      · subst h
        simp only [beq_self_eq_true]
        constructor
        · intro h; cases h
          exact ⟨[], ps, rfl, hk⟩
        · rintro ⟨a, b, e, hb⟩
          cases a with
          | nil => simp only [List.nil_append, List.cons.injEq, Prod.mk.injEq] at e; rw [e.1.2]
          | cons p a =>
            simp only [List.cons_append, List.cons.injEq] at e
            exfalso; apply hk; rw [e.2]; simp
      · rw [beq_eq_false_iff_ne.mpr h]
        simp only [List.lookup_nil]
        constructor
        · intro h; cases h
        · rintro ⟨a, b, e, hb⟩
          cases a with
          | nil => simp only [List.nil_append, List.cons.injEq, Prod.mk.injEq] at e; exact (h e.1.1.symm).elim
          | cons p a =>
            simp only [List.cons_append, List.cons.injEq] at e
            exfalso; apply hk; rw [e.2]; simp

/-! ### Sections -/

/-- `attrs` are the attributes of the last entry with this section and name -/
def LastEntry (es : List Entry) (s n : String) (attrs : List (String × Val)) : Prop :=
  ∃ a b, es = a ++ ⟨s, n, attrs⟩ :: b ∧ ∀ e ∈ b, ¬ (e.sec = s ∧ e.name = n)

theorem lastEntry_items {es : List Entry} {s n : String} {v : Val} :
    (secItems es s).reverse.lookup n = some v ↔ ∃ attrs, v = .dict attrs ∧ LastEntry es s n attrs := by
  induction es with
  | nil => simp [secItems, LastEntry]
  | cons e es ih =>
    have key : ∀ attrs, LastEntry (e :: es) s n attrs ↔ LastEntry es s n attrs ∨
        (e = ⟨s, n, attrs⟩ ∧ ∀ e ∈ es, ¬ (e.sec = s ∧ e.name = n)) := by
      intro attrs
      unfold LastEntry
      constructor
      · rintro ⟨a, b, h, hb⟩
        cases a with
        | nil => simp only [List.nil_append, List.cons.injEq] at h; exact .inr ⟨h.1, h.2 ▸ hb⟩
        | cons x a => simp only [List.cons_append, List.cons.injEq] at h; exact .inl ⟨a, b, h.2, hb⟩
      · rintro (⟨a, b, h, hb⟩ | ⟨h, hb⟩)
        · exact ⟨e :: a, b, by rw [h]; rfl, hb⟩
        · exact ⟨[], es, by rw [h]; rfl, hb⟩
    have hnone : (secItems es s).reverse.lookup n = .none ↔ ∀ e ∈ es, ¬ (e.sec = s ∧ e.name = n) := by
      have h1 := @lookup_mem_keys (secItems es s).reverse n
      constructor
      · intro h e he hen
        have : n ∈ (secItems es s).reverse.map Prod.fst := by
          rw [List.map_reverse, List.mem_reverse]
          unfold secItems
          rw [List.map_map]
          exact List.mem_map.mpr ⟨e, List.mem_filter.mpr ⟨he, by simp [hen.1]⟩, hen.2⟩
        rw [← h1, h] at this; cases this
      · intro h
        cases hl : (secItems es s).reverse.lookup n with
        | none => rfl
        | some w =>
          have : n ∈ (secItems es s).reverse.map Prod.fst := h1.mp (by rw [hl]; rfl)
          rw [List.map_reverse, List.mem_reverse] at this
          unfold secItems at this
          rw [List.map_map] at this
          obtain ⟨e, he, hen⟩ := List.mem_map.mp this
          have := List.mem_filter.mp he
          exact (h e this.1 ⟨by simpa using this.2, hen⟩).elim
    by_cases hs : e.sec = s
    · have hi : secItems (e :: es) s = (e.name, .dict e.attrs) :: secItems es s := by
        unfold secItems; simp [hs]
      rw [hi, List.reverse_cons, List.lookup_append]
      cases hl : (secItems es s).reverse.lookup n with
      | some w =>
        simp only [Option.some_or]
        rw [← hl, ih]
        constructor
        · rintro ⟨attrs, h1, h2⟩; exact ⟨attrs, h1, (key _).mpr (.inl h2)⟩
        · rintro ⟨attrs, h1, h2⟩
          rcases (key _).mp h2 with h2 | ⟨_, h2⟩
          · exact ⟨attrs, h1, h2⟩
          · rw [← hnone] at h2; rw [h2] at hl; cases hl
      | none =>
        simp only [Option.none_or, List.lookup_cons, List.lookup_nil]
        have hn := hnone.mp hl
        by_cases he : n = e.name
        · subst he
          simp only [beq_self_eq_true]
          constructor
          · intro h; cases h
            refine ⟨e.attrs, rfl, (key _).mpr (.inr ⟨?_, hn⟩)⟩
            cases e; simp_all
          · rintro ⟨attrs, rfl, h2⟩
            rcases (key _).mp h2 with ⟨a, b, h, _⟩ | ⟨h2, _⟩
            · exact (hn ⟨s, e.name, attrs⟩ (by rw [h]; simp) ⟨rfl, rfl⟩).elim
            · rw [h2]
        · rw [beq_eq_false_iff_ne.mpr he]
          constructor
          · intro h; cases h
          · rintro ⟨attrs, rfl, h2⟩
            rcases (key _).mp h2 with ⟨a, b, h, _⟩ | ⟨h2, _⟩
            · exact (hn ⟨s, n, attrs⟩ (by rw [h]; simp) ⟨rfl, rfl⟩).elim
            · rw [h2] at he; exact (he rfl).elim
    · have hi : secItems (e :: es) s = secItems es s := by
        unfold secItems; simp [hs]
      rw [hi, ih]
      constructor
      · rintro ⟨attrs, h1, h2⟩; exact ⟨attrs, h1, (key _).mpr (.inl h2)⟩
      · rintro ⟨attrs, h1, h2⟩
        rcases (key _).mp h2 with h2 | ⟨h2, _⟩
        · exact ⟨attrs, h1, h2⟩
        · rw [h2] at hs; exact (hs rfl).elim

theorem collect_get (es : List Entry) (s n : String) (v : Val) :
    (Val.dict (collect es)).at? [.key s, .key n] = some v ↔ ∃ attrs, v = .dict attrs ∧ LastEntry es s n attrs := by
  rw [← lastEntry_items]
  simp only [Val.at?, Val.step?]
  unfold collect
  rw [dGet_map (f := fun s => Val.dict (lastWins ((es.filter (·.sec = s)).map (fun e => (e.name, .dict e.attrs)))))]
  split
  · simp only [Option.bind_some]
    rw [dGet_lastWins]
    simp [secItems]
  · rename_i h
    have : secItems es s = [] := by
      unfold secItems
      rw [List.map_eq_nil_iff, List.filter_eq_nil_iff]
      intro x hx hs
      simp only [decide_eq_true_eq] at hs
      exact h (List.mem_eraseDups.mpr (hs ▸ List.mem_map_of_mem hx))
    rw [this]; simp

/-! ### What declarations contribute -/

/-- the sections of a result -/
def sections : List String :=
  ["globals", "imports", "extensions", "metadata", "parameters", "variables", "outputs",
   "resources", "modules", "types", "functions"]

/-- names a declaration imports -/
def Decl.importNames : Decl → List String
  | .importNs b => [txt b]
  | .importFrom i is _ => (i :: is).map (fun i => match i.name with | .name x => txt x.1 | .star => "*")
  | _ => []

/-- section and name of an entry -/
def Entry.place (e : Entry) : String × String := (e.sec, e.name)

theorem out_places {ln : Bool} {l : Lines} {d : Decl} {o : Out} (h : d.out ln l = .ok o) :
    o.own.map Entry.place = d.ownName ∧
    o.imports.map Entry.place = d.importNames.map (fun n => ("imports", n)) ∧
    (∀ e ∈ o.children, e.sec = "resources") ∧
    (o.children ≠ [] → ∃ ds x b ex c, d = .resource ds x b ex c) := by
  cases d with
  | scope b =>
    rw [Decl.out] at h
    split at h <;> cases h
    exact ⟨rfl, rfl, by simp, by simp⟩
  | importNs b => rw [Decl.out] at h; cases h; exact ⟨rfl, rfl, by simp, by simp⟩
  | importFrom i is b =>
    rw [Decl.out] at h; cases h
    refine ⟨rfl, ?_, by simp, by simp⟩
    simp only [Decl.importNames, List.map_map]
    apply List.map_congr_left
    intro a _
    simp only [Function.comp, ImportItem.entry, Entry.place, ImportName.text]
    cases a.name <;> rfl
  | extension x c al =>
    rw [Decl.out] at h; obtain ⟨_, _, h⟩ := bind_ok' h; cases h; exact ⟨rfl, rfl, by simp, by simp⟩
  | metadata x b => rw [Decl.out] at h; cases h; exact ⟨rfl, rfl, by simp, by simp⟩
  | param ds x t e =>
    rw [Decl.out] at h; obtain ⟨_, _, h⟩ := bind_ok' h; obtain ⟨_, _, h⟩ := bind_ok' h
    cases h; exact ⟨rfl, rfl, by simp, by simp⟩
  | var ds x t e =>
    rw [Decl.out] at h; obtain ⟨_, _, h⟩ := bind_ok' h; obtain ⟨_, _, h⟩ := bind_ok' h
    cases h; exact ⟨rfl, rfl, by simp, by simp⟩
  | output ds x t e =>
    rw [Decl.out] at h; obtain ⟨_, _, h⟩ := bind_ok' h; obtain ⟨_, _, h⟩ := bind_ok' h
    cases h; exact ⟨rfl, rfl, by simp, by simp⟩
  | resource ds x b ex c =>
    rw [Decl.out] at h; obtain ⟨_, _, h⟩ := bind_ok' h; obtain ⟨_, _, h⟩ := bind_ok' h
    obtain ⟨_, _, h⟩ := bind_ok' h; obtain ⟨_, _, h⟩ := bind_ok' h
    cases h
    refine ⟨rfl, rfl, ?_, fun _ => ⟨_, _, _, _, _, rfl⟩⟩
    intro e he
    simp only [List.mem_map] at he
    obtain ⟨v, _, rfl⟩ := he
    unfold childEntry
    split
    · split <;> rfl
    · rfl
  | module ds x b c =>
    rw [Decl.out] at h; obtain ⟨_, _, h⟩ := bind_ok' h; obtain ⟨_, _, h⟩ := bind_ok' h
    obtain ⟨_, _, h⟩ := bind_ok' h; obtain ⟨_, _, h⟩ := bind_ok' h; obtain ⟨_, _, h⟩ := bind_ok' h
    cases h; exact ⟨rfl, rfl, by simp, by simp⟩
  | typ ds x e es =>
    rw [Decl.out] at h; obtain ⟨_, _, h⟩ := bind_ok' h; obtain ⟨_, _, h⟩ := bind_ok' h
    cases h; exact ⟨rfl, rfl, by simp, by simp⟩
  | func ds x ps t e =>
    rw [Decl.out] at h; obtain ⟨_, _, h⟩ := bind_ok' h; obtain ⟨_, _, h⟩ := bind_ok' h
    cases h; exact ⟨rfl, rfl, by simp, by simp⟩

/-- `os` are the contributions of the declarations of `p`, one by one -/
inductive Contribs (ln : Bool) : Program → List Out → Prop where
  | nil : Contribs ln [] []
  | cons {l d p o os} : d.out ln l = .ok o → Contribs ln p os → Contribs ln ((l, d) :: p) (o :: os)

theorem contribs_of {ln : Bool} {p : Program} {os : List Out} (h : p.outs ln = .ok os) : Contribs ln p os := by
  induction p generalizing os with
  | nil => rw [Program.outs] at h; cases h; exact .nil
  | cons d p ih =>
    obtain ⟨l, d⟩ := d
    rw [Program.outs] at h
    obtain ⟨o, ho, h⟩ := bind_ok' h
    obtain ⟨os', hos, h⟩ := bind_ok' h
    cases h
    exact .cons ho (ih hos)

theorem contribs_iff {ln : Bool} {p : Program} {os : List Out} : Contribs ln p os ↔ p.outs ln = .ok os := by
  refine ⟨fun h => ?_, contribs_of⟩
  induction h with
  | nil => rfl
  | cons ho _ ih => rw [Program.outs, ho]; simp only [bind, Except.bind, ih]

/-- the result of `parse`, through the contributions of the declarations -/
theorem parse_entries {P : Parser} {text path v} (h : P.parse text path = .ok v) :
    ∃ t p os, chosenText text path = .ok t ∧ Spells t p ∧ Contribs P.addLineNumbers p os ∧
      v = .dict (collect (entries P.addLineNumbers os)) := by
  obtain ⟨t, p, h1, h2, h3⟩ := parse_ok h
  rw [Program.val] at h3
  obtain ⟨os, hos, h3⟩ := bind_ok' h3
  cases h3
  exact ⟨t, p, os, h1, h2, contribs_of hos, rfl⟩

theorem contribs_own {ln : Bool} {p : Program} {os : List Out} (h : Contribs ln p os) :
    (os.flatMap Out.own).map Entry.place = p.flatMap (fun d => d.2.ownName) := by
  induction h with
  | nil => rfl
  | cons ho _ ih => simp only [List.flatMap_cons, List.map_append, ih, (out_places ho).1]

theorem contribs_imports {ln : Bool} {p : Program} {os : List Out} (h : Contribs ln p os) :
    (os.flatMap Out.imports).map Entry.place =
      (p.flatMap (fun d => d.2.importNames)).map (fun n => ("imports", n)) := by
  induction h with
  | nil => rfl
  | cons ho _ ih => simp only [List.flatMap_cons, List.map_append, ih, (out_places ho).2.1]

theorem contribs_children {ln : Bool} {p : Program} {os : List Out} (h : Contribs ln p os) :
    ∀ e ∈ os.flatMap Out.children, e.sec = "resources" := by
  induction h with
  | nil => simp
  | cons ho _ ih =>
    simp only [List.flatMap_cons, List.mem_append]
    rintro e (he | he)
    · exact (out_places ho).2.2.1 e he
    · exact ih e he

theorem ownName_sections (d : Decl) : ∀ x ∈ d.ownName, x.1 ∈ sections ∧ (x.1 = "globals" → x.2 = "scope") := by
  cases d <;> simp [Decl.ownName, sections]

theorem entries_sections {ln : Bool} {p : Program} {os : List Out} (h : Contribs ln p os) :
    ∀ e ∈ entries ln os, e.sec ∈ sections ∧ (e.sec = "globals" → e.name = "scope") := by
  intro e he
  unfold entries at he
  simp only [List.mem_cons, List.mem_append] at he
  rcases he with rfl | (he | he) | he
  · exact ⟨by simp [defaultScope, sections], fun _ => rfl⟩
  · have : e.place ∈ p.flatMap (fun d => d.2.ownName) := by
      rw [← contribs_own h]; exact List.mem_map_of_mem he
    obtain ⟨d, _, hd⟩ := List.mem_flatMap.mp this
    exact ownName_sections d.2 _ hd
  · have : e.place ∈ (p.flatMap (fun d => d.2.importNames)).map (fun n => ("imports", n)) := by
      rw [← contribs_imports h]; exact List.mem_map_of_mem he
    obtain ⟨n, _, hn⟩ := List.mem_map.mp this
    have : e.sec = "imports" := (congrArg Prod.fst hn).symm
    rw [this]; exact ⟨by decide, fun h => absurd h (by decide)⟩
  · rw [contribs_children h e he]; exact ⟨by decide, fun h => absurd h (by decide)⟩

/-! ### C08 -/

/-- a section: distinct names, each with a dictionary -/
def IsSection (v : Val) : Prop :=
  ∃ d : List (String × Val), v = .dict d ∧ (d.map Prod.fst).Nodup ∧ ∀ p ∈ d, ∃ a, p.2 = .dict a

theorem collect_keys (es : List Entry) : (collect es).map Prod.fst = (es.map Entry.sec).eraseDups := by
  unfold collect; rw [List.map_map]; simp [Function.comp_def]

theorem lastWins_keys' (ps : List (String × Val)) : (lastWins ps).map Prod.fst = (ps.map Prod.fst).eraseDups := by
  unfold lastWins; rw [List.map_map]; simp [Function.comp_def]

theorem dGet_mem {k : String} {v : Val} {d : List (String × Val)} (h : (d.map Prod.fst).Nodup)
    (hm : (k, v) ∈ d) : dGet k d = some v := by
  induction d with
  | nil => simp at hm
  | cons p d ih =>
    obtain ⟨a, b⟩ := p
    simp only [List.map_cons, List.nodup_cons] at h
    simp only [dGet]
    rcases List.mem_cons.mp hm with e | hm'
    · cases e; simp
    · have : k ≠ a := by
        rintro rfl
        exact h.1 (List.mem_map.mpr ⟨_, hm', rfl⟩)
      simp [Ne.symm this, ih h.2 hm']

theorem mem_of_dGet {k : String} {v : Val} {d : List (String × Val)} (h : dGet k d = some v) : (k, v) ∈ d := by
  induction d with
  | nil => simp [dGet] at h
  | cons p d ih =>
    obtain ⟨a, b⟩ := p
    simp only [dGet] at h
    split at h
    · rename_i hk
      cases h; subst hk; simp
    · exact List.mem_cons_of_mem _ (ih h)

theorem collect_section (es : List Entry) : ∀ p ∈ collect es, IsSection p.2 := by
  intro p hp
  unfold collect at hp
  obtain ⟨s, _, rfl⟩ := List.mem_map.mp hp
  refine ⟨_, rfl, ?_, ?_⟩
  · rw [lastWins_keys']; exact nodup_eraseDups _
  · intro q hq
    have h1 := dGet_mem (by rw [lastWins_keys']; exact nodup_eraseDups _) hq
    rw [dGet_lastWins, lookup_reverse] at h1
    obtain ⟨a, b, h1, _⟩ := h1
    have : (q.1, q.2) ∈ (es.filter (·.sec = s)).map (fun e => (e.name, Val.dict e.attrs)) := by
      rw [h1]; simp
    obtain ⟨e, _, he⟩ := List.mem_map.mp this
    exact ⟨e.attrs, (congrArg Prod.snd he).symm⟩

/-- **C08.** A result is a dictionary of sections: keys among the eleven names, none twice,
`globals` first; every section maps distinct names to dictionaries; `globals` has the one entry
`scope`. -/
theorem C08_shape {P : Parser} {text path v} (h : P.parse text path = .ok v) :
    ∃ r : List (String × Val), v = .dict r ∧ (r.map Prod.fst).Nodup ∧ (∀ p ∈ r, p.1 ∈ sections) ∧
      (∀ p ∈ r, IsSection p.2) ∧
      ∃ attrs rest, r = ("globals", .dict [("scope", .dict attrs)]) :: rest := by
  obtain ⟨t, p, os, _, _, hc, rfl⟩ := parse_entries h
  have hs := entries_sections hc
  refine ⟨_, rfl, ?_, ?_, collect_section _, ?_⟩
  · rw [collect_keys]; exact nodup_eraseDups _
  · intro q hq
    have : q.1 ∈ (collect (entries P.addLineNumbers os)).map Prod.fst := List.mem_map_of_mem hq
    rw [collect_keys, List.mem_eraseDups] at this
    obtain ⟨e, he, heq⟩ := List.mem_map.mp this
    rw [← heq]; exact (hs e he).1
  · -- the first section is `globals`; all of its entries are named `scope`
    generalize hes : entries P.addLineNumbers os = es at hs
    have hne : es = defaultScope P.addLineNumbers :: es.tail := by rw [← hes]; rfl
    have hkeys : (collect es).map Prod.fst = "globals" :: ((es.tail.map Entry.sec).filter (fun b => !(b == "globals"))).eraseDups := by
      rw [collect_keys, hne, List.map_cons, List.eraseDups_cons]; rfl
    cases hr : collect es with
    | nil => rw [hr] at hkeys; cases hkeys
    | cons q rest =>
      rw [hr] at hkeys
      obtain ⟨k, s⟩ := q
      simp only [List.map_cons, List.cons.injEq] at hkeys
      obtain ⟨rfl, _⟩ := hkeys
      have hq : ("globals", s) ∈ collect es := by rw [hr]; simp
      obtain ⟨d, hd, hnd, hdict⟩ := collect_section es _ hq
      simp only at hd
      subst hd
      -- names
      have hnames : ∀ n ∈ d.map Prod.fst, n = "scope" := by
        intro n hn
        unfold collect at hq
        obtain ⟨s, _, he⟩ := List.mem_map.mp hq
        have h1 := congrArg Prod.fst he
        have h2 := congrArg Prod.snd he
        simp only at h1 h2
        subst h1
        simp only [Val.dict.injEq] at h2
        rw [← h2, lastWins_keys', List.mem_eraseDups, List.map_map] at hn
        obtain ⟨e, he, rfl⟩ := List.mem_map.mp hn
        have := List.mem_filter.mp he
        exact (hs e this.1).2 (by simpa using this.2)
      have hsome : ∃ x, (Val.dict (collect es)).at? [.key "globals", .key "scope"] = some x := by
        have : ∃ attrs, LastEntry es "globals" "scope" attrs := by
          have : ∃ v, (secItems es "globals").reverse.lookup "scope" = some v := by
            rw [← Option.isSome_iff_exists, lookup_mem_keys, List.map_reverse, List.mem_reverse, hne]
            simp [secItems, defaultScope]
          obtain ⟨v, hv⟩ := this
          obtain ⟨a, _, ha⟩ := lastEntry_items.mp hv
          exact ⟨a, ha⟩
        obtain ⟨a, ha⟩ := this
        exact ⟨_, (collect_get es "globals" "scope" _).mpr ⟨a, rfl, ha⟩⟩
      obtain ⟨x, hx⟩ := hsome
      rw [hr] at hx
      simp only [Val.at?, Val.step?, dGet, if_true, Option.bind_some] at hx
      cases d with
      | nil => simp [dGet] at hx
      | cons q d =>
        obtain ⟨n, y⟩ := q
        have := hnames n (by simp)
        subst this
        cases d with
        | nil =>
          obtain ⟨a, ha⟩ := hdict _ (by simp : ("scope", y) ∈ _)
          simp only at ha
          subst ha
          exact ⟨a, rest, rfl⟩
        | cons q d =>
          exfalso
          obtain ⟨m, z⟩ := q
          have := hnames m (by simp)
          subst this
          simp at hnd

/-! ### C10 -/

/-- **C10.** The result answers every lookup `[section][name]` with the attributes of the last
entry for that section and name, where the entries are: the default scope, what the declarations
contribute in the order of the file, then what they import, then the nested resources.  Every
declaration contributes exactly its own name, or the names it imports; nested resources are
contributed by resources only. -/
theorem C10_collected {P : Parser} {text path v} (h : P.parse text path = .ok v) :
    ∃ t p os, chosenText text path = .ok t ∧ Spells t p ∧ Contribs P.addLineNumbers p os ∧
      (∀ s n x, v.at? [.key s, .key n] = some x ↔ ∃ attrs, x = .dict attrs ∧
        LastEntry (entries P.addLineNumbers os) s n attrs) ∧
      (os.flatMap Out.own).map Entry.place = p.flatMap (fun d => d.2.ownName) ∧
      (os.flatMap Out.imports).map Entry.place =
        (p.flatMap (fun d => d.2.importNames)).map (fun n => ("imports", n)) ∧
      (∀ e ∈ os.flatMap Out.children, e.sec = "resources") ∧
      ((∀ d ∈ p, ∀ ds x b ex c, d.2 ≠ .resource ds x b ex c) → os.flatMap Out.children = []) := by
  obtain ⟨t, p, os, h1, h2, hc, rfl⟩ := parse_entries h
  refine ⟨t, p, os, h1, h2, hc, fun s n x => collect_get _ s n x, contribs_own hc, contribs_imports hc,
    contribs_children hc, ?_⟩
  intro hn
  clear h h2
  induction hc with
  | nil => rfl
  | @cons l d p o os ho _ ih =>
    rw [List.flatMap_cons, ih (fun d hd => hn d (List.mem_cons_of_mem _ hd)), List.append_nil]
    by_contra hne
    obtain ⟨ds, x, b, ex, c, hd⟩ := (out_places ho).2.2.2 hne
    exact hn (l, d) (by simp) ds x b ex c hd

/-! ### C11 -/

/-- the literals of the `targetScope` declarations, in order -/
def Program.scopes (p : Program) : List String :=
  p.filterMap (fun d => match d.2 with | .scope b => some (txt b) | _ => .none)

theorem contribs_globals {ln : Bool} {p : Program} {os : List Out} (h : Contribs ln p os) :
    ((os.flatMap Out.own).filter (·.sec = "globals")).map (fun e => dGet "value" e.attrs) =
      p.scopes.map (fun s => some (.str s)) ∧
    ∀ s ∈ p.scopes, s ∈ ["resourceGroup", "subscription", "managementGroup", "tenant"] := by
  induction h with
  | nil => exact ⟨rfl, by simp [Program.scopes]⟩
  | @cons l d p o os ho _ ih =>
    simp only [List.flatMap_cons, List.filter_append, List.map_append, ih.1]
    have key : ∀ b, d = .scope b ∨ d ≠ .scope b := fun b => by
      cases d <;> simp
      exact Classical.em _
    by_cases hd : ∃ b, d = .scope b
    · obtain ⟨b, rfl⟩ := hd
      rw [Decl.out] at ho
      split at ho
      · rename_i hb
        cases ho
        refine ⟨by simp [Program.scopes, dGet], ?_⟩
        intro s hs
        simp only [Program.scopes, List.filterMap_cons, List.mem_cons] at hs
        rcases hs with rfl | hs
        · exact hb
        · exact ih.2 s hs
      · cases ho
    · have hs : Program.scopes ((l, d) :: p) = Program.scopes p := by
        unfold Program.scopes
        rw [List.filterMap_cons]
        cases d <;> first | rfl | exact absurd ⟨_, rfl⟩ hd
      have ho' : o.own.filter (·.sec = "globals") = [] := by
        rw [List.filter_eq_nil_iff]
        intro e he hg
        have h1 := (out_places ho).1
        have h2 : e.place ∈ d.ownName := by rw [← h1]; exact List.mem_map_of_mem he
        have h3 : e.place.1 = "globals" := by simpa [Entry.place] using hg
        revert h2 h3
        generalize e.place = pl
        cases d <;> simp [Decl.ownName] <;>
          first
          | (rintro rfl; simp; done)
          | (exact absurd ⟨_, rfl⟩ hd)
      rw [hs, ho']
      exact ⟨rfl, ih.2⟩

/-- **C11.** The scope in the result is the literal of the last `targetScope`, `resourceGroup` if
there is none; every `targetScope` of an accepted text is one of the four scopes. -/
theorem C11_scope {P : Parser} {text path v} (h : P.parse text path = .ok v) :
    ∃ t p, chosenText text path = .ok t ∧ Spells t p ∧
      v.at? [.key "globals", .key "scope", .key "value"] =
        some (.str (p.scopes.getLast?.getD "resourceGroup")) ∧
      (∀ s ∈ p.scopes, s ∈ ["resourceGroup", "subscription", "managementGroup", "tenant"]) := by
  obtain ⟨t, p, os, h1, h2, hc, hv⟩ := parse_entries h
  refine ⟨t, p, h1, h2, ?_, (contribs_globals hc).2⟩
  -- the entry
  have hg := (contribs_globals hc).1
  have hsec := entries_sections hc
  have hfilter : (entries P.addLineNumbers os).filter (·.sec = "globals") =
      defaultScope P.addLineNumbers :: (os.flatMap Out.own).filter (·.sec = "globals") := by
    unfold entries
    have hi : (os.flatMap Out.imports).filter (·.sec = "globals") = [] := by
      rw [List.filter_eq_nil_iff]
      intro e he
      have : e.place ∈ (p.flatMap (fun d => d.2.importNames)).map (fun n => ("imports", n)) := by
        rw [← contribs_imports hc]; exact List.mem_map_of_mem he
      obtain ⟨n, _, hn⟩ := List.mem_map.mp this
      have : e.sec = "imports" := (congrArg Prod.fst hn).symm
      simp [this]
    have hch : (os.flatMap Out.children).filter (·.sec = "globals") = [] := by
      rw [List.filter_eq_nil_iff]
      intro e he
      simp [contribs_children hc e he]
    rw [List.filter_cons, List.filter_append, List.filter_append, hi, hch]
    simp [defaultScope]
  -- the last entry of the section
  have hlast : ∀ es : List Entry, (∀ e ∈ es, e.sec = "globals" → e.name = "scope") → ∀ e0,
      (es.filter (·.sec = "globals")).getLast? = some e0 → LastEntry es "globals" "scope" e0.attrs := by
    intro es
    induction es using List.reverseRecOn with
    | nil => intro _ e0 h; simp at h
    | append_singleton es e ih =>
      intro hn e0 h0
      rw [List.filter_append] at h0
      by_cases he : e.sec = "globals"
      · simp [he] at h0
        subst h0
        refine ⟨es, [], ?_, by simp⟩
        have := hn e (by simp) he
        cases e; simp_all
      · simp [he] at h0
        obtain ⟨a, b, h1, h2⟩ := ih (fun e he => hn e (by simp [he])) e0 (by simpa using h0)
        refine ⟨a, b ++ [e], by rw [h1]; simp, ?_⟩
        intro x hx
        rcases List.mem_append.mp hx with hx | hx
        · exact h2 x hx
        · simp only [List.mem_singleton] at hx; subst hx; exact fun h => he h.1
  cases h0 : ((entries P.addLineNumbers os).filter (·.sec = "globals")).getLast? with
  | none => rw [List.getLast?_eq_none_iff, hfilter] at h0; cases h0
  | some e0 =>
    have hle := hlast _ (fun e he => (hsec e he).2) e0 h0
    have hat := (collect_get _ "globals" "scope" _).mpr ⟨e0.attrs, rfl, hle⟩
    have hval : dGet "value" e0.attrs = some (.str (p.scopes.getLast?.getD "resourceGroup")) := by
      rw [hfilter, List.getLast?_cons] at h0
      have h1 := congrArg List.getLast? hg
      rw [List.getLast?_map, List.getLast?_map] at h1
      cases h2 : ((os.flatMap Out.own).filter (·.sec = "globals")).getLast? with
      | none =>
        rw [h2] at h0 h1
        simp only [Option.map_none] at h1
        cases h3 : p.scopes.getLast? with
        | none => cases h0; rfl
        | some s => rw [h3] at h1; cases h1
      | some e1 =>
        rw [h2] at h0 h1
        simp only [Option.getD_some, Option.some.injEq] at h0
        subst h0
        simp only [Option.map_some] at h1
        cases h3 : p.scopes.getLast? with
        | none => rw [h3] at h1; cases h1
        | some s =>
          rw [h3] at h1
          simp only [Option.map_some, Option.some.injEq] at h1
          rw [h1]; rfl
    rw [hv]
    rw [show [PStep.key "globals", .key "scope", .key "value"] =
      [.key "globals", .key "scope"] ++ [.key "value"] from rfl, Val.at?_append, hat]
    simp [Val.at?, Val.step?, hval]

/-! ### Concrete cases -/

/-- the scope given last holds; the name declared last wins; imports come behind -/
example : Parser.parse ⟨false⟩ (some "targetScope = 'tenant'\nimport 'az'\nvar a = 1\nvar b = 2\nvar a = 3\ntargetScope = 'subscription'\n") .none =
    .ok (.dict [("globals", .dict [("scope", .dict [("value", .str "subscription")])]),
      ("variables", .dict [("a", .dict [("decorators", .list []), ("value", .int 3)]),
        ("b", .dict [("decorators", .list []), ("value", .int 2)])]),
      ("imports", .dict [("az", .dict [])])]) := eq_of_outIs (by decide +kernel)

/-- without `targetScope` -/
example : Parser.parse ⟨false⟩ (some "\n") .none =
    .ok (.dict [("globals", .dict [("scope", .dict [("value", .str "resourceGroup")])])]) :=
  eq_of_outIs (by decide +kernel)

/-- with an unknown scope -/
example : Parser.parse ⟨false⟩ (some "targetScope = 'planet'") .none =
    .error (.visitError "scope" (.valueError "target scope is invalid: planet")) :=
  eq_of_errIs (by decide +kernel)

end Pycep
