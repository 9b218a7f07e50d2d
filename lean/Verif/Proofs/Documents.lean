import Verif.Proofs.Document
/-
What is reported about a document determines the document.
-/
namespace Pycep

/-! ### Results and their entries -/

theorem map_eq_forall₂ {α β γ : Type} {R : α → β → Prop} {S : α → α → Prop} {f : β → γ} :
    ∀ {as as' : List α} {bs bs' : List β}, List.Forall₂ R as bs → List.Forall₂ R as' bs' →
      (∀ a ∈ as, ∀ a' ∈ as', ∀ b b', R a b → R a' b' → (f b = f b' ↔ S a a')) →
      (bs.map f = bs'.map f ↔ List.Forall₂ S as as')
  | [], [], _, _, .nil, .nil, _ => ⟨fun _ => .nil, fun _ => rfl⟩
  | [], _ :: _, _, _, .nil, .cons _ _, _ => ⟨fun e => by (cases e), fun e => by (cases e)⟩
  | _ :: _, [], _, _, .cons _ _, .nil, _ => ⟨fun e => by (cases e), fun e => by (cases e)⟩
  | a :: as, a' :: as', b :: bs, b' :: bs', .cons h hs, .cons h' hs', H => by
    rw [List.map_cons, List.map_cons, List.cons.injEq, List.forall₂_cons, H a (by simp) a' (by simp) b b' h h',
      map_eq_forall₂ hs hs' (fun x hx y hy => H x (by simp [hx]) y (by simp [hy]))]

theorem collect_eq_iff {es es' : List Entry} : collect es = collect es' ↔
    (es.map Entry.sec).eraseDups = (es'.map Entry.sec).eraseDups ∧
      ∀ s, lastWins (secItems es s) = lastWins (secItems es' s) := by
  constructor
  · intro h
    have hk : (es.map Entry.sec).eraseDups = (es'.map Entry.sec).eraseDups := by
      rw [← collect_keys, ← collect_keys, h]
    refine ⟨hk, fun s => ?_⟩
    by_cases hs : s ∈ (es.map Entry.sec).eraseDups
    · have : ∀ {es : List Entry}, s ∈ (es.map Entry.sec).eraseDups →
          dGet s (collect es) = some (.dict (lastWins (secItems es s))) := by
        intro es hs
        unfold collect
        rw [dGet_map, if_pos hs]; rfl
      have h1 := this hs
      rw [h, this (hk ▸ hs)] at h1
      simp only [Option.some.injEq, Val.dict.injEq] at h1
      exact h1.symm
    · have : ∀ {es : List Entry}, s ∉ (es.map Entry.sec).eraseDups → secItems es s = [] := by
        intro es hs
        refine secItems_nil fun e he h => hs (List.mem_eraseDups.mpr (h ▸ List.mem_map_of_mem he))
      rw [this hs, this (hk ▸ hs)]
  · rintro ⟨hk, hs⟩
    unfold collect
    rw [hk]
    refine List.map_congr_left fun s _ => ?_
    have := hs s
    unfold secItems at this
    rw [this]

theorem eraseDups_filter (q : String → Bool) (l : List String) :
    l.eraseDups.filter q = (l.filter q).eraseDups := by
  induction l using List.reverseRecOn with
  | nil => rfl
  | append_singleton l k ih =>
    rw [eraseDups_concat, List.filter_append]
    cases hq : q k with
    | true =>
      rw [show [k].filter q = [k] by simp [hq], eraseDups_concat]
      by_cases hk : k ∈ l
      · rw [if_pos hk, if_pos (List.mem_filter.mpr ⟨hk, hq⟩), ih]
      · rw [if_neg hk, if_neg (fun h => hk (List.mem_filter.mp h).1), List.filter_append, ih,
          show [k].filter q = [k] by simp [hq]]
    | false =>
      rw [show [k].filter q = [] by simp [hq], List.append_nil]
      by_cases hk : k ∈ l
      · rw [if_pos hk, ih]
      · rw [if_neg hk, List.filter_append, ih, show [k].filter q = [] by simp [hq], List.append_nil]

/-- the sections of a result: first the target scope, then declarations, then imports -/
theorem sections_eq {A B : List String} (hA : ∀ a ∈ A, a ≠ "imports") (hB : ∀ b ∈ B, b = "imports") :
    ("globals" :: (A ++ B)).eraseDups = "globals" :: (A.filter ordinary).eraseDups ++
      (if B = [] then [] else ["imports"]) := by
  induction B using List.reverseRecOn with
  | nil =>
    rw [if_pos rfl, List.append_nil, List.append_nil, List.eraseDups_cons]
    congr 2
    refine List.filter_congr fun a ha => ?_
    have := hA a ha
    simp [ordinary, this, bne]
  | append_singleton B b ih =>
    have hb : b = "imports" := hB b (by simp)
    subst hb
    rw [← List.append_assoc, ← List.cons_append, eraseDups_concat, ih (fun x hx => hB x (by simp [hx]))]
    by_cases hn : B = []
    · subst hn
      rw [if_neg, if_pos rfl, if_neg (by simp), List.append_nil]
      intro h
      rcases List.mem_cons.mp h with h | h
      · revert h; decide
      · rw [List.append_nil] at h
        exact hA _ h rfl
    · rw [if_pos, if_neg hn, if_neg (by simp)]
      obtain ⟨x, hx⟩ := List.exists_mem_of_ne_nil B hn
      have := hB x (by simp [hx])
      subst this
      simp [hx]

/-! ### Entries of faithful programs -/

theorem kind_ownName (d : Decl) : d.ownName.map Prod.fst = if d.kind = "imports" then [] else [d.kind] := by
  cases d <;> simp [Decl.ownName, Decl.kind]

/-- a declaration of another kind than imports has one entry of its own -/
theorem own_one {ln : Bool} {l : Lines} {d : Decl} {o : Out} (h : d.out ln l = .ok o) :
    if d.kind = "imports" then o.own = [] else ∃ e, o.own = [e] ∧ e.sec = d.kind ∧ e.place ∈ d.ownName := by
  have h1 := (out_places h).1
  have h2 := kind_ownName d
  split
  · rename_i hk
    rw [if_pos hk, List.map_eq_nil_iff] at h2
    rw [h2, List.map_eq_nil_iff] at h1
    exact h1
  · rename_i hk
    rw [if_neg hk] at h2
    cases ho : o.own with
    | nil => rw [ho] at h1; rw [← h1] at h2; cases h2
    | cons e es =>
      cases es with
      | cons _ _ => rw [ho] at h1; rw [← h1] at h2; simp at h2
      | nil =>
        rw [ho] at h1
        rw [← h1] at h2 ⊢
        simp only [List.map_cons, List.map_nil, List.cons.injEq, and_true] at h2
        exact ⟨e, rfl, h2, by simp⟩

theorem own_kinds {ln : Bool} {p : Program} {os : List Out} (h : Contribs ln p os) :
    (os.flatMap Out.own).map Entry.sec = (p.map (fun d => d.2.kind)).filter (· != "imports") := by
  induction h with
  | nil => rfl
  | @cons l d p o os ho _ ih =>
    have := own_one ho
    rw [List.flatMap_cons, List.map_append, ih, List.map_cons, List.filter_cons]
    split at this
    · rename_i hk; simp [this, hk]
    · rename_i hk
      obtain ⟨e, he, hs, _⟩ := this
      simp [he, hk, hs]

/-- the entries of a kind are those of the declarations of this kind -/
theorem own_ofKind {ln : Bool} {p : Program} {os : List Out} (h : Contribs ln p os) {k : String} (hk : k ≠ "imports") :
    List.Forall₂ (fun d e => ∃ o, d.2.out ln d.1 = .ok o ∧ o.own = [e]) (p.ofKind k)
      ((os.flatMap Out.own).filter (·.sec = k)) := by
  induction h with
  | nil => exact .nil
  | @cons l d p o os ho _ ih =>
    have := own_one ho
    unfold Program.ofKind at ih ⊢
    rw [List.flatMap_cons, List.filter_append, List.filter_cons]
    split at this
    · rename_i hd
      rw [this, if_neg (by simp [hd, Ne.symm hk])]
      exact ih
    · obtain ⟨e, he, hs, _⟩ := this
      rw [he]
      by_cases hdk : d.kind = k
      · rw [if_pos (by simp [hdk]), show [e].filter (·.sec = k) = [e] by simp [hs, hdk]]
        exact .cons ⟨o, ho, he⟩ ih
      · rw [if_neg (by simp [hdk]), show [e].filter (·.sec = k) = [] by simp [hs, hdk]]
        exact ih

theorem out_children {ln : Bool} {l : Lines} {d : Decl} {o : Out} (hf : d.Faithful) (h : d.out ln l = .ok o) :
    o.children = [] := by
  cases d with
  | resource ds n b ex c =>
    rw [Decl.out] at h
    obtain ⟨x, hx, h⟩ := bind_ok' h; obtain ⟨⟨t, api⟩, hy, h⟩ := bind_ok' h
    obtain ⟨z, hz, h⟩ := bind_ok' h; obtain ⟨⟨cfg, inner⟩, hr, h⟩ := bind_ok' h; cases h
    obtain ⟨q, rfl, hq⟩ := childless_get hf.2.1 hf.2.2 hz
    have hr := inRule_ok hr
    simp only [resourceVal_childless hq, Except.ok.injEq, Prod.mk.injEq] at hr
    obtain ⟨rfl, rfl⟩ := hr
    rfl
  | _ =>
    by_cases hc : o.children = []
    · exact hc
    · obtain ⟨_, _, _, _, _, h⟩ := (out_places h).2.2.2 hc
      cases h

theorem no_children {ln : Bool} {p : Program} {os : List Out} (h : Contribs ln p os) (hf : ∀ d ∈ p, d.2.Faithful) :
    os.flatMap Out.children = [] := by
  induction h with
  | nil => rfl
  | @cons l d p o os ho _ ih =>
    rw [List.flatMap_cons, out_children (hf (l, d) (by simp)) ho, ih (fun e he => hf e (by simp [he]))]; rfl

/-- the entry of an imported name -/
def Imported.entry : Imported → Entry
  | (x, .none) => ⟨"imports", x, []⟩
  | (x, some (b, a, l)) => ⟨"imports", x, ("file_path", .str (txt b)) :: (aliasItem a ++ l.elim [] (lineItems true))⟩

theorem imports_entries {ln : Bool} {p : Program} {os : List Out} (h : Contribs ln p os) :
    os.flatMap Out.imports = (p.imported ln).map Imported.entry := by
  induction h with
  | nil => rfl
  | @cons l d p o os ho _ ih =>
    unfold Program.imported at ih ⊢
    rw [List.flatMap_cons, List.flatMap_cons, List.map_append, ← ih]
    congr 1
    have hl : ∀ l, lineItems ln l = (if ln then some l else .none : Option Lines).elim [] (lineItems true) := by
      intro l; cases ln <;> rfl
    cases d with
    | importNs b => rw [Decl.out] at ho; cases ho; rfl
    | importFrom i is b =>
      rw [Decl.out] at ho; cases ho
      simp only [Decl.imported, List.map_map]
      refine List.map_congr_left fun i _ => ?_
      simp only [ImportItem.entry, Function.comp, Imported.entry, hl]
    | _ =>
      have h1 := (out_places ho).2.1
      simp only [Decl.importNames, List.map_nil, List.map_eq_nil_iff] at h1
      rw [h1]; rfl

theorem imported_entry_inj {i j : Imported} (h : i.entry = j.entry) : i = j := by
  obtain ⟨x, i⟩ := i
  obtain ⟨y, j⟩ := j
  cases i with
  | none =>
    cases j with
    | none => cases h; rfl
    | some j => obtain ⟨b, a, l⟩ := j; cases h
  | some i =>
    obtain ⟨b, a, l⟩ := i
    cases j with
    | none => cases h
    | some j =>
      obtain ⟨b', a', l'⟩ := j
      simp only [Imported.entry, Entry.mk.injEq, List.cons.injEq, Prod.mk.injEq, Val.str.injEq, true_and] at h
      obtain ⟨rfl, h1, h2⟩ := h
      obtain rfl := txt_inj h1
      have hk : ∀ {l : Option Lines}, ∀ z ∈ l.elim [] (lineItems true), (z.1 == "alias") = false := by
        intro l z hz
        cases l with
        | none => cases hz
        | some l =>
          have := lineItems_keys z hz
          simp only [List.mem_cons, List.not_mem_nil, or_false] at this
          rcases this with h | h <;> rw [h] <;> decide
      have ha : ∀ {a : Option Ident}, ∀ z ∈ aliasItem a, (z.1 == "alias") = true := by
        intro a z hz
        cases a <;> simp [aliasItem] at hz
        simp [hz]
      rw [append_split (fun k => k == "alias") ha ha hk hk, aliasItem_inj] at h2
      obtain ⟨rfl, h2⟩ := h2
      have : l = l' := by
        cases l <;> cases l'
        · rfl
        · simp [lineItems] at h2
        · simp [lineItems] at h2
        · simp only [Option.elim] at h2
          rw [lineItems_inj.mp h2 rfl]
      rw [this]

/-- the entry of a target scope -/
def targetEntry (t : List Char × Option Lines) : Entry :=
  ⟨"globals", "scope", ("value", .str (txt t.1)) :: t.2.elim [] (lineItems true)⟩

theorem targetEntry_inj {t t' : List Char × Option Lines} (h : targetEntry t = targetEntry t') : t = t' := by
  obtain ⟨b, l⟩ := t
  obtain ⟨b', l'⟩ := t'
  simp only [targetEntry, Entry.mk.injEq, List.cons.injEq, Prod.mk.injEq, Val.str.injEq, true_and] at h
  obtain ⟨h1, h2⟩ := h
  obtain rfl := txt_inj h1
  have : l = l' := by
    cases l <;> cases l'
    · rfl
    · simp [lineItems] at h2
    · simp [lineItems] at h2
    · simp only [Option.elim] at h2
      rw [lineItems_inj.mp h2 rfl]
  rw [this]

theorem globals_entries {ln : Bool} {p : Program} {os : List Out} (h : Contribs ln p os) :
    (os.flatMap Out.own).filter (·.sec = "globals") =
      (p.filterMap (fun d => d.2.target ln d.1)).map targetEntry := by
  induction h with
  | nil => rfl
  | @cons l d p o os ho _ ih =>
    rw [List.flatMap_cons, List.filter_append, ih]
    have hl : ∀ l, lineItems ln l = (if ln then some l else .none : Option Lines).elim [] (lineItems true) := by
      intro l; cases ln <;> rfl
    cases d with
    | scope b =>
      rw [Decl.out] at ho
      split at ho
      · cases ho
        simp only [List.filterMap_cons, Decl.target, List.map_cons, targetEntry, hl]
        rfl
      · cases ho
    | _ =>
      simp only [List.filterMap_cons, Decl.target]
      have h1 := own_one ho
      split at h1
      · rw [h1]; rfl
      · obtain ⟨e, he, hs, _⟩ := h1
        rw [he, show [e].filter (·.sec = "globals") = [] by simp [hs, Decl.kind]]; rfl

theorem lastWins_same {n : String} : ∀ (ps : List (String × Val)) (v : Val), (∀ p ∈ ps, p.1 = n) →
    lastWins ((n, v) :: ps) = [(n, ((ps.getLast?).elim v Prod.snd))] := by
  intro ps v h
  induction ps using List.reverseRecOn with
  | nil => rw [lastWins_of_nodup (by simp)]; rfl
  | append_singleton ps p ih =>
    rw [← List.cons_append, lastWins_concat, ih (fun q hq => h q (by simp [hq])), h p (by simp)]
    simp [dSet]

theorem target_items {ln : Bool} {p : Program} {os : List Out} (h : Contribs ln p os) (hf : ∀ d ∈ p, d.2.Faithful) :
    lastWins (secItems (entries ln os) "globals") = [("scope", .dict (targetEntry (p.target ln)).attrs)] := by
  have hd : defaultScope ln = targetEntry ("resourceGroup".toList, if ln then some (0, 0) else .none) := by
    cases ln <;> rfl
  have hi : (os.flatMap Out.imports).filter (·.sec = "globals") = [] := by
    rw [imports_entries h, List.filter_eq_nil_iff]
    intro e he
    obtain ⟨i, _, rfl⟩ := List.mem_map.mp he
    obtain ⟨x, _ | ⟨b, a, l⟩⟩ := i <;> simp [Imported.entry]
  unfold secItems entries
  rw [no_children h hf, List.append_nil, List.filter_cons, if_pos (by rfl), List.filter_append, hi, List.append_nil,
    globals_entries h, List.map_cons, hd, List.map_map, lastWins_same _ _ (fun q hq => by obtain ⟨_, _, rfl⟩ := List.mem_map.mp hq; rfl)]
  unfold Program.target
  rw [List.getLast?_map]
  cases (p.filterMap (fun d => d.2.target ln d.1)).getLast? <;> rfl

/-! ### Names -/

theorem kind_nodup {p : Program} (h : (p.flatMap (fun d => d.2.declares)).Nodup) {k : String} (hk : ordinary k = true) :
    ((p.ofKind k).flatMap (fun d => d.2.ownName)).Nodup := by
  have : ∀ p : Program, ((p.ofKind k).flatMap (fun d => d.2.ownName)).Sublist (p.flatMap (fun d => d.2.declares)) := by
    intro p
    induction p with
    | nil => exact .slnil
    | cons d p ih =>
      unfold Program.ofKind at ih ⊢
      rw [List.filter_cons, List.flatMap_cons]
      split
      · rename_i hd
        rw [List.flatMap_cons]
        refine List.Sublist.append ?_ ih
        simp only [decide_eq_true_eq] at hd
        have : d.2.ownName = d.2.declares := by
          obtain ⟨l, d⟩ := d
          cases d with
          | scope | importNs | importFrom => simp only [Decl.kind] at hd; subst hd; cases hk
          | _ => rfl
        rw [this]
      · exact ih.trans (List.sublist_append_right _ _)
  exact h.sublist (this p)

theorem imported_nodup {ln : Bool} {p : Program} (h : (p.flatMap (fun d => d.2.declares)).Nodup) :
    ((p.imported ln).map Prod.fst).Nodup := by
  have : ∀ p : Program, ((p.imported ln).map (fun i => ("imports", i.1))).Sublist (p.flatMap (fun d => d.2.declares)) := by
    intro p
    induction p with
    | nil => exact .slnil
    | cons d p ih =>
      unfold Program.imported at ih ⊢
      rw [List.flatMap_cons, List.flatMap_cons, List.map_append]
      refine List.Sublist.append ?_ ih
      obtain ⟨l, d⟩ := d
      cases d with
      | importNs => exact List.Sublist.refl _
      | importFrom i is b =>
        simp only [Decl.imported, Decl.declares, List.map_map]
        exact List.Sublist.refl _
      | _ => exact List.nil_sublist _
  have := h.sublist (this p)
  rw [show (fun i : Imported => ("imports", i.1)) = (fun n => ("imports", n)) ∘ Prod.fst from rfl, ← List.map_map] at this
  exact List.Nodup.of_map _ this

theorem import_items {ln : Bool} {p : Program} {os : List Out} (h : Contribs ln p os) (hf : p.Faithful) :
    lastWins (secItems (entries ln os) "imports") =
      (p.imported ln).map (fun i => (i.entry.name, .dict i.entry.attrs)) := by
  have h1 : (os.flatMap Out.own).filter (·.sec = "imports") = [] := by
    rw [List.filter_eq_nil_iff]
    intro e he
    have : e.sec ∈ (os.flatMap Out.own).map Entry.sec := List.mem_map_of_mem he
    rw [own_kinds h, List.mem_filter] at this
    simpa using this.2
  have h2 : (os.flatMap Out.imports).filter (·.sec = "imports") = os.flatMap Out.imports := by
    rw [List.filter_eq_self, imports_entries h]
    intro e he
    obtain ⟨i, _, rfl⟩ := List.mem_map.mp he
    obtain ⟨x, _ | ⟨b, a, l⟩⟩ := i <;> simp [Imported.entry]
  unfold secItems entries
  rw [no_children h hf.2, List.append_nil, List.filter_cons, if_neg (by simp [defaultScope]), List.filter_append, h1, h2,
    List.nil_append, imports_entries h, List.map_map]
  refine lastWins_of_nodup ?_
  rw [List.map_map]
  have hn : ∀ i : Imported, i.entry.name = i.1 := by rintro ⟨x, _ | ⟨b, a, l⟩⟩ <;> rfl
  have := imported_nodup (ln := ln) hf.1
  rw [show (Prod.fst ∘ (fun e : Entry => (e.name, Val.dict e.attrs)) ∘ Imported.entry) = Prod.fst from funext hn]
  exact this

theorem own_items {ln : Bool} {p : Program} {os : List Out} (h : Contribs ln p os) (hf : p.Faithful) {k : String}
    (hk : ordinary k = true) : lastWins (secItems (entries ln os) k) =
      ((os.flatMap Out.own).filter (·.sec = k)).map (fun e => (e.name, .dict e.attrs)) := by
  have hk1 : k ≠ "globals" := by rintro rfl; cases hk
  have hk2 : k ≠ "imports" := by rintro rfl; cases hk
  have h2 : (os.flatMap Out.imports).filter (·.sec = k) = [] := by
    rw [List.filter_eq_nil_iff, imports_entries h]
    intro e he
    obtain ⟨i, _, rfl⟩ := List.mem_map.mp he
    obtain ⟨x, _ | ⟨b, a, l⟩⟩ := i <;> simp [Imported.entry, Ne.symm hk2]
  unfold secItems entries
  rw [no_children h hf.2, List.append_nil, List.filter_cons, if_neg (by simp [defaultScope, Ne.symm hk1]),
    List.filter_append, h2, List.append_nil]
  refine lastWins_of_nodup ?_
  have hn := kind_nodup hf.1 hk
  have key : ∀ {q : Program} {es : List Entry},
      List.Forall₂ (fun d e => ∃ o, d.2.out ln d.1 = .ok o ∧ o.own = [e]) q es →
      q.flatMap (fun d => d.2.ownName) = es.map Entry.place := by
    intro q es hq
    induction hq with
    | nil => rfl
    | cons hd _ ih =>
      obtain ⟨o, ho, hown⟩ := hd
      rw [List.flatMap_cons, List.map_cons, ih, ← (out_places ho).1, hown]; rfl
  rw [key (own_ofKind h hk2)] at hn
  rw [List.map_map]
  have : ∀ es : List Entry, (∀ e ∈ es, e.sec = k) → (es.map Entry.place).Nodup →
      (es.map (Prod.fst ∘ fun e : Entry => (e.name, Val.dict e.attrs))).Nodup := by
    intro es hs hn
    have : es.map Entry.place = (es.map (Prod.fst ∘ fun e : Entry => (e.name, Val.dict e.attrs))).map (fun n => (k, n)) := by
      rw [List.map_map]
      refine List.map_congr_left fun e he => ?_
      simp only [Function.comp, Entry.place, hs e he]
    rw [this] at hn
    exact List.Nodup.of_map _ hn
  exact this _ (fun e he => by simpa using (List.mem_filter.mp he).2) hn

/-! ### Documents -/

theorem forall₂_map_inj {α β : Type} {f : α → β} (hf : ∀ a b, f a = f b → a = b) {l l' : List α}
    (h : l.map f = l'.map f) : l = l' := by
  induction l generalizing l' with
  | nil => cases l' with
    | nil => rfl
    | cons => cases h
  | cons a l ih => cases l' with
    | nil => cases h
    | cons b l' =>
      simp only [List.map_cons, List.cons.injEq] at h
      rw [hf _ _ h.1, ih h.2]

/-- **What is reported about a faithful document determines the document.** -/
theorem program_same_iff {ln : Bool} {p p' : Program} {os os' : List Out} (h : Contribs ln p os) (h' : Contribs ln p' os')
    (hf : p.Faithful) (hf' : p'.Faithful) :
    collect (entries ln os) = collect (entries ln os') ↔ p.Same ln p' := by
  have hsec : ∀ {p : Program} {os : List Out}, Contribs ln p os → p.Faithful →
      ((entries ln os).map Entry.sec).eraseDups =
        "globals" :: p.kinds ++ (if p.imported ln = [] then [] else ["imports"]) := by
    intro p os h hf
    unfold entries
    rw [no_children h hf.2, List.append_nil, List.map_cons, List.map_append, own_kinds h, imports_entries h, List.map_map]
    rw [show (defaultScope ln).sec = "globals" from rfl, sections_eq]
    · rw [List.filter_filter, Program.kinds]
      have he : ((fun k => ordinary k && k != "imports") : String → Bool) = ordinary := by
        funext k
        simp only [ordinary]
        cases k != "imports" <;> simp
      simp only [he, List.map_eq_nil_iff]
    · intro a ha
      simpa using (List.mem_filter.mp ha).2
    · intro b hb
      obtain ⟨i, _, rfl⟩ := List.mem_map.mp hb
      obtain ⟨x, _ | ⟨b, a, l⟩⟩ := i <;> rfl
  have hkind : ∀ k, ordinary k = true → (lastWins (secItems (entries ln os) k) = lastWins (secItems (entries ln os') k) ↔
      List.Forall₂ (fun d d' => d.2.Same d'.2 ∧ (ln = true → d.1 = d'.1)) (p.ofKind k) (p'.ofKind k)) := by
    intro k hk
    have hk2 : k ≠ "imports" := by rintro rfl; cases hk
    rw [own_items h hf hk, own_items h' hf' hk]
    refine map_eq_forall₂ (own_ofKind h hk2) (own_ofKind h' hk2) ?_
    rintro ⟨l, d⟩ hd ⟨l', d'⟩ hd' e e' ⟨o, ho, hown⟩ ⟨o', ho', hown'⟩
    obtain ⟨hd, hdk⟩ := List.mem_filter.mp hd
    obtain ⟨hd', hdk'⟩ := List.mem_filter.mp hd'
    simp only [decide_eq_true_eq] at hdk hdk' ho ho'
    have hiff := decl_same_iff (hf.2 _ hd) (hf'.2 _ hd') (hdk.trans hdk'.symm) (hdk ▸ hk) ho ho'
    rw [hown, hown'] at hiff
    rw [← hiff]
    have hs : ∀ {l d o e}, Decl.out ln l d = .ok o → o.own = [e] → d.kind = k → e.sec = k := by
      intro l d o e ho hown hdk
      have := own_one ho
      rw [if_neg (hdk ▸ hk2)] at this
      obtain ⟨e', he', hs, _⟩ := this
      rw [hown] at he'
      cases he'
      exact hs.trans hdk
    have h1 := hs ho hown hdk
    have h2 := hs ho' hown' hdk'
    obtain ⟨s, n, a⟩ := e
    obtain ⟨s', n', a'⟩ := e'
    simp only at h1 h2
    subst h1 h2
    simp
  have himp : lastWins (secItems (entries ln os) "imports") = lastWins (secItems (entries ln os') "imports") ↔
      p.imported ln = p'.imported ln := by
    rw [import_items h hf, import_items h' hf']
    constructor
    · refine forall₂_map_inj fun i j hij => imported_entry_inj ?_
      simp only [Prod.mk.injEq, Val.dict.injEq] at hij
      have hs : ∀ i : Imported, i.entry.sec = "imports" := by rintro ⟨x, _ | ⟨b, a, l⟩⟩ <;> rfl
      cases hi : i.entry
      cases hj : j.entry
      have h1 := hs i
      have h2 := hs j
      rw [hi, hj] at hij
      rw [hi] at h1
      rw [hj] at h2
      simp only at hij h1 h2
      rw [hij.1, hij.2, h1, h2]
    · intro e; rw [e]
  have htar : lastWins (secItems (entries ln os) "globals") = lastWins (secItems (entries ln os') "globals") ↔
      p.target ln = p'.target ln := by
    rw [target_items h hf.2, target_items h' hf'.2]
    constructor
    · intro e
      simp only [List.cons.injEq, Prod.mk.injEq, Val.dict.injEq, true_and, and_true] at e
      refine targetEntry_inj ?_
      simp only [targetEntry, Entry.mk.injEq, true_and] at e ⊢
      exact e
    · intro e; rw [e]
  rw [collect_eq_iff, hsec h hf, hsec h' hf']
  constructor
  · rintro ⟨h1, h2⟩
    have hi := himp.mp (h2 _)
    refine ⟨fun k hk => (hkind k hk).mp (h2 k), ?_, hi, htar.mp (h2 _)⟩
    rw [hi] at h1
    exact List.cons_injective (List.append_cancel_right h1)
  · rintro ⟨h1, h2, h3, h4⟩
    refine ⟨by rw [h2, h3], fun s => ?_⟩
    by_cases hs : ordinary s = true
    · exact (hkind s hs).mpr (h1 s hs)
    · by_cases hg : s = "globals"
      · subst hg; exact htar.mpr h4
      · have : s = "imports" := by
          simp only [ordinary, Bool.and_eq_true, bne_iff_ne, ne_eq, not_and, Classical.not_not] at hs
          exact hs hg
        subst this; exact himp.mpr h3

end Pycep
