import Verif.Spec.Override
import Verif.Props.Order
import Verif.Props.Repeat
/-
C94: declarations that are overridden later can be deleted.
-/
namespace Pycep

theorem lookup_last {l l' : List (String × Val)} {n : String}
    (h : (l.filter (fun p => p.1 = n)).getLast? = (l'.filter (fun p => p.1 = n)).getLast?) :
    l.reverse.lookup n = l'.reverse.lookup n := by
  have key : ∀ l : List (String × Val), l.lookup n = (l.filter (fun p => p.1 = n)).head?.map Prod.snd := by
    intro l
    induction l with
    | nil => rfl
    | cons p l ih =>
      obtain ⟨m, v⟩ := p
      by_cases hm : m = n
      · subst hm; simp
      · have : (n == m) = false := by simpa using fun h => hm h.symm
        rw [List.lookup_cons, this]
        simp [hm, ih]
  rw [key, key, List.filter_reverse, List.filter_reverse, List.head?_reverse, List.head?_reverse, h]

/-- the same last entry at every place: equal results up to order -/
theorem reordered_last {es es' : List Entry} (h : ∀ q, (entriesAt es q).getLast? = (entriesAt es' q).getLast?) :
    Reordered (.dict (collect es)) (.dict (collect es')) := by
  have hn : ∀ q, entriesAt es q ≠ [] ↔ entriesAt es' q ≠ [] := fun q => by
    rw [← not_iff_not, not_not, not_not, ← List.getLast?_eq_none_iff, h, List.getLast?_eq_none_iff]
  have hk : (es.map Entry.sec).eraseDups.Perm (es'.map Entry.sec).eraseDups := by
    rw [List.perm_ext_iff_of_nodup (nodup_eraseDups _) (nodup_eraseDups _)]
    intro s
    simp only [List.mem_eraseDups, mem_sec, hn]
  refine ⟨_, _, _, rfl, rfl, hk.map _, ?_⟩
  unfold collect
  rw [List.forall₂_map_left_iff, List.forall₂_map_right_iff, List.forall₂_same]
  intro s _
  refine ⟨rfl, _, _, rfl, rfl, perm_of_dGet (lastWins_nodup _) (lastWins_nodup _) fun n => ?_⟩
  rw [dGet_lastWins, dGet_lastWins]
  refine lookup_last ?_
  have h1 := secItems_at es s n
  have h2 := secItems_at es' s n
  unfold secItems at h1 h2
  rw [h1, h2, List.getLast?_map, List.getLast?_map, h]

theorem own_section {ln : Bool} {l : Lines} {d : Decl} {o : Out} (h : d.out ln l = .ok o) {e : Entry} (he : e ∈ o.own) :
    e.place.1 ≠ "imports" := by
  have : e.place ∈ d.ownName := (out_places h).1 ▸ List.mem_map_of_mem he
  cases d <;> simp only [Decl.ownName, List.mem_singleton, List.not_mem_nil] at this <;> rw [this] <;> simp

theorem imports_section {ln : Bool} {l : Lines} {d : Decl} {o : Out} (h : d.out ln l = .ok o) {e : Entry}
    (he : e ∈ o.imports) : e.place.1 = "imports" := by
  have : e.place ∈ d.importNames.map (fun n => ("imports", n)) := (out_places h).2.1 ▸ List.mem_map_of_mem he
  obtain ⟨n, _, hn⟩ := List.mem_map.mp this
  rw [← hn]

theorem place_entry {ln : Bool} {l : Lines} {d : Decl} {o : Out} (h : d.out ln l = .ok o) {q} (hq : q ∈ d.places) :
    ∃ e, (e ∈ o.own ∨ e ∈ o.imports) ∧ e.place = q := by
  have : q ∈ d.ownName ∨ q ∈ d.importNames.map (fun n => ("imports", n)) := by
    cases d with
    | importNs b => exact .inr hq
    | importFrom i is b =>
      refine .inr ?_
      simp only [Decl.places, Decl.declares] at hq
      simp only [Decl.importNames, List.map_map]
      refine Eq.mp (congrArg (q ∈ ·) (List.map_congr_left fun i _ => ?_)) hq
      simp only [Function.comp_apply]
      cases i.name <;> rfl
    | _ => exact .inl hq
  obtain ⟨h1, h2, _⟩ := out_places h
  rw [← h1, ← h2] at this
  rcases this with this | this
  · obtain ⟨e, he, rfl⟩ := List.mem_map.mp this; exact ⟨e, .inl he, rfl⟩
  · obtain ⟨e, he, rfl⟩ := List.mem_map.mp this; exact ⟨e, .inr he, rfl⟩

theorem contribs_out {ln : Bool} {p : Program} {os : List Out} (h : Contribs ln p os) {l d} (hm : (l, d) ∈ p) :
    ∃ o ∈ os, d.out ln l = .ok o := by
  induction h with
  | nil => cases hm
  | cons hd _ ih =>
    rcases List.mem_cons.mp hm with e | hm
    · cases e; exact ⟨_, List.mem_cons_self, hd⟩
    · obtain ⟨o, ho, hd⟩ := ih hm
      exact ⟨o, List.mem_cons_of_mem _ ho, hd⟩

theorem nests_entry {ln : Bool} {l : Lines} {d : Decl} {o : Out} (h : d.out ln l = .ok o) {n : String}
    (hn : d.Nests n) : ∃ e ∈ o.children, e.place = ("resources", n) := by
  obtain ⟨ds, x, b, ex, c, rs, rfl, hc, hm⟩ := hn
  obtain ⟨_, _, _, _, _, _, _, _, _, hout⟩ := resource_out h hc
  have h1 : ("resources", n) ∈ o.children.map Entry.place := by
    rw [nestedOut_names hout]; exact List.mem_map_of_mem hm
  exact List.mem_map.mp h1

theorem last_same {α} {u u' w : List α} (h : w ≠ []) : (u ++ w).getLast? = (u' ++ w).getLast? := by
  rw [List.getLast?_append, List.getLast?_append]
  cases hw : w.getLast? with
  | none => exact absurd (List.getLast?_eq_none_iff.mp hw) h
  | some x => rfl

/-- Overridden declarations leave the last entry at every place as it is. -/
theorem overridden_last {ln : Bool} {p q : Program} {b c : List Out} (h : p.OverriddenBy q) (hb : Contribs ln p b)
    (hc : Contribs ln q c) (a : List Out) (s) :
    (entriesAt (entries ln (a ++ b ++ c)) s).getLast? = (entriesAt (entries ln (a ++ c)) s).getLast? := by
  have split : ∀ os, entriesAt (entries ln os) s = entriesAt [defaultScope ln] s ++
      (entriesAt (os.flatMap Out.own) s ++ entriesAt (os.flatMap Out.imports) s ++
        entriesAt (os.flatMap Out.children) s) := by
    intro os
    rw [← entriesAt_append, ← entriesAt_append, ← entriesAt_append]
    rfl
  rw [split, split]
  by_cases hcc : entriesAt (c.flatMap Out.children) s = []
  case neg =>
    simp only [List.flatMap_append, entriesAt_append, ← List.append_assoc]
    exact last_same hcc
  have bch : entriesAt (b.flatMap Out.children) s = [] := entriesAt_nil fun e he hp => by
    obtain ⟨o, ho, he⟩ := List.mem_flatMap.mp he
    obtain ⟨l, d, hm, hd⟩ := contribs_mem hb ho
    have h1 : e.place.1 = "resources" := (out_places hd).2.2.1 e he
    rcases (h _ hm).2 e.name with hn | ⟨⟨l', d'⟩, hy, hn⟩
    · exact nested_places hd hn e he (Prod.ext h1 rfl)
    · obtain ⟨o', ho', hd'⟩ := contribs_out hc hy
      obtain ⟨e', he', hp'⟩ := nests_entry hd' hn
      have : e' ∈ entriesAt (c.flatMap Out.children) s := by
        simp only [entriesAt, List.mem_filter, decide_eq_true_eq]
        exact ⟨List.mem_flatMap.mpr ⟨o', ho', he'⟩, by rw [hp', ← hp, ← h1]; rfl⟩
      rw [hcc] at this
      cases this
  simp only [List.flatMap_append, entriesAt_append, bch, List.append_nil]
  by_cases hs : ∃ x ∈ p, s ∈ x.2.places
  · obtain ⟨⟨l, d⟩, hx, hs⟩ := hs
    obtain ⟨⟨l', d'⟩, hy, hs'⟩ := (h _ hx).1 s hs
    obtain ⟨o, ho, hd⟩ := contribs_out hc hy
    obtain ⟨e, he, hp⟩ := place_entry hd hs'
    rcases he with he | he
    · have him : entriesAt (b.flatMap Out.imports) s = [] := entriesAt_nil fun e' he' hp' => by
        obtain ⟨o', ho', he'⟩ := List.mem_flatMap.mp he'
        obtain ⟨_, _, _, hd'⟩ := contribs_mem hb ho'
        exact own_section hd he (hp ▸ hp' ▸ imports_section hd' he')
      have hne : entriesAt (c.flatMap Out.own) s ≠ [] := List.ne_nil_of_mem (a := e) (by
        simp only [entriesAt, List.mem_filter, decide_eq_true_eq]
        exact ⟨List.mem_flatMap.mpr ⟨o, ho, he⟩, hp⟩)
      rw [him, List.append_nil]
      simp only [List.append_assoc]
      rw [← List.append_assoc, ← List.append_assoc, ← List.append_assoc (entriesAt [defaultScope ln] s)]
      exact last_same (by simp [hne])
    · have hne : entriesAt (c.flatMap Out.imports) s ≠ [] := List.ne_nil_of_mem (a := e) (by
        simp only [entriesAt, List.mem_filter, decide_eq_true_eq]
        exact ⟨List.mem_flatMap.mpr ⟨o, ho, he⟩, hp⟩)
      have := last_same
        (u := entriesAt [defaultScope ln] s ++ (entriesAt (a.flatMap Out.own) s ++ entriesAt (b.flatMap Out.own) s ++
          entriesAt (c.flatMap Out.own) s) ++ entriesAt (a.flatMap Out.imports) s ++ entriesAt (b.flatMap Out.imports) s)
        (u' := entriesAt [defaultScope ln] s ++ (entriesAt (a.flatMap Out.own) s ++
          entriesAt (c.flatMap Out.own) s) ++ entriesAt (a.flatMap Out.imports) s)
        (w := entriesAt (c.flatMap Out.imports) s ++ (entriesAt (a.flatMap Out.children) s ++
          entriesAt (c.flatMap Out.children) s)) (by simp [hne])
      simpa only [List.append_assoc] using this
  · have none : ∀ f : Out → List Entry, (∀ o e, e ∈ f o → e ∈ o.own ∨ e ∈ o.imports) →
        entriesAt (b.flatMap f) s = [] := fun f hf => entriesAt_nil fun e he hp => by
      obtain ⟨o, ho, he⟩ := List.mem_flatMap.mp he
      obtain ⟨l, d, hm, hd⟩ := contribs_mem hb ho
      exact hs ⟨_, hm, hp ▸ own_places hd (hf _ _ he)⟩
    rw [none Out.own fun _ _ => .inl, none Out.imports fun _ _ => .inr]
    simp only [List.append_nil]

theorem overridden_val {ln : Bool} {p q r : Program} (h : q.OverriddenBy r) {v : Val}
    (hv : Program.val ln (p ++ q ++ r) = .ok v) : ∃ v', Program.val ln (p ++ r) = .ok v' ∧ Reordered v v' := by
  rw [Program.val] at hv
  cases ho : Program.outs ln (p ++ q ++ r) with
  | error e => rw [ho] at hv; cases hv
  | ok os =>
    rw [ho] at hv
    cases hv
    obtain ⟨ab, c, rfl, h1, hc⟩ := contribs_append (contribs_iff.mpr ho)
    obtain ⟨a, b, rfl, ha, hb⟩ := contribs_append h1
    exact ⟨_, by rw [Program.val, contribs_iff.mp (contribs_join ha hc)]; rfl,
      reordered_last (overridden_last h hb hc a)⟩

/-- **C94.** A part of a document whose declarations are all overridden further down can be deleted: if the document
is accepted, so is the shorter one, and the results are equal up to the order of sections and of names. -/
theorem C94_overridden {x q x' q'} {t1 t2 t3 : String} {p1 p2 p3 : Program} (w1 : Writes t1 p1) (w2 : Writes t2 p2)
    (w3 : Writes t3 p3) (c1 : p1.clear = true) (c2 : p2.clear = true) (c3 : p3.clear = true)
    (e1 : EndsLine t1.toList) (e2 : EndsLine t2.toList) (b2 : NoBreak t2.toList) (b3 : NoBreak t3.toList)
    {n1 n2 n3 : Nat} (o1 : Occ t1.toList n1) (o2 : Occ t2.toList n2) (o3 : Occ t3.toList n3)
    (m1 : n1 % 2 = 0) (m2 : n2 % 2 = 0) (m3 : n3 % 2 = 0) (ho : p2.bare.OverriddenBy p3.bare)
    (h : chosenText x q = .ok (t1 ++ t2 ++ t3)) (h' : chosenText x' q' = .ok (t1 ++ t3)) {v}
    (hv : (Parser.mk false).parse x q = .ok v) :
    ∃ v', (Parser.mk false).parse x' q' = .ok v' ∧ Reordered v v' := by
  have v1 : isValid t1 = true := by rw [isValid_iff o1, m1]; rfl
  have v2 : isValid t2 = true := by rw [isValid_iff o2, m2]; rfl
  have v3 : isValid t3 = true := by rw [isValid_iff o3, m3]; rfl
  have e12 := endsLine_both e1 e2
  have v12 : isValid (t1 ++ t2) = true := by rw [isValid_append e1 v1, v2]
  have c12 : Program.clear (p1 ++ p2.down (countNL t1.toList)) = true :=
    Program.clear_append _ _ c1 (by rw [Program.down_clear, c2])
  have happ : ∀ a b : Program, Program.bare (a ++ b) = Program.bare a ++ Program.bare b := fun a b => by
    simp [Program.bare]
  rw [parse_writes _ h (by rw [isValid_append e12 v12, v3]) ((w1.append w2 e1 b2).append w3 e12 b3)
      (Program.clear_append _ _ c12 (by rw [Program.down_clear, c3])), ← Program.bare_val] at hv
  simp only [happ, Program.down_bare] at hv
  rw [parse_writes _ h' (by rw [isValid_append e1 v1, v3]) (w1.append w3 e1 b3)
      (Program.clear_append _ _ c1 (by rw [Program.down_clear, c3])), ← Program.bare_val]
  simp only [happ, Program.down_bare]
  have hv : Program.val false (p1.bare ++ p2.bare ++ p3.bare) = .ok v := by
    cases hp : Program.val false (p1.bare ++ p2.bare ++ p3.bare) with
    | ok w => rw [hp] at hv; cases hv; rfl
    | error e => rw [hp] at hv; cases e <;> cases hv
  obtain ⟨v', hv', hr⟩ := overridden_val ho hv
  exact ⟨v', by rw [hv']; rfl, hr⟩

/-! ### Concrete cases -/

/-- A variable, a scope and an import are overridden by another variable, scope and import. -/
example (a f : Ident) (e e' : LoopOrExpr) (s s' g g' : List Char) (t : DataType) :
    Program.OverriddenBy
      [((0, 0), .var [] a t e), ((0, 0), .scope s), ((0, 0), .importFrom ⟨.name f, .none⟩ [] g)]
      [((0, 0), .scope s'), ((0, 0), .importFrom ⟨.star, .none⟩ [⟨.name f, .none⟩] g'), ((0, 0), .var [] a t e')] := by
  simp [Program.OverriddenBy, Decl.places, Decl.declares, Decl.ownName, Decl.NestsNot, ImportName.text]

/-- The order may change: the name keeps the place of its first declaration. -/
example : (Parser.mk false).parse (some "var x=1\nvar y=2\nvar x=3\n") .none =
      .ok (.dict [("globals", .dict [("scope", .dict [("value", .str "resourceGroup")])]),
        ("variables", .dict [("x", .dict [("decorators", .list []), ("value", .int 3)]),
          ("y", .dict [("decorators", .list []), ("value", .int 2)])])]) ∧
    (Parser.mk false).parse (some "var y=2\nvar x=3\n") .none =
      .ok (.dict [("globals", .dict [("scope", .dict [("value", .str "resourceGroup")])]),
        ("variables", .dict [("y", .dict [("decorators", .list []), ("value", .int 2)]),
          ("x", .dict [("decorators", .list []), ("value", .int 3)])])]) :=
  ⟨eq_of_outIs (by decide +kernel), eq_of_outIs (by decide +kernel)⟩

theorem exOver1_writes : ∃ hx hi, Writes "var x=1\n" [((1, 1), .var [] ⟨['x'], hx⟩ .none (.expr (.int ⟨['1'], hi⟩)))] := by
  have hx : IsIdentText ['x'] := ⟨'x', [], rfl, by decide, by decide⟩
  have hi : (['1'] : List Char) ≠ [] ∧ ∀ c ∈ ['1'], isAsciiDigit c = true := by decide
  refine ⟨hx, hi,
    ⟨[⟨T.VAR, ['v', 'a', 'r'], 1, 1⟩, ⟨T.STRING, ['x'], 1, 1⟩, ⟨T.EQUAL, ['='], 1, 1⟩, ⟨T.INT, ['1'], 1, 1⟩,
      ⟨T._CPP_COMMENT_NL, ['\n'], 1, 2⟩], ?_, ?_⟩⟩
  · refine .tok (t := T.VAR) (x := ['v', 'a', 'r']) ?_ (.gap (x := [' ']) .blank (.tok (t := T.STRING) (x := ['x']) ?_
      (.tok (t := T.EQUAL) (x := ['=']) ?_ (.tok (t := T.INT) (x := ['1']) ?_
      (.tok (t := T._CPP_COMMENT_NL) (x := ['\n']) (s := []) ?_ .nil)))))
    · exact Fits.keyword (k := T.VAR) (by decide) (by intro c cs h; cases h; decide) (by decide)
    · refine .ident hx (by intro c cs h; cases h; decide) (by decide) (by decide) ?_ (fun h => absurd h (by decide))
      have : ∀ k ∈ keywordIds, ['x'] ≠ fixedChars k := by decide +kernel
      exact fun k hk he => absurd he (this k hk)
    · exact Fits.op1 (t := T.EQUAL) (by decide) (by decide +kernel)
    · exact .int (by decide) (by decide) (by intro c cs h; cases h; decide) (by decide)
    · exact .lineEnd (.inl .lf) ⟨by decide, by decide⟩
  · have hv : Kw "var" ⟨T.VAR, ['v', 'a', 'r'], 1, 1⟩ := ⟨by decide +kernel, rfl⟩
    have he : Kw "=" ⟨T.EQUAL, ['='], 1, 1⟩ := ⟨by decide +kernel, rfl⟩
    have hi' : NoInfix T._CPP_COMMENT_NL := (starts_noInfix _ (by decide)).1
    have hb : NoBang T._CPP_COMMENT_NL := (starts_noInfix _ (by decide)).2
    have h1 : ESyn false (.int ⟨['1'], hi⟩) ([] ++ [⟨T.INT, ['1'], 1, 1⟩]) T._CPP_COMMENT_NL :=
      .int (.inl rfl) ⟨rfl, rfl⟩
    have h2 : DeclSyn (.var [] ⟨['x'], hx⟩ .none (.expr (.int ⟨['1'], hi⟩)))
        ([] ++ (⟨T.VAR, ['v', 'a', 'r'], 1, 1⟩ :: ⟨T.STRING, ['x'], 1, 1⟩ :: ([] ++ (⟨T.EQUAL, ['='], 1, 1⟩ ::
          ([] ++ [⟨T.INT, ['1'], 1, 1⟩]))))) T._CPP_COMMENT_NL :=
      .var .nil hv ⟨rfl, rfl⟩ .no he (.expr (.plain h1 hb) hi')
    have h3 := ProgSyn.decl (p := []) (w1 := []) .nil h2 (l := (1, 1)) ⟨_, _, rfl, rfl, rfl⟩
    exact ProgSyn.nl (u := ⟨T._CPP_COMMENT_NL, ['\n'], 1, 2⟩) h3 rfl

theorem exOver2_writes : ∃ hx hi, Writes "var x=2\n" [((1, 1), .var [] ⟨['x'], hx⟩ .none (.expr (.int ⟨['2'], hi⟩)))] := by
  have hx : IsIdentText ['x'] := ⟨'x', [], rfl, by decide, by decide⟩
  have hi : (['2'] : List Char) ≠ [] ∧ ∀ c ∈ ['2'], isAsciiDigit c = true := by decide
  refine ⟨hx, hi,
    ⟨[⟨T.VAR, ['v', 'a', 'r'], 1, 1⟩, ⟨T.STRING, ['x'], 1, 1⟩, ⟨T.EQUAL, ['='], 1, 1⟩, ⟨T.INT, ['2'], 1, 1⟩,
      ⟨T._CPP_COMMENT_NL, ['\n'], 1, 2⟩], ?_, ?_⟩⟩
  · refine .tok (t := T.VAR) (x := ['v', 'a', 'r']) ?_ (.gap (x := [' ']) .blank (.tok (t := T.STRING) (x := ['x']) ?_
      (.tok (t := T.EQUAL) (x := ['=']) ?_ (.tok (t := T.INT) (x := ['2']) ?_
      (.tok (t := T._CPP_COMMENT_NL) (x := ['\n']) (s := []) ?_ .nil)))))
    · exact Fits.keyword (k := T.VAR) (by decide) (by intro c cs h; cases h; decide) (by decide)
    · refine .ident hx (by intro c cs h; cases h; decide) (by decide) (by decide) ?_ (fun h => absurd h (by decide))
      have : ∀ k ∈ keywordIds, ['x'] ≠ fixedChars k := by decide +kernel
      exact fun k hk he => absurd he (this k hk)
    · exact Fits.op1 (t := T.EQUAL) (by decide) (by decide +kernel)
    · exact .int (by decide) (by decide) (by intro c cs h; cases h; decide) (by decide)
    · exact .lineEnd (.inl .lf) ⟨by decide, by decide⟩
  · have hv : Kw "var" ⟨T.VAR, ['v', 'a', 'r'], 1, 1⟩ := ⟨by decide +kernel, rfl⟩
    have he : Kw "=" ⟨T.EQUAL, ['='], 1, 1⟩ := ⟨by decide +kernel, rfl⟩
    have hi' : NoInfix T._CPP_COMMENT_NL := (starts_noInfix _ (by decide)).1
    have hb : NoBang T._CPP_COMMENT_NL := (starts_noInfix _ (by decide)).2
    have h1 : ESyn false (.int ⟨['2'], hi⟩) ([] ++ [⟨T.INT, ['2'], 1, 1⟩]) T._CPP_COMMENT_NL :=
      .int (.inl rfl) ⟨rfl, rfl⟩
    have h2 : DeclSyn (.var [] ⟨['x'], hx⟩ .none (.expr (.int ⟨['2'], hi⟩)))
        ([] ++ (⟨T.VAR, ['v', 'a', 'r'], 1, 1⟩ :: ⟨T.STRING, ['x'], 1, 1⟩ :: ([] ++ (⟨T.EQUAL, ['='], 1, 1⟩ ::
          ([] ++ [⟨T.INT, ['2'], 1, 1⟩]))))) T._CPP_COMMENT_NL :=
      .var .nil hv ⟨rfl, rfl⟩ .no he (.expr (.plain h1 hb) hi')
    have h3 := ProgSyn.decl (p := []) (w1 := []) .nil h2 (l := (1, 1)) ⟨_, _, rfl, rfl, rfl⟩
    exact ProgSyn.nl (u := ⟨T._CPP_COMMENT_NL, ['\n'], 1, 2⟩) h3 rfl

/-- the theorem, used on a text -/
example : ∃ v v', (Parser.mk false).parse (some "var x=1\nvar x=2\n") .none = .ok v ∧
    (Parser.mk false).parse (some "var x=2\n") .none = .ok v' ∧ Reordered v v' := by
  obtain ⟨_, _, w2⟩ := exOver1_writes
  obtain ⟨_, _, w3⟩ := exOver2_writes
  have he : Writes "" [] := ⟨[], .nil, .nil⟩
  have hv : (Parser.mk false).parse (some "var x=1\nvar x=2\n") .none =
      .ok (.dict [("globals", .dict [("scope", .dict [("value", .str "resourceGroup")])]),
        ("variables", .dict [("x", .dict [("decorators", .list []), ("value", .int 2)])])]) :=
    eq_of_outIs (by decide +kernel)
  obtain ⟨v', h1, h2⟩ := C94_overridden (t1 := "") (t2 := "var x=1\n") (t3 := "var x=2\n") he w2 w3 rfl rfl rfl
    (.inl (by decide +kernel)) (.inr (by decide +kernel)) ⟨by decide +kernel, by decide +kernel⟩
    ⟨by decide +kernel, by decide +kernel⟩ (occ_no_quote (by decide +kernel)) (occ_no_quote (by decide +kernel))
    (occ_no_quote (by decide +kernel)) rfl rfl rfl
    (by simp [Program.OverriddenBy, Program.bare, Decl.bare, Decl.places, Decl.declares, Decl.ownName, Decl.NestsNot])
    (by rw [show "" ++ "var x=1\n" ++ "var x=2\n" = "var x=1\nvar x=2\n" by decide +kernel]; rfl)
    (x' := some "var x=2\n") (q' := .none) (by rw [show "" ++ "var x=2\n" = "var x=2\n" by decide +kernel]; rfl) hv
  exact ⟨_, v', hv, h1, h2⟩

/-- A resource whose nested resource is declared again, too, is overridden. -/
example (a n : Ident) (t t' w w' : List Char) (ex : Bool) :
    Program.OverriddenBy
      [((0, 0), .resource [] a t false (.obj [.child (0, 0) n w false (.obj [])]))]
      [((0, 0), .resource [] a t' ex (.obj [.child (0, 0) n w' true (.obj [])]))] := by
  have ch : ∀ w e, Chain (.obj [.child (0, 0) n w e (.obj [])]) [⟨(0, 0), n, w, e, .obj []⟩] := fun w e =>
    .cons ⟨_, rfl, [], [], rfl, rfl, by simp⟩ (.nil (by simp [NoChild]))
  intro x hx
  obtain rfl := List.mem_singleton.mp hx
  refine ⟨fun s hs => ⟨_, List.mem_singleton_self _, hs⟩, fun m => ?_⟩
  by_cases hm : m = txt a.1 ++ "__" ++ txt n.1
  · exact .inr ⟨_, List.mem_singleton_self _, _, _, _, _, _, _, rfl, ch _ _, by simp [chainNames, hm]⟩
  · refine .inl fun ds x b ex c h => ?_
    cases h
    exact ⟨_, ch _ _, by simpa [chainNames] using hm⟩

/-- The nested resources do have to be declared again: the resource nested in the first `a` is reported although
`a` is declared again. -/
example : (Parser.mk false).parse
      (some "resource a 'A/b@1'={\nresource n 'w'={\n}\n}\nresource a 'A/b@1'={\n}\n") .none =
    .ok (.dict [("globals", .dict [("scope", .dict [("value", .str "resourceGroup")])]),
      ("resources", .dict [
        ("a", .dict [("decorators", .list []), ("type", .str "A/b"), ("api_version", .str "1"),
          ("existing", .bool false), ("config", .dict [])]),
        ("a__n", .dict [("decorators", .list []), ("type", .str "A/b/w"), ("api_version", .str "1"),
          ("existing", .bool false), ("config", .dict [("depends_on", .list [.elem "a"])])])])]) :=
  eq_of_outIs (by decide +kernel)

end Pycep
