import Verif.Proofs.Join
import Verif.Props.Relayout
/-
C61: two texts, one behind the other.
-/
namespace Pycep

/-! ### Triple quotes -/

theorem occ_append {x y : List Char} {n m : Nat} (hx : Occ x n) (he : EndsLine x) (hy : Occ y m) :
    Occ (x ++ y) (n + m) := by
  induction hx with
  | nil => simpa using hy
  | @hit x n _ ih =>
    have := ih (endsLine_append (x := ['\'', '\'', '\'']) he)
    rw [Nat.add_right_comm]
    exact .hit this
  | @miss c x n hm _ ih =>
    have h := ih (endsLine_append (x := [c]) he)
    refine .miss (fun z hz => ?_) h
    obtain ⟨s, hs⟩ := endsLine_snoc (by simp) he
    have hp : ['\'', '\'', '\''] <+: s := by
      refine prefix_break (r := y) ⟨z, ?_⟩ (by decide)
      have hz' : (c :: x) ++ y = '\'' :: '\'' :: '\'' :: z := hz
      rw [hs] at hz'
      simpa using hz'.symm
    obtain ⟨z', rfl⟩ := hp
    exact hm (z' ++ ['\n']) (by rw [hs]; rfl)

theorem occ_exists (x : List Char) : ∃ n, Occ x n := ⟨_, occ_countSub _ x (Nat.le_refl _)⟩

theorem isValid_append {t1 t2 : String} (he : EndsLine t1.toList) (h1 : isValid t1 = true) :
    isValid (t1 ++ t2) = isValid t2 := by
  obtain ⟨n, hn⟩ := occ_exists t1.toList
  obtain ⟨m, hm⟩ := occ_exists t2.toList
  have h := occ_append hn he hm
  rw [← String.toList_append] at h
  rw [isValid_iff hn] at h1
  rw [isValid_iff h, isValid_iff hm]
  simp only [beq_iff_eq] at h1
  rw [Nat.add_mod, h1, Nat.zero_add, Nat.mod_mod]

theorem isValid_below (t : String) (k : Nat) : isValid (emptyLines k ++ t) = isValid t := by
  refine isValid_append (emptyLines_ends k) ?_
  have : Occ (emptyLines k).toList 0 := by
    have : ∀ k, Occ (List.replicate k '\n') 0 := by
      intro k
      induction k with
      | zero => exact .nil
      | succ k ih => exact .miss (by intro y h; simp at h) ih
    simpa [emptyLines] using this k
  rw [isValid_iff this]
  rfl

/-! ### Entries of two programs -/

theorem Program.outs_append (ln : Bool) (p q : Program) : Program.outs ln (p ++ q) =
    (Program.outs ln p).bind (fun os => (Program.outs ln q).bind (fun os' => .ok (os ++ os'))) := by
  induction p with
  | nil =>
    show _ = Except.bind (Except.ok []) _
    simp only [List.nil_append, Except.bind]
    cases Program.outs ln q <;> rfl
  | cons d p ih =>
    obtain ⟨l, d⟩ := d
    simp only [List.cons_append, Program.outs, ih]
    cases d.out ln l with
    | error e => rfl
    | ok o =>
      cases Program.outs ln p with
      | error e => rfl
      | ok os =>
        cases Program.outs ln q <;> rfl

theorem collect_lookup (es : List Entry) (s n : String) :
    (Val.dict (collect es)).at? [.key s, .key n] = (secItems es s).reverse.lookup n := by
  apply Option.ext
  intro v
  rw [collect_get, lastEntry_items]

theorem secItems_append (a b : List Entry) (s : String) : secItems (a ++ b) s = secItems a s ++ secItems b s := by
  simp [secItems]

theorem secItems_nil {a : List Entry} {s : String} (h : ∀ e ∈ a, e.sec ≠ s) : secItems a s = [] := by
  unfold secItems
  rw [List.map_eq_nil_iff, List.filter_eq_nil_iff]
  intro e he
  simpa using h e he

theorem lookup_append (a b : List (String × Val)) (n : String) :
    (a ++ b).reverse.lookup n = (b.reverse.lookup n).or (a.reverse.lookup n) := by
  rw [List.reverse_append]
  induction b.reverse with
  | nil => rfl
  | cons x l ih =>
    obtain ⟨m, v⟩ := x
    simp only [List.cons_append, List.lookup]
    split
    · rfl
    · exact ih

/-- the program declares a target scope -/
def Program.HasScope (p : Program) : Prop := ∃ l b, (l, Decl.scope b) ∈ p

theorem own_sec {ln p os} (hc : Contribs ln p os) {e} (he : e ∈ os.flatMap Out.own) :
    ∃ l d, (l, d) ∈ p ∧ (e.sec, e.name) ∈ d.ownName := by
  have : e.place ∈ (os.flatMap Out.own).map Entry.place := List.mem_map_of_mem he
  rw [contribs_own hc] at this
  obtain ⟨⟨l, d⟩, hd, h⟩ := List.mem_flatMap.mp this
  exact ⟨l, d, hd, h⟩

theorem import_sec {ln p os} (hc : Contribs ln p os) {e} (he : e ∈ os.flatMap Out.imports) :
    e.sec = "imports" := by
  have : e.place ∈ (os.flatMap Out.imports).map Entry.place := List.mem_map_of_mem he
  rw [contribs_imports hc] at this
  obtain ⟨n, _, h⟩ := List.mem_map.mp this
  exact (congrArg Prod.fst h).symm

theorem ownName_imports {d : Decl} {n : String} : ("imports", n) ∉ d.ownName := by
  cases d <;> simp [Decl.ownName]

theorem ownName_globals {d : Decl} {n : String} (h : ("globals", n) ∈ d.ownName) :
    n = "scope" ∧ ∃ b, d = .scope b := by
  cases d <;> simp_all [Decl.ownName]

/-- What two results become when the texts are put one behind the other. -/
structure Joined (p2 : Program) (v1 v2 v : Val) : Prop where
  /-- the last declaration of a name counts -/
  names : ∀ s n : String, s ≠ "globals" → s ≠ "resources" → v.at? [s, n] = (v2.at? [s, n]).or (v1.at? [s, n])
  /-- resources that only the first text has -/
  first : ∀ n : String, v2.at? ["resources", n] = .none → v.at? ["resources", n] = v1.at? ["resources", n]
  /-- resources that only the second text has -/
  second : ∀ n : String, v1.at? ["resources", n] = .none → v.at? ["resources", n] = v2.at? ["resources", n]
  /-- resources that both texts have -/
  both : ∀ n : String, v.at? ["resources", n] = v1.at? ["resources", n] ∨
    v.at? ["resources", n] = v2.at? ["resources", n]
  /-- the scope is the one of the second text, if it declares one -/
  scope : (p2.HasScope → v.at? ["globals", "scope"] = v2.at? ["globals", "scope"]) ∧
    (¬ p2.HasScope → v.at? ["globals", "scope"] = v1.at? ["globals", "scope"])

theorem joined_of {ln p1 p2 os1 os2} (h1 : Contribs ln p1 os1) (h2 : Contribs ln p2 os2) :
    Joined p2 (.dict (collect (entries ln os1))) (.dict (collect (entries ln os2)))
      (.dict (collect (entries ln (os1 ++ os2)))) := by
  have key : ∀ os s, secItems (entries ln os) s = secItems [defaultScope ln] s ++
      (secItems (os.flatMap Out.own) s ++ (secItems (os.flatMap Out.imports) s ++
        secItems (os.flatMap Out.children) s)) := by
    intro os s
    rw [← secItems_append, ← secItems_append, ← secItems_append]
    simp [entries]
  have hdef : ∀ s, s ≠ "globals" → secItems [defaultScope ln] s = [] := by
    intro s hs
    refine secItems_nil (fun e he => ?_)
    rw [List.mem_singleton.mp he]
    exact fun h => hs h.symm
  have himp : ∀ {p os}, Contribs ln p os → ∀ s, s ≠ "imports" → secItems (os.flatMap Out.imports) s = [] := by
    intro p os hc s hs
    exact secItems_nil (fun e he h => hs (h ▸ import_sec hc he))
  have hch : ∀ {p os}, Contribs ln p os → ∀ s, s ≠ "resources" → secItems (os.flatMap Out.children) s = [] := by
    intro p os hc s hs
    exact secItems_nil (fun e he h => hs (h ▸ contribs_children hc e he))
  have hown : ∀ {p os}, Contribs ln p os → secItems (os.flatMap Out.own) "imports" = [] := by
    intro p os hc
    refine secItems_nil (fun e he h => ?_)
    obtain ⟨l, d, _, hd⟩ := own_sec hc he
    rw [h] at hd
    exact ownName_imports hd
  have hres : ∀ n : String, (Val.dict (collect (entries ln (os1 ++ os2)))).at? ["resources", n] =
      (((secItems (os2.flatMap Out.children) "resources").reverse.lookup n).or
        ((secItems (os1.flatMap Out.children) "resources").reverse.lookup n)).or
      (((secItems (os2.flatMap Out.own) "resources").reverse.lookup n).or
        ((secItems (os1.flatMap Out.own) "resources").reverse.lookup n)) := by
    intro n
    rw [collect_lookup, key, hdef _ (by decide)]
    simp only [List.flatMap_append, secItems_append, himp h1 _ (by decide : "resources" ≠ "imports"),
      himp h2 _ (by decide : "resources" ≠ "imports"), List.nil_append, lookup_append]
  have hres' : ∀ {p os}, Contribs ln p os → ∀ n : String, (Val.dict (collect (entries ln os))).at? ["resources", n] =
      ((secItems (os.flatMap Out.children) "resources").reverse.lookup n).or
        ((secItems (os.flatMap Out.own) "resources").reverse.lookup n) := by
    intro p os hc n
    rw [collect_lookup, key, hdef _ (by decide)]
    simp only [himp hc _ (by decide : "resources" ≠ "imports"), List.nil_append, lookup_append]
  constructor
  · intro s n hg hr
    rw [collect_lookup, collect_lookup, collect_lookup, key, key, key, hdef s hg, hch h1 s hr, hch h2 s hr]
    simp only [List.flatMap_append, secItems_append, hch h1 s hr, hch h2 s hr, List.nil_append, List.append_nil]
    by_cases hi : s = "imports"
    · subst hi
      rw [hown h1, hown h2]
      simp only [List.nil_append, lookup_append]
    · rw [himp h1 s hi, himp h2 s hi]
      simp only [List.append_nil, lookup_append]
  · intro n hn
    rw [hres' h2, Option.or_eq_none_iff] at hn
    rw [hres, hres' h1, hn.1, hn.2, Option.none_or, Option.none_or]
  · intro n hn
    rw [hres' h1, Option.or_eq_none_iff] at hn
    rw [hres, hres' h2, hn.1, hn.2, Option.or_none, Option.or_none]
  · intro n
    rw [hres, hres' h1, hres' h2]
    cases (secItems (os2.flatMap Out.children) "resources").reverse.lookup n with
    | some v => exact .inr rfl
    | none =>
      cases (secItems (os1.flatMap Out.children) "resources").reverse.lookup n with
      | some v => exact .inl rfl
      | none =>
        cases (secItems (os2.flatMap Out.own) "resources").reverse.lookup n with
        | some v => exact .inr rfl
        | none => exact .inl rfl
  · have hg : ∀ {p os}, Contribs ln p os → (Val.dict (collect (entries ln os))).at? ["globals", "scope"] =
        ((secItems (os.flatMap Out.own) "globals").reverse.lookup "scope").or
          ((secItems [defaultScope ln] "globals").reverse.lookup "scope") := by
      intro p os hc
      rw [collect_lookup, key, himp hc _ (by decide), hch hc _ (by decide)]
      simp only [List.append_nil, lookup_append]
    have hj : Contribs ln (p1 ++ p2) (os1 ++ os2) := by
      rw [contribs_iff, Program.outs_append, contribs_iff.mp h1, contribs_iff.mp h2]
      rfl
    rw [hg hj, hg h1, hg h2, List.flatMap_append, secItems_append, lookup_append]
    constructor
    · rintro ⟨l, b, hm⟩
      have : (secItems (os2.flatMap Out.own) "globals").reverse.lookup "scope" ≠ .none := by
        have hp : ("globals", "scope") ∈ (os2.flatMap Out.own).map Entry.place := by
          rw [contribs_own h2]
          exact List.mem_flatMap.mpr ⟨_, hm, by simp [Decl.ownName]⟩
        obtain ⟨e, he, hpl⟩ := List.mem_map.mp hp
        simp only [Entry.place, Prod.mk.injEq] at hpl
        intro h
        have h' := @lookup_mem_keys (secItems (os2.flatMap Out.own) "globals").reverse "scope"
        rw [h] at h'
        have : "scope" ∈ (secItems (os2.flatMap Out.own) "globals").reverse.map Prod.fst := by
          simp only [secItems, List.map_reverse, List.mem_reverse, List.map_map, List.mem_map, List.mem_filter]
          exact ⟨e, ⟨he, by simpa using hpl.1⟩, hpl.2⟩
        exact absurd (h'.mpr this) (by simp)
      cases h : (secItems (os2.flatMap Out.own) "globals").reverse.lookup "scope" with
      | none => exact absurd h this
      | some v => rfl
    · intro hn
      have : secItems (os2.flatMap Out.own) "globals" = [] := by
        refine secItems_nil (fun e he h => hn ?_)
        obtain ⟨l, d, hd, hs⟩ := own_sec h2 he
        rw [h] at hs
        obtain ⟨_, b, rfl⟩ := ownName_globals hs
        exact ⟨l, b, hd⟩
      rw [this]
      rfl

theorem hasScope_down (k : Nat) (p : Program) : (p.down k).HasScope ↔ p.HasScope := by
  constructor
  · rintro ⟨l, b, h⟩
    obtain ⟨⟨l', d⟩, hd, h⟩ := List.mem_map.mp h
    simp only [Prod.mk.injEq] at h
    obtain ⟨_, h⟩ := h
    cases d <;> simp [Decl.down] at h
    exact ⟨l', _, hd⟩
  · rintro ⟨l, b, h⟩
    exact ⟨_, b, List.mem_map.mpr ⟨_, h, rfl⟩⟩

theorem Program.clear_append (p q : Program) (hp : p.clear = true) (hq : q.clear = true) :
    Program.clear (p ++ q) = true := by
  simp only [Program.clear, List.all_append, Bool.and_eq_true] at hp hq ⊢
  exact ⟨hp, hq⟩

/-! ### The properties -/

/-- **C61**, for an empty first part: empty lines in front of a clearly written text do not change its outcome, apart from
line numbers. -/
theorem C61_below {text text' path path'} {t : String} {p : Program} {k : Nat} (hw : Writes t p)
    (hc : p.clear = true) (hb : NoBreak t.toList) (h : chosenText text path = .ok t)
    (h' : chosenText text' path' = .ok (emptyLines k ++ t)) {n : Nat} (ho : Occ t.toList n) (hn : n % 2 = 0) :
    (Parser.mk false).parse text' path' = (Parser.mk false).parse text path := by
  have hv : isValid t = true := by rw [isValid_iff ho, hn]; rfl
  rw [parse_writes _ h hv hw hc,
    parse_writes _ h' (by rw [isValid_below, hv]) (hw.below hb k) (by rw [Program.down_clear, hc]),
    ← Program.bare_val (p.down k), Program.down_bare, Program.bare_val]

/-- **C61.**  The outcome of a text made of two parts is made of the outcomes of the parts.  The
parts are clear ways to write programs, the first one ends a line, and the second one does not begin
with an empty line.  To have the right line numbers, the second part is preceded by as many empty lines
as the first part has lines. -/
theorem C61_concat (P : Parser) {x1 q1 x2 q2 x q} {t1 t2 : String} {p1 p2 : Program} (w1 : Writes t1 p1)
    (w2 : Writes t2 p2) (c1 : p1.clear = true) (c2 : p2.clear = true) (he : EndsLine t1.toList)
    (hb : NoBreak t2.toList) (h1 : chosenText x1 q1 = .ok t1)
    (h2 : chosenText x2 q2 = .ok (emptyLines (countNL t1.toList) ++ t2))
    (h : chosenText x q = .ok (t1 ++ t2)) :
    (∀ v1 v2, P.parse x1 q1 = .ok v1 → P.parse x2 q2 = .ok v2 →
      ∃ v, P.parse x q = .ok v ∧ Joined p2 v1 v2 v) ∧
    (∀ n1 n2, Occ t1.toList n1 → n1 % 2 = 0 → Occ t2.toList n2 → n2 % 2 = 0 →
      (∀ e, P.parse x1 q1 = .error e → P.parse x q = .error e) ∧
      (∀ v1 e, P.parse x1 q1 = .ok v1 → P.parse x2 q2 = .error e → P.parse x q = .error e)) := by
  have hw := w1.append w2 he hb
  have hc : Program.clear (p1 ++ p2.down (countNL t1.toList)) = true :=
    Program.clear_append _ _ c1 (by rw [Program.down_clear, c2])
  have hval : isValid t1 = true → isValid t2 = true →
      P.parse x1 q1 = liftV (p1.val P.addLineNumbers) ∧
      P.parse x2 q2 = liftV ((p2.down (countNL t1.toList)).val P.addLineNumbers) ∧
      P.parse x q = liftV (Program.val P.addLineNumbers (p1 ++ p2.down (countNL t1.toList))) := by
    intro v1 v2
    exact ⟨parse_writes P h1 v1 w1 c1,
      parse_writes P h2 (by rw [isValid_below, v2]) (w2.below hb _) (by rw [Program.down_clear, c2]),
      parse_writes P h (by rw [isValid_append he v1, v2]) hw hc⟩
  have hvalid : ∀ {x q t v}, chosenText x q = .ok t → P.parse x q = .ok v → isValid t = true := by
    intro x q t v hx hv
    rcases parse_cases P x q with ⟨e, _, h'⟩ | ⟨_, _, _, _, h', _⟩ | ⟨_, _, _, h'⟩ | ⟨t', p, h', hv', _⟩
    · rw [hv] at h'; cases h'
    · rw [hv] at h'; cases h'
    · rw [hv] at h'; cases h'
    · rw [hx] at h'; cases h'; exact hv'
  constructor
  · intro v1 v2 hv1 hv2
    obtain ⟨g1, g2, g3⟩ := hval (hvalid h1 hv1) (by rw [← isValid_below]; exact hvalid h2 hv2)
    rw [g1] at hv1
    rw [g2] at hv2
    rw [g3]
    simp only [Program.val] at hv1 hv2 ⊢
    rw [Program.outs_append]
    cases ho1 : Program.outs P.addLineNumbers p1 with
    | error e => rw [ho1] at hv1; cases e <;> cases hv1
    | ok os1 =>
      cases ho2 : Program.outs P.addLineNumbers (p2.down (countNL t1.toList)) with
      | error e => rw [ho2] at hv2; cases e <;> cases hv2
      | ok os2 =>
        rw [ho1] at hv1
        rw [ho2] at hv2
        cases hv1
        cases hv2
        have hj := joined_of (contribs_of ho1) (contribs_of ho2)
        refine ⟨_, rfl, ⟨hj.names, hj.first, hj.second, hj.both, ?_⟩⟩
        have hs := hj.scope
        rw [hasScope_down] at hs
        exact hs
  · intro n1 n2 ho1 hn1 ho2 hn2
    obtain ⟨g1, g2, g3⟩ := hval (by rw [isValid_iff ho1, hn1]; rfl) (by rw [isValid_iff ho2, hn2]; rfl)
    rw [g1, g2, g3]
    simp only [Program.val]
    rw [Program.outs_append]
    cases ho1 : Program.outs P.addLineNumbers p1 with
    | error e =>
      constructor
      · intro e' h'; exact h'
      · intro v e' h'; cases e <;> cases h'
    | ok os1 =>
      constructor
      · intro e' h'; cases h'
      · intro v e' _ h'
        cases ho2 : Program.outs P.addLineNumbers (p2.down (countNL t1.toList)) with
        | error e => rw [ho2] at h'; exact h'
        | ok os2 => rw [ho2] at h'; cases h'

/-- **C61**, without line numbers. -/
theorem C61_plain {x1 q1 x2 q2 x q} {t1 t2 : String} {p1 p2 : Program} (w1 : Writes t1 p1)
    (w2 : Writes t2 p2) (c1 : p1.clear = true) (c2 : p2.clear = true) (he : EndsLine t1.toList)
    (hb : NoBreak t2.toList) (h1 : chosenText x1 q1 = .ok t1) (h2 : chosenText x2 q2 = .ok t2)
    (h : chosenText x q = .ok (t1 ++ t2)) {v1 v2} (hv1 : (Parser.mk false).parse x1 q1 = .ok v1)
    (hv2 : (Parser.mk false).parse x2 q2 = .ok v2) :
    ∃ v, (Parser.mk false).parse x q = .ok v ∧ Joined p2 v1 v2 v := by
  have hval : isValid t2 = true := by
    rcases parse_cases (Parser.mk false) x2 q2 with ⟨e, _, h'⟩ | ⟨_, _, _, _, h', _⟩ | ⟨_, _, _, h'⟩ | ⟨t', p, h', hv', _⟩
    · rw [hv2] at h'; cases h'
    · rw [hv2] at h'; cases h'
    · rw [hv2] at h'; cases h'
    · rw [h2] at h'; cases h'; exact hv'
  obtain ⟨n, ho⟩ := occ_exists t2.toList
  have hn' : n % 2 = 0 := by rw [isValid_iff ho] at hval; simpa using hval
  by_cases hn : emptyLines (countNL t1.toList) ++ t2 = ""
  · have e : t2 = "" := by
      have := congrArg String.toList hn
      rw [String.toList_append] at this
      exact String.toList_inj.mp (List.append_eq_nil_iff.mp this).2
    have e' : emptyLines (countNL t1.toList) = "" := by
      have := congrArg String.toList hn
      rw [String.toList_append] at this
      exact String.toList_inj.mp (List.append_eq_nil_iff.mp this).1
    have h2' : chosenText x2 q2 = .ok (emptyLines (countNL t1.toList) ++ t2) := by rw [h2, hn, e]
    exact (C61_concat _ w1 w2 c1 c2 he hb h1 h2' h).1 _ _ hv1 hv2
  · have h2' : chosenText (some (emptyLines (countNL t1.toList) ++ t2)) .none =
        .ok (emptyLines (countNL t1.toList) ++ t2) := by
      unfold chosenText
      split <;> simp_all
    exact (C61_concat _ w1 w2 c1 c2 he hb h1 h2' h).1 _ _ hv1
      ((C61_below w2 c2 hb h2 h2' ho hn').trans hv2)

/-! Examples. -/

/-- A text the theorems apply to. -/
theorem exVar_writes : ∃ p : Program, Writes "var x=1\n" p ∧ p.clear = true ∧ ¬ p.HasScope := by
  have hx : IsIdentText ['x'] := ⟨'x', [], rfl, by decide, by decide⟩
  have hi : (['1'] : List Char) ≠ [] ∧ ∀ c ∈ ['1'], isAsciiDigit c = true := by decide
  refine ⟨[((1, 1), .var [] ⟨['x'], hx⟩ .none (.expr (.int ⟨['1'], hi⟩)))],
    ⟨[⟨T.VAR, ['v', 'a', 'r'], 1, 1⟩, ⟨T.STRING, ['x'], 1, 1⟩, ⟨T.EQUAL, ['='], 1, 1⟩, ⟨T.INT, ['1'], 1, 1⟩,
      ⟨T._CPP_COMMENT_NL, ['\n'], 1, 2⟩], ?_, ?_⟩, rfl, ?_⟩
  · refine .tok (t := T.VAR) (x := ['v', 'a', 'r']) ?_ (.gap (x := [' ']) .blank (.tok (t := T.STRING) (x := ['x']) ?_
      (.tok (t := T.EQUAL) (x := ['=']) ?_ (.tok (t := T.INT) (x := ['1']) ?_
      (.tok (t := T._CPP_COMMENT_NL) (x := ['\n']) (s := []) ?_ .nil)))))
    · exact Fits.keyword (k := T.VAR) (by decide) (by intro c cs h; cases h; decide) (by decide)
    · refine .ident hx (by intro c cs h; cases h; decide) (by decide) (by decide) ?_ (fun h => absurd h (by decide))
      have : ∀ k ∈ keywordIds, ['x'] ≠ fixedChars k := by decide +kernel
      exact fun k hk he => absurd he (this k hk)
    · exact Fits.op1 (t := T.EQUAL) (by decide) (by decide +kernel)
    · exact .int (by decide) (by decide) (by intro c cs h; cases h; decide) (by decide)
    · exact .lineEnd (.inl .lf) ⟨by decide, by decide⟩
  · have hv : Kw "var" ⟨T.VAR, ['v', 'a', 'r'], 1, 1⟩ := ⟨by decide +kernel, rfl⟩
    have he : Kw "=" ⟨T.EQUAL, ['='], 1, 1⟩ := ⟨by decide +kernel, rfl⟩
    have hi' : NoInfix T._CPP_COMMENT_NL := (starts_noInfix _ (by decide)).1
    have hb : NoBang T._CPP_COMMENT_NL := (starts_noInfix _ (by decide)).2
    have h1 : ESyn false (.int ⟨['1'], hi⟩) ([] ++ [⟨T.INT, ['1'], 1, 1⟩]) T._CPP_COMMENT_NL :=
      .int (.inl rfl) ⟨rfl, rfl⟩
    have h2 : DeclSyn (.var [] ⟨['x'], hx⟩ .none (.expr (.int ⟨['1'], hi⟩)))
        ([] ++ (⟨T.VAR, ['v', 'a', 'r'], 1, 1⟩ :: ⟨T.STRING, ['x'], 1, 1⟩ :: ([] ++ (⟨T.EQUAL, ['='], 1, 1⟩ ::
          ([] ++ [⟨T.INT, ['1'], 1, 1⟩]))))) T._CPP_COMMENT_NL :=
      .var .nil hv ⟨rfl, rfl⟩ .no he (.expr (.plain h1 hb) hi')
    have h3 := ProgSyn.decl (p := []) (w1 := []) .nil h2 (l := (1, 1)) ⟨_, _, rfl, rfl, rfl⟩
    exact ProgSyn.nl (u := ⟨T._CPP_COMMENT_NL, ['\n'], 1, 2⟩) h3 rfl
  · rintro ⟨l, b, h⟩
    simp at h

/-- Twice the same text: the second declaration of `x` counts. -/
example : (∃ p : Program, Writes "var x=1\n" p ∧ p.clear = true) ∧
    EndsLine "var x=1\n".toList ∧ NoBreak "var x=1\n".toList ∧
    (Parser.mk true).parse (some ("var x=1\n" ++ "var x=1\n")) .none =
      .ok (.dict [("globals", .dict [("scope", .dict [("value", .str "resourceGroup"), ("__start_line__", .int 0),
          ("__end_line__", .int 0)])]),
        ("variables", .dict [("x", .dict [("decorators", .list []), ("value", .int 1), ("__start_line__", .int 2),
          ("__end_line__", .int 2)])])]) ∧
    (Parser.mk true).parse (some "\nvar x=1\n") .none =
      .ok (.dict [("globals", .dict [("scope", .dict [("value", .str "resourceGroup"), ("__start_line__", .int 0),
          ("__end_line__", .int 0)])]),
        ("variables", .dict [("x", .dict [("decorators", .list []), ("value", .int 1), ("__start_line__", .int 2),
          ("__end_line__", .int 2)])])]) := by
  obtain ⟨p, h, c, _⟩ := exVar_writes
  exact ⟨⟨p, h, c⟩, .inr (by decide), ⟨by decide, by decide⟩, eq_of_outIs (by decide +kernel),
    eq_of_outIs (by decide +kernel)⟩

/-- The hypothesis that the parts are clear is needed: both of these texts are accepted, but in the text
made of them the string of the first one goes on, and nothing is left of the second one. -/
example : (Parser.mk false).parse (some "var x='${'\n") .none =
      .ok (.dict [("globals", .dict [("scope", .dict [("value", .str "resourceGroup")])]),
        ("variables", .dict [("x", .dict [("decorators", .list []), ("value", .str "${")])])]) ∧
    (Parser.mk false).parse (some "var y='}'\n") .none =
      .ok (.dict [("globals", .dict [("scope", .dict [("value", .str "resourceGroup")])]),
        ("variables", .dict [("y", .dict [("decorators", .list []), ("value", .str "}")])])]) ∧
    (Parser.mk false).parse (some "var x='${'\nvar y='}'\n") .none =
      .ok (.dict [("globals", .dict [("scope", .dict [("value", .str "resourceGroup")])]),
        ("variables", .dict [("x", .dict [("decorators", .list []), ("value", .str "${'\nvar y='}")])])]) :=
  ⟨eq_of_outIs (by decide +kernel), eq_of_outIs (by decide +kernel), eq_of_outIs (by decide +kernel)⟩

end Pycep
