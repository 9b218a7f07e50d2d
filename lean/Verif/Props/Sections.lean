import Verif.Spec.Sections
import Verif.Props.Override
/-
C95: the sections of the result are independent of each other.
-/
namespace Pycep

/-- entries of some sections make up these sections of the result -/
theorem collect_only (K : String → Bool) (es : List Entry) :
    collect (es.filter (fun e => K e.sec)) = (collect es).filter (fun s => K s.1) := by
  unfold collect
  rw [show (es.filter (fun e => K e.sec)).map Entry.sec = (es.map Entry.sec).filter K by
    rw [List.filter_map]; rfl, ← eraseDups_filter, List.filter_map]
  refine List.map_congr_left fun s hs => ?_
  have hk : K s = true := (List.mem_filter.mp hs).2
  congr 4
  rw [List.filter_filter]
  refine List.filter_congr fun e _ => ?_
  by_cases h : e.sec = s <;> simp [h, hk]

theorem out_sec {ln : Bool} {l : Lines} {d : Decl} {o : Out} (h : d.out ln l = .ok o) {e : Entry}
    (he : e ∈ o.own ∨ e ∈ o.imports ∨ e ∈ o.children) : e.sec = d.reportedIn := by
  obtain ⟨h1, h2, h3, h4⟩ := out_places h
  rcases he with he | he | he
  · have : e.place ∈ d.ownName := h1 ▸ List.mem_map_of_mem he
    cases d <;> simp only [Decl.ownName, List.mem_singleton, List.not_mem_nil] at this <;>
      exact congrArg Prod.fst this
  · have : e.place ∈ d.importNames.map (fun n => ("imports", n)) := h2 ▸ List.mem_map_of_mem he
    obtain ⟨n, hn, hp⟩ := List.mem_map.mp this
    have hp : "imports" = e.sec := congrArg Prod.fst hp
    rw [← hp]
    cases d <;> first | rfl | exact absurd hn (by simp [Decl.importNames])
  · obtain ⟨_, _, _, _, _, rfl⟩ := h4 (List.ne_nil_of_mem he)
    exact h3 e he

theorem filter_sec {K : String → Bool} {s : String} {es : List Entry} (h : ∀ e ∈ es, e.sec = s) :
    es.filter (fun e => K e.sec) = if K s = true then es else [] := by
  by_cases hk : K s = true
  · rw [if_pos hk, List.filter_eq_self]
    intro e he
    rw [h e he, hk]
  · rw [if_neg hk, List.filter_eq_nil_iff]
    intro e he
    rwa [h e he]

/-- what the chosen declarations contribute -/
theorem only_contribs {ln : Bool} (K : String → Bool) {p : Program} {os : List Out} (h : Contribs ln p os) :
    ∃ os', Contribs ln (p.only K) os' ∧ ∀ f : Out → List Entry,
      (∀ o e, e ∈ f o → e ∈ o.own ∨ e ∈ o.imports ∨ e ∈ o.children) →
      os'.flatMap f = (os.flatMap f).filter (fun e => K e.sec) := by
  induction h with
  | nil => exact ⟨[], .nil, fun _ _ => rfl⟩
  | @cons l d p o os hd _ ih =>
    obtain ⟨os', hc, hf⟩ := ih
    by_cases hk : K d.reportedIn = true
    · refine ⟨o :: os', ?_, fun f hf' => ?_⟩
      · rw [Program.only, List.filter_cons_of_pos (by exact hk)]
        exact .cons hd hc
      · rw [List.flatMap_cons, List.flatMap_cons, List.filter_append, hf f hf',
          filter_sec fun e he => out_sec hd (hf' _ _ he), if_pos hk]
    · refine ⟨os', ?_, fun f hf' => ?_⟩
      · rw [Program.only, List.filter_cons_of_neg (by exact hk)]
        exact hc
      · rw [List.flatMap_cons, List.filter_append, hf f hf',
          filter_sec fun e he => out_sec hd (hf' _ _ he), if_neg hk, List.nil_append]

theorem only_val {ln : Bool} {K : String → Bool} (hK : K "globals" = true) {p : Program} {v : Val}
    (hv : p.val ln = .ok v) :
    ∃ ss, v = .dict ss ∧ (p.only K).val ln = .ok (.dict (ss.filter (fun s => K s.1))) := by
  rw [Program.val] at hv
  cases ho : p.outs ln with
  | error e => rw [ho] at hv; cases hv
  | ok os =>
    rw [ho] at hv
    cases hv
    obtain ⟨os', hc, hf⟩ := only_contribs K (contribs_iff.mpr ho)
    refine ⟨_, rfl, ?_⟩
    rw [Program.val, contribs_iff.mp hc, ← collect_only]
    show Except.ok _ = Except.ok _
    congr 3
    unfold entries
    rw [hf Out.own fun _ _ => .inl, hf Out.imports fun _ _ h => .inr (.inl h),
      hf Out.children fun _ _ h => .inr (.inr h), List.filter_cons_of_pos (by exact hK), List.filter_append,
      List.filter_append]

theorem ok_val {P : Parser} {text path v} {t : String} {p : Program} (h : chosenText text path = .ok t)
    (hw : Writes t p) (hc : p.clear = true) (hv : P.parse text path = .ok v) : p.val P.addLineNumbers = .ok v := by
  have hval : isValid t = true := by
    rcases parse_cases P text path with
      ⟨e, _, h2⟩ | ⟨_, _, _, _, h2, _⟩ | ⟨_, _, _, h2⟩ | ⟨t2, _, h2, hv2, _⟩
    · rw [hv] at h2; cases h2
    · rw [hv] at h2; cases h2
    · rw [hv] at h2; cases h2
    · rw [h] at h2; cases h2; exact hv2
  rw [parse_writes _ h hval hw hc] at hv
  cases hp : p.val P.addLineNumbers with
  | ok w => rw [hp] at hv; cases hv; rfl
  | error e => rw [hp] at hv; cases e <;> cases hv

/-- **C95, without line numbers.** Choose some sections of the result, `globals` among them.  If a document is
accepted, so is the document with only the declarations that are reported in these sections, and its
result consists of these sections, unchanged and in the same order. -/
theorem C95_sections (K : String → Bool) (hK : K "globals" = true) {text path text' path'} {t t' : String}
    {p p' : Program} (h : chosenText text path = .ok t) (h' : chosenText text' path' = .ok t') (hw : Writes t p)
    (hw' : Writes t' p') (hc : p.clear = true) (hc' : p'.clear = true) {n : Nat} (ho : Occ t'.toList n)
    (hn : n % 2 = 0) (he : p'.bare = p.bare.only K) {v} (hv : (Parser.mk false).parse text path = .ok v) :
    ∃ ss, v = .dict ss ∧
      (Parser.mk false).parse text' path' = .ok (.dict (ss.filter (fun s => K s.1))) := by
  obtain ⟨ss, hs, h2⟩ := only_val hK ((Program.bare_val p).trans (ok_val h hw hc hv))
  refine ⟨ss, hs, ?_⟩
  rw [parse_writes _ h' (by rw [isValid_iff ho, hn]; rfl) hw' hc']
  show liftV (p'.val false) = _
  rw [← Program.bare_val p', he, h2]
  rfl

/-- **C95, with line numbers.** The same for the document in which the declarations that are left stand on the lines
where they stood, as when the others are replaced by comments or empty lines. -/
theorem C95_lines (P : Parser) (K : String → Bool) (hK : K "globals" = true) {text path text' path'} {t t' : String}
    {p p' : Program} (h : chosenText text path = .ok t) (h' : chosenText text' path' = .ok t') (hw : Writes t p)
    (hw' : Writes t' p') (hc : p.clear = true) (hc' : p'.clear = true) {n : Nat} (ho : Occ t'.toList n)
    (hn : n % 2 = 0) (he : p' = p.only K) {v} (hv : P.parse text path = .ok v) :
    ∃ ss, v = .dict ss ∧ P.parse text' path' = .ok (.dict (ss.filter (fun s => K s.1))) := by
  obtain ⟨ss, hs, h2⟩ := only_val hK (ok_val h hw hc hv)
  refine ⟨ss, hs, ?_⟩
  rw [parse_writes _ h' (by rw [isValid_iff ho, hn]; rfl) hw' hc', he, h2]
  rfl

/-- **C95, for accepted documents.** Two accepted documents that have the same declarations for some sections agree
in these sections: values, names and their order, and the order of the sections. -/
theorem C95_same (K : String → Bool) (hK : K "globals" = true) {text path text' path' v v'}
    (h : (Parser.mk false).parse text path = .ok v) (h' : (Parser.mk false).parse text' path' = .ok v') :
    ∃ t p t' p' ss ss', chosenText text path = .ok t ∧ Spells t p ∧ chosenText text' path' = .ok t' ∧ Spells t' p' ∧
      v = .dict ss ∧ v' = .dict ss' ∧ (p.bare.only K = p'.bare.only K →
        ss.filter (fun s => K s.1) = ss'.filter (fun s => K s.1)) := by
  obtain ⟨t, p, h1, h2, h3⟩ := parse_ok h
  obtain ⟨t', p', h1', h2', h3'⟩ := parse_ok h'
  obtain ⟨ss, e, h4⟩ := only_val hK ((Program.bare_val p).trans h3)
  obtain ⟨ss', e', h4'⟩ := only_val hK ((Program.bare_val p').trans h3')
  refine ⟨t, p, t', p', ss, ss', h1, h2, h1', h2', e, e', fun hp => ?_⟩
  rw [hp, h4'] at h4
  simpa using h4.symm

/-! ### Concrete cases -/

/-- leaving out the parameters -/
example (a b c : Ident) (t : DataType) (e : LoopOrExpr) (m : List Char) :
    Program.only (fun s => s != "parameters")
      [((1, 1), .param [] a t .none), ((2, 2), .var [] b .none e), ((3, 3), .param [] c t .none), ((4, 4), .scope m)] =
      [((2, 2), .var [] b .none e), ((4, 4), .scope m)] := by
  simp [Program.only, Decl.reportedIn]

/-- the theorem, used on a text: without its variable a blank is left -/
example : ∃ ss, (Parser.mk true).parse (some "var x=1\n") .none = .ok (.dict ss) ∧
    (Parser.mk true).parse (some " ") .none = .ok (.dict (ss.filter (fun s => s.1 != "variables"))) := by
  obtain ⟨_, _, w⟩ := exOver1_writes
  have hv : (Parser.mk true).parse (some "var x=1\n") .none =
      .ok (.dict [("globals", .dict [("scope", .dict [("value", .str "resourceGroup"), ("__start_line__", .int 0),
          ("__end_line__", .int 0)])]),
        ("variables", .dict [("x", .dict [("decorators", .list []), ("value", .int 1), ("__start_line__", .int 1),
          ("__end_line__", .int 1)])])]) := eq_of_outIs (by decide +kernel)
  obtain ⟨ss, e, h⟩ := C95_lines (Parser.mk true) (fun s => s != "variables") (by decide +kernel) (t := "var x=1\n")
    (t' := " ") (text' := some " ") (path' := .none) rfl rfl w ⟨[], .gap (x := [' ']) .blank .nil, .nil⟩ rfl rfl
    (occ_no_quote (by decide +kernel)) rfl (by simp [Program.only, Decl.reportedIn]) hv
  exact ⟨ss, by rw [hv, e], h⟩

end Pycep
