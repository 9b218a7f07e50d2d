import Verif.Props.Decls
/-
C54: exactly which names are reported, and in which order.
-/
namespace Pycep

/-- The names of the nested resources that are reported for a program: for every resource
declaration, in order, the last resource nested in its body, the last one nested in that one, ... -/
inductive NestedNames : Program → List String → Prop where
  | nil : NestedNames [] []
  | other {l d p ns} : (∀ ds x b ex c, d ≠ .resource ds x b ex c) → NestedNames p ns → NestedNames ((l, d) :: p) ns
  | resource {l ds x b ex c rs p ns} : Chain c rs → NestedNames p ns →
      NestedNames ((l, .resource ds x b ex c) :: p) (chainNames (String.ofList x.1) rs ++ ns)

/-- sections and names in the order in which they are put into the result: the scope, the
declarations, the imported names, the nested resources -/
def Program.names (p : Program) (nested : List String) : List (String × String) :=
  ("globals", "scope") :: (p.flatMap (fun d => d.2.ownName) ++
    (p.flatMap (fun d => d.2.importNames)).map (fun n => ("imports", n)) ++ nested.map (fun n => ("resources", n)))

theorem contribs_nested {ln : Bool} {p : Program} {os : List Out} (h : Contribs ln p os) {ns : List String}
    (hn : NestedNames p ns) : (os.flatMap Out.children).map Entry.place = ns.map (fun n => ("resources", n)) := by
  induction hn generalizing os with
  | nil => cases h; rfl
  | other hd _ ih =>
    cases h with
    | @cons _ _ _ o _ ho h =>
      rw [List.flatMap_cons, List.map_append, ih h]
      have : o.children = [] := by
        by_contra hne
        obtain ⟨ds, x, b, ex, c, e⟩ := (out_places ho).2.2.2 hne
        exact hd _ _ _ _ _ e
      rw [this]; rfl
  | resource hc _ ih =>
    cases h with
    | cons ho h =>
      obtain ⟨_, _, _, _, _, _, _, _, _, hout⟩ := resource_out ho hc
      rw [List.flatMap_cons, List.map_append, ih h, nestedOut_names hout, List.map_append]

/-- if resources are nested only directly in the bodies of resources, and the key used for them is not
used otherwise, there is such a list of names -/
theorem nestedNames_exist {p : Program} (h : ∀ l ds x b ex c, (l, Decl.resource ds x b ex c) ∈ p → c.Tidy) :
    ∃ ns, NestedNames p ns := by
  induction p with
  | nil => exact ⟨_, .nil⟩
  | cons q p ih =>
    obtain ⟨l, d⟩ := q
    obtain ⟨ns, hns⟩ := ih (fun l ds x b ex c hm => h l ds x b ex c (List.mem_cons_of_mem _ hm))
    by_cases hd : ∃ ds x b ex c, d = .resource ds x b ex c
    · obtain ⟨ds, x, b, ex, c, rfl⟩ := hd
      obtain ⟨rs, hrs⟩ := tidy_chain _ c (Nat.lt_succ_self _) (h l ds x b ex c (by simp))
      exact ⟨_, .resource hrs hns⟩
    · exact ⟨ns, .other (fun ds x b ex c e => hd ⟨ds, x, b, ex, c, e⟩) hns⟩

/-- **C54.** The sections of the result, and the names in every section, are exactly those of the
declarations, imports and reported nested resources, each once, in the order of first occurrence. -/
theorem C54_names {P : Parser} {text path v} (h : P.parse text path = .ok v) :
    ∃ t p, chosenText text path = .ok t ∧ Spells t p ∧ ∀ ns, NestedNames p ns →
      ∃ r : List (String × Val), v = .dict r ∧ r.map Prod.fst = ((p.names ns).map Prod.fst).eraseDups ∧
        ∀ s d, (s, Val.dict d) ∈ r →
          d.map Prod.fst = (((p.names ns).filter (fun q => q.1 = s)).map Prod.snd).eraseDups := by
  obtain ⟨t, p, os, h1, h2, hc, rfl⟩ := parse_entries h
  refine ⟨t, p, h1, h2, fun ns hns => ?_⟩
  have hpl : (entries P.addLineNumbers os).map Entry.place = p.names ns := by
    rw [entries, List.map_cons, List.map_append, List.map_append, contribs_own hc, contribs_imports hc,
      contribs_nested hc hns]
    rfl
  refine ⟨_, rfl, ?_, fun s d hm => ?_⟩
  · rw [collect_keys, ← hpl, List.map_map]; rfl
  · unfold collect at hm
    obtain ⟨s', _, he⟩ := List.mem_map.mp hm
    have e1 := congrArg Prod.fst he
    have e2 := congrArg Prod.snd he
    simp only at e1 e2
    subst e1
    simp only [Val.dict.injEq] at e2
    rw [← e2, lastWins_keys', List.map_map, ← hpl, List.filter_map, List.map_map]
    rfl

/-- sections and names in order; of the resources nested in `a` only `c` is reported -/
example : Parser.parse ⟨false⟩ (some "var z = 1\nresource a 'T@1' = {\n  resource b 'u' = {\n  }\n  resource c 'w' = {\n  }\n}\nresource d 'T@1' = {\n}\nvar y = 2\nvar z = 3\n") .none =
    .ok (.dict [("globals", .dict [("scope", .dict [("value", .str "resourceGroup")])]),
      ("variables", .dict [("z", .dict [("decorators", .list []), ("value", .int 3)]),
        ("y", .dict [("decorators", .list []), ("value", .int 2)])]),
      ("resources", .dict [("a", .dict [("decorators", .list []), ("type", .str "T"), ("api_version", .str "1"),
        ("existing", .bool false), ("config", .dict [])]),
        ("d", .dict [("decorators", .list []), ("type", .str "T"), ("api_version", .str "1"),
        ("existing", .bool false), ("config", .dict [])]),
        ("a__c", .dict [("decorators", .list []), ("type", .str "T/w"), ("api_version", .str "1"),
        ("existing", .bool false), ("config", .dict [("depends_on", .list [.elem "a"])])])])]) :=
  eq_of_outIs (by decide +kernel)

end Pycep
