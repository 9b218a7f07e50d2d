import Verif.Props.Decls
import Verif.Proofs.ModuleRef
/-
C16, C17, C18: module references.
-/
namespace Pycep

/-- what is reported for a module -/
theorem module_entry {P : Parser} {text path v} (h : P.parse text path = .ok v) :
    ∃ t p, chosenText text path = .ok t ∧ Spells t p ∧
      ∀ {n l ds x b c}, Reported p "modules" n l (.module ds x b c) →
        ∃ ty de, ModuleRef b ty de ∧
          v.at? [.key "modules", .key n, .key "type"] = some (.str ty) ∧
          v.at? [.key "modules", .key n, .key "detail"] = some (.dict de) := by
  obtain ⟨t, p, h1, h2, hv⟩ := parse_ok h
  refine ⟨t, p, h1, h2, fun {n l ds x b c} hr => ?_⟩
  rw [Program.val] at hv
  obtain ⟨os, hos, hv⟩ := bind_ok' hv
  cases hv
  obtain ⟨o, attrs, ho, hown, hat⟩ := reported_entry (contribs_of hos) hr
  rw [Decl.out] at ho
  obtain ⟨vs, hvs, ho⟩ := bind_ok' ho
  obtain ⟨pv, hpv, ho⟩ := bind_ok' ho
  obtain ⟨y, hy, ho⟩ := bind_ok' ho
  obtain ⟨ty', hty, ho⟩ := bind_ok' ho
  obtain ⟨de', hde, ho⟩ := bind_ok' ho
  cases ho
  simp only [List.cons.injEq, Entry.mk.injEq, true_and, and_true] at hown
  obtain ⟨_, rfl⟩ := hown
  obtain ⟨ty, de, href, rfl⟩ := classify_iff.mp (inRule_ok hpv)
  have h3 := inRule_ok hty
  have h4 := inRule_ok hde
  simp only [refVal, Val.item, dGet] at h3 h4
  cases h3
  cases h4
  refine ⟨ty, de, href, ?_, ?_⟩
  · rw [show [PStep.key "modules", .key n, .key "type"] = [.key "modules", .key n] ++ [.key "type"] from rfl,
      Val.at?_append, hat]
    simp [Val.at?, Val.step?, dGet]
  · rw [show [PStep.key "modules", .key n, .key "detail"] = [.key "modules", .key n] ++ [.key "detail"] from rfl,
      Val.at?_append, hat]
    simp [Val.at?, Val.step?, dGet]

/-- **C17.** What is reported for a module reference are the components of exactly one of the
accepted forms. -/
theorem C17_components {P : Parser} {text path v} (h : P.parse text path = .ok v) :
    ∃ t p, chosenText text path = .ok t ∧ Spells t p ∧
      ∀ {n l ds x b c}, Reported p "modules" n l (.module ds x b c) →
        ∃ ty de, (∀ ty' de', ModuleRef b ty' de' ↔ ty' = ty ∧ de' = de) ∧
          v.at? [.key "modules", .key n, .key "type"] = some (.str ty) ∧
          v.at? [.key "modules", .key n, .key "detail"] = some (.dict de) := by
  obtain ⟨t, p, h1, h2, h3⟩ := module_entry h
  refine ⟨t, p, h1, h2, fun hr => ?_⟩
  obtain ⟨ty, de, href, h4, h5⟩ := h3 hr
  refine ⟨ty, de, fun ty' de' => ⟨fun h => moduleRef_unique h href, ?_⟩, h4, h5⟩
  rintro ⟨rfl, rfl⟩
  exact href

/-- **C17.** A reference that has none of the accepted forms makes `parse` fail. -/
theorem C17_others_fail {text path tree} (h : createTree' text path = .ok tree) :
    ∃ t p, chosenText text path = .ok t ∧ Spells t p ∧
      ∀ (P : Parser) {l ds x b c}, (l, Decl.module ds x b c) ∈ p → (∀ ty de, ¬ ModuleRef b ty de) →
        ∃ r e, P.parse text path = .error (.visitError r e) := by
  obtain ⟨t, p, h1, h2, h3⟩ := tree_fails h
  refine ⟨t, p, h1, h2, fun P {l ds x b c} hd hno => h3 P ?_⟩
  intro v hv
  rw [Program.val] at hv
  obtain ⟨os, hos, hv⟩ := bind_ok' hv
  obtain ⟨o, ho⟩ := outs_mem hos hd
  rw [Decl.out] at ho
  obtain ⟨vs, hvs, ho⟩ := bind_ok' ho
  obtain ⟨pv, hpv, ho⟩ := bind_ok' ho
  obtain ⟨ty, de, href, _⟩ := classify_iff.mp (inRule_ok hpv)
  exact hno _ _ href

/-- **C17.** A module with a reference of one of the accepted forms is never the reason of a
failure: it contributes its entry as soon as its decorators and its body have representations. -/
theorem C17_accepted {ln : Bool} {l ds x b c ty de vs y} (h : ModuleRef b ty de)
    (hds : decoVals ln ds = .ok vs) (hc : c.val ln = .ok y) :
    (Decl.module ds x b c).out ln l = .ok { own := [⟨"modules", String.ofList x.1, [("decorators", .list vs),
      ("type", .str ty), ("detail", .dict de), ("config", y)] ++ lineItems ln l⟩] } := by
  rw [Decl.out, hds, txt, classify_complete h, hc]
  rfl

/-- the type that belongs to the prefix of a reference -/
def prefixType (b : List Char) : String :=
  match b with
  | 'b' :: 'r' :: ':' :: _ => "bicep_registry"
  | 'b' :: 'r' :: '/' :: _ => "bicep_registry_alias"
  | 't' :: 's' :: ':' :: _ => "template_spec"
  | 't' :: 's' :: '/' :: _ => "template_spec_alias"
  | _ => "local"

/-- the reference without its prefix -/
def withoutPrefix (b : List Char) : List Char := if prefixType b = "local" then b else b.drop 3

theorem prefixType_local {b : List Char} (h : ∀ pre ∈ ["br:", "br/", "ts:", "ts/"], ¬ Begins pre b) :
    prefixType b = "local" := by
  unfold prefixType
  split
  · exact absurd ⟨_, rfl⟩ (h "br:" (by simp))
  · exact absurd ⟨_, rfl⟩ (h "br/" (by simp))
  · exact absurd ⟨_, rfl⟩ (h "ts:" (by simp))
  · exact absurd ⟨_, rfl⟩ (h "ts/" (by simp))
  · rfl

/-- **C16.** The type of a module follows from the prefix of its reference, `full` is the reference
without its prefix, and the path of a local module is its reference. -/
theorem C16_classification {P : Parser} {text path v} (h : P.parse text path = .ok v) :
    ∃ t p, chosenText text path = .ok t ∧ Spells t p ∧
      ∀ {n l ds x b c}, Reported p "modules" n l (.module ds x b c) →
        v.at? [.key "modules", .key n, .key "type"] = some (.str (prefixType b)) ∧
        v.at? [.key "modules", .key n, .key "detail", .key "full"] = some (.str (String.ofList (withoutPrefix b))) ∧
        (prefixType b = "local" →
          v.at? [.key "modules", .key n, .key "detail", .key "path"] = some (.str (String.ofList b))) := by
  obtain ⟨t, p, h1, h2, h3⟩ := module_entry h
  refine ⟨t, p, h1, h2, fun {n l ds x b c} hr => ?_⟩
  obtain ⟨ty, de, href, h4, h5⟩ := h3 hr
  have h6 : ty = prefixType b ∧ dGet "full" de = some (.str (String.ofList (withoutPrefix b))) ∧
      (prefixType b = "local" → dGet "path" de = some (.str (String.ofList b))) := by
    cases href with
    | file hno => rw [withoutPrefix, prefixType_local hno]; simp [dGet, comp]
    | publicRegistry => refine ⟨rfl, rfl, fun h => ?_⟩; exact absurd h (by simp [prefixType])
    | privateRegistry => refine ⟨rfl, rfl, fun h => ?_⟩; exact absurd h (by simp [prefixType])
    | registryAlias => refine ⟨rfl, rfl, fun h => ?_⟩; exact absurd h (by simp [prefixType])
    | spec => refine ⟨rfl, rfl, fun h => ?_⟩; exact absurd h (by simp [prefixType])
    | specAlias => refine ⟨rfl, rfl, fun h => ?_⟩; exact absurd h (by simp [prefixType])
  have hd : ∀ k, v.at? [.key "modules", .key n, .key "detail", .key k] = dGet k de := by
    intro k
    rw [show [PStep.key "modules", .key n, .key "detail", .key k] =
      [.key "modules", .key n, .key "detail"] ++ [.key k] from rfl, Val.at?_append, h5]
    simp only [Option.bind_some, Val.at?, Val.step?]
    cases dGet k de <;> rfl
  rw [h4, hd, hd, ← h6.1]
  exact ⟨rfl, h6.2.1, fun h => h6.2.2 (h6.1 ▸ h)⟩

/-- **C18.** `public` is reported as true exactly for references that begin with `br/public:` or
`br:mcr.microsoft.com/`, as false for all other registries; the name of the registry is
`mcr.microsoft.com` or the part before `.azurecr.io/`. -/
theorem C18_public {P : Parser} {text path v} (h : P.parse text path = .ok v) :
    ∃ t p, chosenText text path = .ok t ∧ Spells t p ∧
      ∀ {n l ds x b c}, Reported p "modules" n l (.module ds x b c) →
        (v.at? [.key "modules", .key n, .key "detail", .key "public"] = some (.bool true) ↔
          Begins "br/public:" b ∨ Begins "br:mcr.microsoft.com/" b) ∧
        (Begins "br:mcr.microsoft.com/" b →
          v.at? [.key "modules", .key n, .key "detail", .key "registry_name"] = some (.str "mcr.microsoft.com")) ∧
        (Begins "br:" b → ¬ Begins "br:mcr.microsoft.com/" b →
          v.at? [.key "modules", .key n, .key "detail", .key "public"] = some (.bool false) ∧
          ∃ reg rest, '.' ∉ reg ∧ b = "br:".toList ++ reg ++ ".azurecr.io/".toList ++ rest ∧
            v.at? [.key "modules", .key n, .key "detail", .key "registry_name"] = some (.str (String.ofList reg))) := by
  obtain ⟨t, p, h1, h2, h3⟩ := module_entry h
  refine ⟨t, p, h1, h2, fun {n l ds x b c} hr => ?_⟩
  obtain ⟨ty, de, href, h4, h5⟩ := h3 hr
  have hd : ∀ k, v.at? [.key "modules", .key n, .key "detail", .key k] = dGet k de := by
    intro k
    rw [show [PStep.key "modules", .key n, .key "detail", .key k] =
      [.key "modules", .key n, .key "detail"] ++ [.key k] from rfl, Val.at?_append, h5]
    simp only [Option.bind_some, Val.at?, Val.step?]
    cases dGet k de <;> rfl
  rw [hd, hd]
  have brSplit : "br:mcr.microsoft.com/".toList = "br:".toList ++ "mcr.microsoft.com/".toList := by decide
  cases href with
  | file hno =>
    have e1 : ¬ Begins "br/public:" b := fun ⟨r, hr⟩ => hno "br/" (by simp) ⟨"public:".toList ++ r, by rw [hr]; rfl⟩
    have e2 : ¬ Begins "br:mcr.microsoft.com/" b := fun ⟨r, hr⟩ =>
      hno "br:" (by simp) ⟨"mcr.microsoft.com/".toList ++ r, by rw [hr]; rfl⟩
    have e3 : ¬ Begins "br:" b := hno "br:" (by simp)
    refine ⟨?_, fun h => absurd h e2, fun h => absurd h e3⟩
    simp [dGet, e1, e2]
  | @publicRegistry b path tag rest _ _ _ hb =>
    have e : Begins "br:mcr.microsoft.com/" ("br:".toList ++ b) :=
      ⟨path ++ ":".toList ++ tag ++ rest, by rw [hb, brSplit]; simp only [List.append_assoc]⟩
    exact ⟨⟨fun _ => .inr e, fun _ => rfl⟩, fun _ => rfl, fun _ h => absurd e h⟩
  | @privateRegistry b reg path tag rest hreg _ _ _ hb =>
    have e1 : ¬ Begins "br/public:" ("br:".toList ++ b) := by rintro ⟨r, hr⟩; simp at hr
    have e2 : ¬ Begins "br:mcr.microsoft.com/" ("br:".toList ++ b) := by
      rintro ⟨r, hr⟩
      rw [brSplit, List.append_assoc] at hr
      have := List.append_cancel_left hr
      rw [hb] at this
      simp only [List.append_assoc] at this
      exact public_private hreg this.symm
    refine ⟨⟨fun h => (by simp [dGet] at h), fun h => (h.elim e1 e2).elim⟩, fun h => absurd h e2, fun _ _ => ⟨rfl, reg, path ++ ":".toList ++ tag ++ rest, ?_, ?_, rfl⟩⟩
    · intro h
      have := hreg.2 _ h
      rw [word_dot] at this
      cases this
    · rw [hb]; simp only [List.append_assoc]
  | @registryAlias b al path tag rest hal _ _ _ hb =>
    have e2 : ¬ Begins "br:mcr.microsoft.com/" ("br/".toList ++ b) := by rintro ⟨r, hr⟩; simp at hr
    have e3 : ¬ Begins "br:" ("br/".toList ++ b) := by rintro ⟨r, hr⟩; simp at hr
    refine ⟨?_, fun h => absurd h e2, fun h => absurd h e3⟩
    have : al = "public".toList ↔ Begins "br/public:" ("br/".toList ++ b) := by
      constructor
      · rintro rfl
        exact ⟨path ++ ":".toList ++ tag ++ rest, by rw [hb]; simp [List.append_assoc]⟩
      · rintro ⟨r, hr⟩
        have h7 : "br/public:".toList ++ r = "br/".toList ++ ("public".toList ++ (":".toList ++ r)) := rfl
        rw [h7] at hr
        have h8 := List.append_cancel_left hr
        rw [hb] at h8
        simp only [List.append_assoc] at h8
        have h9 := takeWhile_fits hal (ends_of (l := ":") (c := ':') (r := []) (s := path ++ (":".toList ++ (tag ++ rest))) (by decide) word_colon)
        have h10 : ("public".toList ++ (":".toList ++ r)).takeWhile isWordRe = "public".toList :=
          takeWhile_fits ⟨by decide, by decide +kernel⟩ (ends_of (c := ':') (r := []) (by decide) word_colon)
        rw [← h9, h8, h10]
    rw [← this, or_iff_left e2]
    simp only [dGet]
    simp
  | spec =>
    refine ⟨?_, ?_, ?_⟩
    · constructor
      · intro h; simp [dGet] at h
      · rintro (⟨r, hr⟩ | ⟨r, hr⟩) <;> simp at hr
    · rintro ⟨r, hr⟩; simp at hr
    · rintro ⟨r, hr⟩; simp at hr
  | specAlias =>
    refine ⟨?_, ?_, ?_⟩
    · constructor
      · intro h; simp [dGet] at h
      · rintro (⟨r, hr⟩ | ⟨r, hr⟩) <;> simp at hr
    · rintro ⟨r, hr⟩; simp at hr
    · rintro ⟨r, hr⟩; simp at hr

/-- a private registry and a local module -/
example : Parser.parse ⟨false⟩ (some "module a 'br:reg.azurecr.io/x/y:v1' = {\n}\nmodule b './c.bicep' = {\n}\n") .none =
    .ok (.dict [("globals", .dict [("scope", .dict [("value", .str "resourceGroup")])]),
      ("modules", .dict [("a", .dict [("decorators", .list []), ("type", .str "bicep_registry"),
        ("detail", .dict [("full", .str "reg.azurecr.io/x/y:v1"), ("registry_name", .str "reg"),
          ("path", .str "x/y"), ("tag", .str "v1"), ("public", .bool false)]), ("config", .dict [])]),
        ("b", .dict [("decorators", .list []), ("type", .str "local"),
        ("detail", .dict [("full", .str "./c.bicep"), ("path", .str "./c.bicep")]), ("config", .dict [])])])]) :=
  eq_of_outIs (by decide +kernel)

/-- a registry without tag is refused -/
example : ∃ r e, Parser.parse ⟨false⟩ (some "module a 'br:reg.azurecr.io/x' = {\n}\n") .none = .error (.visitError r e) :=
  ⟨_, _, eq_of_errIs (e := .visitError "module_path" (.valueError "Bicep registry path is invalid: br:reg.azurecr.io/x")) (by decide +kernel)⟩

end Pycep
