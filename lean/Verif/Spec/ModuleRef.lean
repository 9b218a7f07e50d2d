import Verif.Spec.Sem
/-
The forms of module references and what is reported for them (transformer.py:19-27, 423-514), without
reference to matching. The character classes are those of the five patterns; letters, digits and
`_` include those of all scripts (`isWordRe`, `isDigitU`: the classes `\w` and `\d` of `re`).
-/
namespace Pycep

/-- a component: at least one character, all of them allowed -/
def Component (allowed : Char → Bool) (x : List Char) : Prop := x ≠ [] ∧ ∀ c ∈ x, allowed c = true

/-- what follows the last component does not continue it -/
def Ends (allowed : Char → Bool) (rest : List Char) : Prop := ∀ c ∈ rest.head?, allowed c = false

/-- characters of a component -/
def wordAnd (extra : String) (c : Char) : Bool := isWordRe c || extra.toList.contains c
/-- characters of a subscription -/
def digitDash (c : Char) : Bool := isDigitU c || c == '-'

/-- the text of a component -/
def comp (x : List Char) : Val := .str (String.ofList x)

/-- `x` begins with `pre` -/
def Begins (pre : String) (x : List Char) : Prop := ∃ rest, x = pre.toList ++ rest

/-- **The accepted module references**: reference, type, detail. -/
inductive ModuleRef : List Char → String → List (String × Val) → Prop where
  | file {b} : (∀ pre ∈ ["br:", "br/", "ts:", "ts/"], ¬ Begins pre b) →
      ModuleRef b "local" [("full", comp b), ("path", comp b)]
  | publicRegistry {b path tag rest} : Component (wordAnd "/-") path → Component (wordAnd ".-") tag → Ends (wordAnd ".-") rest →
      b = "mcr.microsoft.com/".toList ++ path ++ ":".toList ++ tag ++ rest →
      ModuleRef ("br:".toList ++ b) "bicep_registry" [("full", comp b),
        ("registry_name", .str "mcr.microsoft.com"), ("path", comp path), ("tag", comp tag), ("public", .bool true)]
  | privateRegistry {b reg path tag rest} : Component isWordRe reg → Component (wordAnd "/-.") path →
      Component (wordAnd ".-") tag → Ends (wordAnd ".-") rest →
      b = reg ++ ".azurecr.io/".toList ++ path ++ ":".toList ++ tag ++ rest →
      ModuleRef ("br:".toList ++ b) "bicep_registry" [("full", comp b),
        ("registry_name", comp reg), ("path", comp path), ("tag", comp tag), ("public", .bool false)]
  | registryAlias {b al path tag rest} : Component isWordRe al → Component (wordAnd "/-.") path →
      Component (wordAnd ".-") tag → Ends (wordAnd ".-") rest →
      b = al ++ ":".toList ++ path ++ ":".toList ++ tag ++ rest →
      ModuleRef ("br/".toList ++ b) "bicep_registry_alias" [("full", comp b), ("alias", comp al),
        ("path", comp path), ("tag", comp tag), ("public", .bool (al == "public".toList))]
  | spec {b sub rg name version rest} : Component digitDash sub → Component (wordAnd "._-()") rg →
      Component (wordAnd ".-") name → Component (wordAnd ".-") version → Ends (wordAnd ".-") rest →
      b = sub ++ "/".toList ++ rg ++ "/".toList ++ name ++ ":".toList ++ version ++ rest →
      ModuleRef ("ts:".toList ++ b) "template_spec" [("full", comp b), ("subscription_id", comp sub),
        ("resource_group_id", comp rg), ("name", comp name), ("version", comp version)]
  | specAlias {b al path tag rest} : Component isWordRe al → Component (wordAnd "/-") path →
      Component (wordAnd ".-") tag → Ends (wordAnd ".-") rest →
      b = al ++ ":".toList ++ path ++ ":".toList ++ tag ++ rest →
      ModuleRef ("ts/".toList ++ b) "template_spec_alias" [("full", comp b), ("alias", comp al),
        ("path", comp path), ("tag", comp tag)]

end Pycep
