import Verif.Regex
/-
`module_path` (transformer.py:19-27, 423-514): the classification of module references.
-/
namespace Pycep

/-- `\w` of the `re` module. -/
def isWordRe (c : Char) : Bool :=
  if c.toNat < 0x80 then isAsciiAlnum c || c == '_' else uniWordRe c

/-- Parts of the five patterns: literal text, or a named group `(?P<name>[class]+)`. -/
inductive Piece where
  | lit (s : String)
  | grp (name : String) (p : Char → Bool)

/-- Try `k` on the splits of `s` after `n`, `n-1`, ..., `1` characters; answer the first success
together with the length used (greedy `+` with backtracking). -/
def tryLens {α} (k : List Char → Option α) (s : List Char) : Nat → Option (Nat × α)
  | 0 => .none
  | n + 1 => match k (s.drop (n + 1)) with
    | some r => some (n + 1, r)
    | .none => tryLens k s n

/-- `re.match(pattern, s)`: the groups of the first match at the start of `s` (the match does not
have to reach the end of `s`). -/
def matchPieces : List Piece → List Char → Option (List (String × String))
  | [], _ => some []
  | .lit l :: ps, s =>
    if l.toList.isPrefixOf s then matchPieces ps (s.drop l.toList.length) else .none
  | .grp name p :: ps, s =>
    match tryLens (matchPieces ps) s (s.takeWhile p).length with
    | some (n, gs) => some ((name, String.ofList (s.take n)) :: gs)
    | .none => .none

/-- `[\w/\-.]` -/
def cWordSlashDashDot (c : Char) : Bool := isWordRe c || c == '/' || c == '-' || c == '.'
/-- `[\w/\-]` -/
def cWordSlashDash (c : Char) : Bool := isWordRe c || c == '/' || c == '-'
/-- `[\w.\-]` -/
def cWordDotDash (c : Char) : Bool := isWordRe c || c == '.' || c == '-'
/-- `[\d\-]` -/
def cDigitDash (c : Char) : Bool := isDigitU c || c == '-'
/-- `[\w._\-()]` -/
def cRgId (c : Char) : Bool :=
  isWordRe c || c == '.' || c == '_' || c == '-' || c == '(' || c == ')'

/-- `BICEP_REGISTRY_ALIAS_PATTERN` (transformer.py:19) -/
def brAliasPat : List Piece :=
  [.lit "br/", .grp "alias" isWordRe, .lit ":", .grp "path" cWordSlashDashDot, .lit ":",
   .grp "tag" cWordDotDash]
/-- `PUBLIC_BICEP_REGISTRY_PATTERN` (transformer.py:20) -/
def brPublicPat : List Piece :=
  [.lit "br:mcr.microsoft.com/", .grp "path" cWordSlashDash, .lit ":", .grp "tag" cWordDotDash]
/-- `PRIVATE_BICEP_REGISTRY_PATTERN` (transformer.py:21-23) -/
def brPrivatePat : List Piece :=
  [.lit "br:", .grp "registry_name" isWordRe, .lit ".azurecr.io/", .grp "path" cWordSlashDashDot,
   .lit ":", .grp "tag" cWordDotDash]
/-- `TEMPLATE_SPEC_ALIAS_PATTERN` (transformer.py:24) -/
def tsAliasPat : List Piece :=
  [.lit "ts/", .grp "alias" isWordRe, .lit ":", .grp "path" cWordSlashDash, .lit ":",
   .grp "tag" cWordDotDash]
/-- `TEMPLATE_SPEC_PATTERN` (transformer.py:25-27) -/
def tsPat : List Piece :=
  [.lit "ts:", .grp "sub_id" cDigitDash, .lit "/", .grp "rg_id" cRgId, .lit "/",
   .grp "name" cWordDotDash, .lit ":", .grp "version" cWordDotDash]

/-- `m.group(name)`. -/
def group (name : String) (gs : List (String × String)) : Val :=
  .str ((gs.lookup name).getD "")

/-- The body of `module_path` after `file_path = str(args[0])[1:-1]` (transformer.py:426-514). -/
def classifyModulePath (fp : String) : Except PyErr Val :=
  if startsWith "br:" fp then
    match matchPieces brPublicPat fp.toList with
    | some m => .ok (.dict [("type", .str "bicep_registry"), ("detail", .dict [
        ("full", .str (sliceFrom 3 fp)), ("registry_name", .str "mcr.microsoft.com"),
        ("path", group "path" m), ("tag", group "tag" m), ("public", .bool true)])])
    | .none => match matchPieces brPrivatePat fp.toList with
      | some m => .ok (.dict [("type", .str "bicep_registry"), ("detail", .dict [
          ("full", .str (sliceFrom 3 fp)), ("registry_name", group "registry_name" m),
          ("path", group "path" m), ("tag", group "tag" m), ("public", .bool false)])])
      | .none => .error (.valueError ("Bicep registry path is invalid: " ++ fp))
  else if startsWith "br/" fp then
    match matchPieces brAliasPat fp.toList with
    | .none => .error (.valueError ("Bicep registry alias is invalid: " ++ fp))
    | some m => .ok (.dict [("type", .str "bicep_registry_alias"), ("detail", .dict [
        ("full", .str (sliceFrom 3 fp)), ("alias", group "alias" m),
        ("path", group "path" m), ("tag", group "tag" m),
        ("public", .bool ((group "alias" m).eqStr "public"))])])
  else if startsWith "ts:" fp then
    match matchPieces tsPat fp.toList with
    | .none => .error (.valueError ("Template spec path is invalid: " ++ fp))
    | some m => .ok (.dict [("type", .str "template_spec"), ("detail", .dict [
        ("full", .str (sliceFrom 3 fp)), ("subscription_id", group "sub_id" m),
        ("resource_group_id", group "rg_id" m), ("name", group "name" m),
        ("version", group "version" m)])])
  else if startsWith "ts/" fp then
    match matchPieces tsAliasPat fp.toList with
    | .none => .error (.valueError ("Template spec alias is invalid: " ++ fp))
    | some m => .ok (.dict [("type", .str "template_spec_alias"), ("detail", .dict [
        ("full", .str (sliceFrom 3 fp)), ("alias", group "alias" m),
        ("path", group "path" m), ("tag", group "tag" m)])])
  else
    .ok (.dict [("type", .str "local"), ("detail", .dict [
      ("full", .str fp), ("path", .str fp)])])

end Pycep
