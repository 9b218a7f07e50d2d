import Verif.LR
import Verif.Transformer
/-
Model of `BicepParser` (main.py:20-52) and `BicepValidator` (validator.py:1-8).
-/
namespace Pycep

/-- `BicepValidator.is_valid` (validator.py:1-8): `text.count("'''") % 2 == 0`. -/
def isValid (text : String) : Bool :=
  countSub ['\'', '\'', '\''] text.toList.length text.toList % 2 == 0

/-- A `pathlib.Path` argument: what `str(path)` gives and what `read_text()` does (the text, or an
exception such as FileNotFoundError / UnicodeDecodeError, kept abstract).
`Path` has no `__bool__`, so a path is always truthy. -/
structure PathArg where
  name : String
  content : Except Unit String

/-- Exceptions leaving the public methods. -/
inductive ApiErr where
  /-- TypeError(msg), main.py:37, 44 -/
  | typeError (msg : String)
  /-- ValueError(msg), main.py:48, 50 -/
  | valueError (msg : String)
  /-- whatever `file_path.read_text()` raises, main.py:42 -/
  | io
  /-- lark.UnexpectedInput (UnexpectedCharacters, UnexpectedToken), main.py:52 -/
  | unexpectedInput
  /-- lark.VisitError, main.py:29 -/
  | visitError (rule : String) (e : PyErr)
  /-- anything that does not exist in reality: internal errors of the LALR driver, missing
  methods, exhausted fuel (proved unreachable) -/
  | internal
  deriving DecidableEq, Repr

/-- `_create_tree` (main.py:35-52). -/
def createTree' (text : Option String) (filePath : Option PathArg) : Except ApiErr Tree :=
  let textSet := match text with
    | some t => t != ""
    | .none => false
  if textSet && filePath.isSome then
    .error (.typeError "Either 'text' or 'file_path' can be set")
  else do
    let bicepText ← match textSet, text, filePath with
      | true, some t, _ => .ok t
      | _, _, some p => match p.content with
        | .ok t => .ok t
        | .error _ => .error .io
      | _, _, .none => .error (.typeError "Either 'text' or 'file_path' has to be set")
    if !isValid bicepText then
      match filePath with
      | some p => .error (.valueError (p.name ++ " file content is invalid"))
      | .none => .error (.valueError "Text is invalid")
    else
      match larkParse bicepText with
      | .ok t => .ok t
      | .unexpectedInput => .error .unexpectedInput
      | .stuck => .error .internal
      | .fuel => .error .internal

/-- A `BicepParser` instance: `add_line_numbers` and the Lark object (immutable, so it carries no
state; the `cache` argument only decides where the grammar tables are loaded from). main.py:23-25 -/
structure Parser where
  addLineNumbers : Bool

/-- `BicepParser.parse` (main.py:27-29). -/
def Parser.parse (p : Parser) (text : Option String) (filePath : Option PathArg) :
    Except ApiErr Val := do
  let tree ← createTree' text filePath
  match bicepToJson p.addLineNumbers tree with
  | .ok v => .ok v
  | .error (.visit r e) => .error (.visitError r e)
  | .error (.noCallback _) => .error .internal

mutual
/-- `Tree._pretty` (lark/tree.py): one line per node, children indented. -/
def Tree.prettyAux (level : Nat) : Tree → String
  | .tok t => (String.join (List.replicate level "  ")) ++ String.ofList t.text ++ "\n"
  | .none => (String.join (List.replicate level "  ")) ++ "None\n"
  | .node d [] _ => (String.join (List.replicate level "  ")) ++ d ++ "\n"
  | .node d [.tok t] _ =>
    (String.join (List.replicate level "  ")) ++ d ++ "\t" ++ String.ofList t.text ++ "\n"
  | .node d [.none] _ => (String.join (List.replicate level "  ")) ++ d ++ "\tNone\n"
  | .node d kids _ =>
    (String.join (List.replicate level "  ")) ++ d ++ "\n" ++ Tree.prettyKids (level + 1) kids
/-- `Tree._pretty` of the children. -/
def Tree.prettyKids (level : Nat) : List Tree → String
  | [] => ""
  | t :: ts => t.prettyAux level ++ Tree.prettyKids level ts
end

/-- `BicepParser.create_tree` (main.py:31-33). -/
def Parser.createTree (_ : Parser) (text : Option String) (filePath : Option PathArg) :
    Except ApiErr String :=
  (createTree' text filePath).map (·.prettyAux 0)

end Pycep
