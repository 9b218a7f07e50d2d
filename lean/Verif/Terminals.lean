import Verif.Regex
/-
The terminals of bicep.lark whose pattern is a regular expression (lines 175-184, 63, 95, 100), plus
the terminals imported from Lark's common.lark (bicep.lark:186-191).  The pattern that Lark
compiles each terminal to is quoted verbatim above its definition.
-/
namespace Pycep

/-- A terminal definition (`lark.lexer.TerminalDef`). -/
structure Terminal where
  name : String
  priority : Nat
  /-- `some s` for a string pattern (`PatternStr`), `none` for a regular expression. -/
  strVal : Option String
  re : Re

/-- An (anonymous or named) string literal. -/
def Terminal.ofStr (name s : String) : Terminal := ⟨name, 0, some s, Re.lit s.toList⟩
/-- A regular expression with a priority. -/
def Terminal.ofRe (name : String) (prio : Nat) (r : Re) : Terminal := ⟨name, prio, .none, r⟩

/-- A compiled BNF rule (`lark.grammar.Rule`) and what to do with the children
(`lark.parse_tree_builder.ParseTreeBuilder`). -/
structure Rule where
  /-- left-hand side (symbol number) -/
  lhs : Nat
  /-- right-hand side (symbol numbers; terminals are `< 128`) -/
  rhs : List Nat
  /-- name of the tree node: alias or rule name -/
  name : String
  /-- `?rule` without alias: a single child replaces the node -/
  expand1 : Bool
  /-- kept children: (position, inline its children?, number of `None`s inserted before) -/
  keep : List (Nat × Bool × Nat)
  /-- number of `None`s appended at the end -/
  tailNones : Nat
  deriving DecidableEq, Repr

namespace Terminals
open Re

/-- `((sys|az)\.)?[a-zA-Z0-9]+\(` (bicep.lark:100) -/
def FUNCTION : Re :=
  .seq (opt (.seq (.alt (lit ['s', 'y', 's']) (lit ['a', 'z'])) (chr '.')))
    (.seq (plus (.set isAsciiAlnum)) (chr '('))

/-- `(?=([Ll]ist[A-za-z]*|getSecret)\()([A-Za-z]+)` (bicep.lark:179).
`A-z` really is that range: it also contains `[`, `\`, `]`, `^`, `_` and the backquote. -/
def LIST_FUNC_NAME : Re :=
  .seq
    (.look (.seq
      (.alt
        (.seq (.set (fun c => c == 'L' || c == 'l')) (.seq (lit ['i', 's', 't'])
          (.star (.set (fun c => inRange 'A' 'z' c || inRange 'a' 'z' c)))))
        (lit ['g', 'e', 't', 'S', 'e', 'c', 'r', 'e', 't']))
      (chr '(')))
    (plus (.set isAsciiAlpha))

/-- `(?!(sys|az)\.)[a-zA-Z_]([\w_])*` (bicep.lark:175) -/
def STRING : Re :=
  .seq (.nlook (.seq (.alt (lit ['s', 'y', 's']) (lit ['a', 'z'])) (chr '.')))
    (.seq (.set (fun c => isAsciiAlpha c || c == '_')) (.star (.set isWord)))

/-- `'[a-zA-Z_]([\w_.])*'` (bicep.lark:176) -/
def QUOTED_STRING : Re :=
  .seq (chr '\'') (.seq (.set (fun c => isAsciiAlpha c || c == '_'))
    (.seq (.star (.set (fun c => isWord c || c == '.'))) (chr '\'')))

/-- one unit of the body of a quoted string: `\${(?:[^}'{]+|(?R))*+}|\\'|[^']` -/
def quotedUnit : Re :=
  .alt (.seq (chr '$') (.seq (chr '{') (.seq
        (.possStar (.alt (plus (.set (fun c => c != '}' && c != '\'' && c != '{'))) .recur))
        (chr '}'))))
    (.alt (.seq (chr '\\') (chr '\'')) (.set (· != '\'')))

/-- `(?!.*''')'(\${(?:[^}'{]+|(?R))*+}|\\'|[^'])*'` (bicep.lark:178) -/
def QUOTED_INTERPOLATION : Re :=
  .seq (.nlook (.seq (.star dot) (lit ['\'', '\'', '\''])))
    (.seq (chr '\'') (.seq (.star quotedUnit) (chr '\'')))

/-- `(?:(?:\r)?\n)+` (common.lark NEWLINE) -/
def NEWLINE : Re := plus (.seq (opt (chr '\r')) (chr '\n'))

/-- `'''(?:(?:(?:(?:\r)?\n)+|.*?))+'''` (bicep.lark:181) -/
def MULTI_LINE_STRING : Re :=
  .seq (lit ['\'', '\'', '\'']) (.seq (plus (.alt NEWLINE (.lazyStar dot))) (lit ['\'', '\'', '\'']))

/-- `(?:(?:\r)?\n)+` (bicep.lark:183) -/
def _NEWLINE : Re := NEWLINE

/-- `//[^\n]*` (common.lark CPP_COMMENT) -/
def CPP_COMMENT : Re := .seq (lit ['/', '/']) (.star (.set (· != '\n')))

/-- `(?://[^\n]*)?(?:(?:\r)?\n)+` (bicep.lark:184) -/
def _CPP_COMMENT_NL : Re := .seq (opt CPP_COMMENT) NEWLINE

/-- `/\*(.|\n)*?\*/` (common.lark C_COMMENT) -/
def C_COMMENT : Re :=
  .seq (lit ['/', '*']) (.seq (.lazyStar (.alt dot (chr '\n'))) (lit ['*', '/']))

/-- `#[^\n]*` (common.lark SH_COMMENT) -/
def SH_COMMENT : Re := .seq (chr '#') (.star (.set (· != '\n')))

/-- `(?:[0-9])+` (common.lark INT) -/
def INT : Re := plus (.set isAsciiDigit)

/-- `(?:(?:\t|\ ))+` (common.lark WS_INLINE) -/
def WS_INLINE : Re := plus (.alt (chr '\t') (chr ' '))

/-- `\*` in `import_alias` (bicep.lark:63) -/
def importStar : Re := chr '*'

/-- `(sys\.)?[a-zA-Z0-9]+` in `decorator` (bicep.lark:95) -/
def decoratorName : Re :=
  .seq (opt (lit ['s', 'y', 's', '.'])) (plus (.set isAsciiAlnum))

end Terminals
end Pycep
