import Verif.Lexer
/-
Specification of how a text is cut into tokens, independent of the scanner: which texts a token of
each kind may have, what may be skipped, and that nothing else happens.
-/
namespace Pycep

/-- A name followed by `(`: `sys.`/`az.` optional. -/
def IsFunctionText (x : List Char) : Prop :=
  ∃ p n, x = p ++ n ++ ['('] ∧ (p = [] ∨ p = "sys.".toList ∨ p = "az.".toList) ∧
    n ≠ [] ∧ ∀ c ∈ n, isAsciiAlnum c = true

/-- An identifier: a letter or underscore followed by word characters. -/
def IsIdentText (x : List Char) : Prop :=
  ∃ c cs, x = c :: cs ∧ (isAsciiAlpha c = true ∨ c = '_') ∧ ∀ d ∈ cs, isWord d = true

/-- The name of a decorator: alphanumeric, optionally prefixed by `sys.`. -/
def IsDecoratorText (x : List Char) : Prop :=
  ∃ p n, x = p ++ n ∧ (p = [] ∨ p = "sys.".toList) ∧ n ≠ [] ∧ ∀ c ∈ n, isAsciiAlnum c = true

/-- One or more line ends (`\n` or `\r\n`). -/
inductive IsNewlines : List Char → Prop where
  | lf : IsNewlines ['\n']
  | crlf : IsNewlines ['\r', '\n']
  | consLf {x} : IsNewlines x → IsNewlines ('\n' :: x)
  | consCrlf {x} : IsNewlines x → IsNewlines ('\r' :: '\n' :: x)

/-- Line ends, optionally after a `//` comment. -/
def IsCommentNewlines (x : List Char) : Prop :=
  IsNewlines x ∨ ∃ c n, x = '/' :: '/' :: c ++ n ∧ (∀ d ∈ c, d ≠ '\n') ∧ IsNewlines n

/-- The texts a token of type `t` may have. -/
def TokText (t : Nat) (x : List Char) : Prop :=
  match t with
  | T.LIST_FUNC_NAME => x ≠ [] ∧ ∀ c ∈ x, isAsciiAlpha c = true
  | T.FUNCTION => IsFunctionText x
  | T.QUOTED_INTERPOLATION => ∃ b, x = '\'' :: b ++ ['\'']
  | T.MULTI_LINE_STRING => ∃ b, x = '\'' :: '\'' :: '\'' :: b ++ ['\'', '\'', '\'']
  | T.STRING => IsIdentText x
  | T._CPP_COMMENT_NL => IsCommentNewlines x
  | T.QUOTED_STRING => ∃ b, x = '\'' :: b ++ ['\''] ∧ ∀ c ∈ b, isWord c = true ∨ c = '.'
  | T.__ANON_2 => IsDecoratorText x
  | T._NEWLINE => IsNewlines x
  | T.INT => x ≠ [] ∧ ∀ c ∈ x, isAsciiDigit c = true
  | T.__ANON_1 => x = ['*']
  | t => ∃ d s, term? t = some d ∧ d.strVal = some s ∧ x = s.toList

/-- What the lexer skips: blanks and tabs, `# ...` to the end of the line, `/* ... */`. -/
inductive Trivia : List Char → Prop where
  | ws {x} : x ≠ [] → (∀ c ∈ x, c = ' ' ∨ c = '\t') → Trivia x
  | sh {x} : (∀ c ∈ x, c ≠ '\n') → Trivia ('#' :: x)
  | c (x) : Trivia ('/' :: '*' :: x ++ ['*', '/'])

/-- `Tiling l x w`: the text `x`, whose first character is on line `l`, is the concatenation of the
token texts of `w` with trivia in between; every token carries the line of its first character and
the line reached after its last one. -/
inductive Tiling : Nat → List Char → List Tok → Prop where
  | nil {l} : Tiling l [] []
  | skip {l x s w} : Trivia x → Tiling (l + countNL x) s w → Tiling l (x ++ s) w
  | tok {l x s w t} : TokText t x → t < tEND → Tiling (l + countNL x) s w →
      Tiling l (x ++ s) (⟨t, x, l, l + countNL x⟩ :: w)

end Pycep
