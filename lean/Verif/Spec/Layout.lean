import Verif.Spec.Text
/-
Which texts are written clearly enough to be cut into a given sequence of tokens: a specification
of layout that does not mention parser states or regular expressions.  Every rule speaks about one
token, the type `p` of the token before it, and the text that follows it.
`Proofs/LexComplete.lean` proves that the lexer finds the tokens of every such text.
-/
namespace Pycep

/-- a text whose first character is not in `p` (or that is empty) -/
def Stops (p : Char → Bool) (s : List Char) : Prop := ∀ c cs, s = c :: cs → p c = false

/-! ### Words -/

/-- The keywords of the language, with their token types. -/
def keywordIds : List Nat :=
  [T.TARGETSCOPE, T.EXTENSION, T.EXISTING, T.METADATA, T.RESOURCE, T.IMPORT, T.MODULE, T.OUTPUT,
   T.FALSE, T.ITEMS, T.PARAM, T.FROM, T.FUNC, T.NULL, T.TRUE, T.TYPE, T.WITH, T.FOR, T.VAR, T.AS,
   T.IF, T.IN]

/-- the text of a token type that has only one text -/
def fixedChars (t : Nat) : List Char :=
  match term? t with
  | some d => (d.strVal.getD "").toList
  | .none => []

/-- tokens a value may end with -/
def valueEnds : List Nat :=
  [T.BANG, T.FALSE, T.INT, T.MULTI_LINE_STRING, T.NULL, T.QUOTED_INTERPOLATION, T.RBRACE, T.RPAR,
   T.RSQB, T.STRING, T.TRUE]

/-- keywords that begin a declaration -/
def declKeywords : List Nat :=
  [T.EXTENSION, T.FUNC, T.IMPORT, T.METADATA, T.MODULE, T.OUTPUT, T.PARAM, T.TARGETSCOPE, T.TYPE,
   T.VAR]

/-- tokens behind which only a name can stand -/
def nameAfter : List Nat :=
  [T.AS, T.EXTENSION, T.FOR, T.FUNC, T.IMPORT, T.LBRACE, T.METADATA, T.MODULE, T.OUTPUT, T.PARAM,
   T.RESOURCE, T.TYPE, T.VAR]

/-- Keyword `k` cannot be used as an identifier behind a token of type `p`. -/
def reserved (p k : Nat) : Bool :=
  ([T.NULL, T.TRUE, T.FALSE].contains k && !nameAfter.contains p) ||
  (k == T.RESOURCE && (valueEnds ++ [T.COMMA, T.LBRACE, T.QMARK, T._CPP_COMMENT_NL]).contains p) ||
  (k == T.FOR && [T.LSQB, T._CPP_COMMENT_NL].contains p) ||
  (k == T.ITEMS && p == T.IN) ||
  (k == T.AS && p == T.RBRACE) ||
  (declKeywords.contains k && valueEnds.contains p)

/-- a text that starts like a call of a list function or of `getSecret` -/
def ListCall (s : List Char) : Prop :=
  ("getSecret(".toList <+: s) ∨
  ∃ c n r, s = c :: 'i' :: 's' :: 't' :: n ++ '(' :: r ∧ (c = 'l' ∨ c = 'L') ∧
    ∀ d ∈ n, inRange 'A' 'z' d = true

/-! ### Punctuation -/

/-- token types of one character -/
def opIds1 : List Nat :=
  [T.AT, T.BANG, T.COLON, T.COMMA, T.DOT, T.EQUAL, T.LBRACE, T.LESSTHAN, T.LPAR, T.LSQB, T.MINUS,
   T.MORETHAN, T.PERCENT, T.PLUS, T.QMARK, T.RBRACE, T.RPAR, T.RSQB, T.SLASH, T.STAR, T.VBAR]

/-- token types of two characters -/
def opIds2 : List Nat :=
  [T.__ANON_0, T.__ANON_10, T.__ANON_11, T.__ANON_12, T.__ANON_3, T.__ANON_4, T.__ANON_5,
   T.__ANON_6, T.__ANON_7, T.__ANON_8, T.__ANON_9]

/-- two-character texts with a meaning of their own -/
def pairs : List (List Char) := ["//".toList, "/*".toList] ++ opIds2.map fixedChars

/-! ### Line ends -/

/-- the text does not go on with a line end -/
def NoBreak (s : List Char) : Prop := ¬ ['\n'] <+: s ∧ ¬ ['\r', '\n'] <+: s

/-- tokens behind which a line end is insignificant and no `//` comment is possible -/
def openEnds : List Nat :=
  [T.COLON, T.DOT, T.EQUAL, T.IN, T.LESSTHAN, T.MINUS, T.MORETHAN, T.PERCENT, T.PLUS, T.SLASH,
   T.STAR, T.VBAR] ++ opIds2

/-! ### Strings -/

/-- The rest of the line contains no `'''`. -/
def NoTriple (s : List Char) : Prop :=
  ¬ ['\'', '\'', '\''] <:+: s.takeWhile (· != '\n')

mutual
/-- Inside of a quoted string; the flag says whether strings inside of interpolations are allowed. -/
inductive QBody : Bool → List Char → Prop where
  | nil {b} : QBody b []
  | chr {b c x} : c ≠ '\'' → c ≠ '$' → c ≠ '\\' → c ≠ '\n' → QBody b x → QBody b (c :: x)
  | dollar {b x} : x.head? ≠ some '{' → QBody b x → QBody b ('$' :: x)
  | back {b c x} : c ≠ '\'' → QBody b (c :: x) → QBody b ('\\' :: c :: x)
  | esc {b x} : QBody b x → QBody b ('\\' :: '\'' :: x)
  | hole {b h x} : QHole b h → QBody b x → QBody b ('$' :: '{' :: h ++ '}' :: x)
/-- Inside of an interpolation `${...}`. -/
inductive QHole : Bool → List Char → Prop where
  | nil {b} : QHole b []
  | chr {b c x} : c ≠ '\'' → c ≠ '{' → c ≠ '}' → c ≠ '\n' → QHole b x → QHole b (c :: x)
  | str {x h} : QBody true x → QHole true h → QHole true ('\'' :: x ++ '\'' :: h)
end

/-- tokens behind which a quoted string may contain strings inside of interpolations -/
def nestAfter : List Nat :=
  [T.COLON, T.COMMA, T.DOT, T.EQUAL, T.FROM, T.FUNCTION, T.IMPORT, T.IN, T.LESSTHAN, T.LPAR,
   T.LSQB, T.MINUS, T.MORETHAN, T.PERCENT, T.PLUS, T.SLASH, T.STAR, T.VBAR, T._NEWLINE] ++ opIds2

/-! ### Tokens -/

/-- `Fits p t x s`: behind a token of type `p` and in front of the text `s`, the text `x` is clearly
a token of type `t`. -/
inductive Fits (p : Nat) : Nat → List Char → List Char → Prop where
  | ident {x s} : IsIdentText x → Stops isWord s → s.head? ≠ some '(' →
      (x = "sys".toList ∨ x = "az".toList → s.head? ≠ some '.') →
      (∀ k ∈ keywordIds, x = fixedChars k → reserved p k = false) →
      (p = T.DOT → ¬ ListCall (x ++ s)) →
      Fits p T.STRING x s
  | keyword {k s} : k ∈ keywordIds → Stops isWord s →
      (s.head? = some '(' → k ∈ [T.EXISTING, T.FROM, T.IF, T.IN, T.WITH]) →
      Fits p k (fixedChars k) s
  | op1 {t s} : t ∈ opIds1 → (∀ y ∈ pairs, ¬ y <+: fixedChars t ++ s) → Fits p t (fixedChars t) s
  | op2 {t s} : t ∈ opIds2 → Fits p t (fixedChars t) s
  | importAll {s} : Fits p T.__ANON_1 ['*'] s
  | function {x s} : IsFunctionText x → (p = T.DOT → ¬ ListCall (x ++ s)) → Fits p T.FUNCTION x s
  | listFunction {x s} : ListCall (x ++ s) → x ≠ [] → (∀ c ∈ x, isAsciiAlpha c = true) →
      Stops isAsciiAlpha s → Fits p T.LIST_FUNC_NAME x s
  | int {x s} : x ≠ [] → (∀ c ∈ x, isAsciiDigit c = true) → Stops isAsciiAlnum s →
      s.head? ≠ some '(' → Fits p T.INT x s
  | decorator {x s} : IsDecoratorText x → Stops isAsciiAlnum s → s.head? ≠ some '.' →
      Fits p T.__ANON_2 x s
  | lineEnd {x s} : IsCommentNewlines x → NoBreak s → Fits p T._CPP_COMMENT_NL x s
  | lineBreak {x s} : p ∈ openEnds → IsNewlines x → NoBreak s → Fits p T._NEWLINE x s
  | quoted {b x s} : QBody b x → (b = true → p ∈ nestAfter) → NoTriple ('\'' :: x ++ '\'' :: s) →
      Fits p T.QUOTED_INTERPOLATION ('\'' :: x ++ ['\'']) s
  | multiLine {x s} : ¬ ['\'', '\'', '\''] <:+: x ++ ['\'', '\''] →
      Fits p T.MULTI_LINE_STRING ('\'' :: '\'' :: '\'' :: x ++ ['\'', '\'', '\'']) s

/-- What may stand between tokens, in front of the text `s`. -/
inductive Gap : List Char → List Char → Prop where
  | blank {s} : Gap [' '] s
  | tab {s} : Gap ['\t'] s
  | hash {x s} : (∀ c ∈ x, c ≠ '\n') → (s = [] ∨ s.head? = some '\n') → Gap ('#' :: x) s
  | comment {x s} : ¬ ['*', '/'] <:+: x ++ ['*'] → Gap ('/' :: '*' :: x ++ ['*', '/']) s

/-- `Layout p s l w`: the text `s`, whose first character is on line `l` and which follows a token
of type `p` (`$END` at the start), is clearly a text with the tokens `w`. -/
inductive Layout : Nat → List Char → Nat → List Tok → Prop where
  | nil {p l} : Layout p [] l []
  | gap {p x s l w} : Gap x s → Layout p s (l + countNL x) w → Layout p (x ++ s) l w
  | tok {p t x s l w} : Fits p t x s → Layout t s (l + countNL x) w →
      Layout p (x ++ s) l (⟨t, x, l, l + countNL x⟩ :: w)

/-! ### The same tokens in another layout -/

/-- the token types of line breaks -/
def isBreak (t : Nat) : Bool := t == T._CPP_COMMENT_NL || t == T._NEWLINE

/-- the same token, up to its place in the text; line breaks may be written differently -/
def SameTok (u v : Tok) : Prop := u.type = v.type ∧ (isBreak u.type = false → u.text = v.text)

end Pycep
