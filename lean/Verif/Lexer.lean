import Verif.Tree
/-
Lark's contextual lexer (lexer.py: BasicLexer, ContextualLexer, Scanner, UnlessCallback) for the
terminals of bicep.lark.
-/
namespace Pycep

/-- The terminal with a given id. -/
def term? (t : Nat) : Option Terminal := terminals[t]?

/-- Terminals the lexer of parser state `s` knows: those with an action in `s`, and the ignored
ones (ContextualLexer.__init__), in scanning order. -/
def accepts (s : Nat) : List Nat :=
  (List.range tEND).filter (fun t => action s t != .error || ignoreIds.contains t)

/-- `(r, k)`: the string terminal `k` is matched entirely by the regular expression terminal `r` of
the same priority (`_create_unless`), as a test on definitions. -/
def unlessPair (r k : Terminal) : Bool :=
  match r.strVal, k.strVal with
  | .none, some s => r.priority == k.priority && Re.matchIn r.re r.re s.toList == some []
  | _, _ => false

/-- All `(r, k)` of `unlessPair`, by id: the word-like keywords are matched by STRING and by the
decorator name pattern, `"*"` by the `/\*/` of `import_alias`.  (`Proofs/Unless.lean` proves that
this is exactly what `unlessPair` computes.) -/
def unlessIds (r : Nat) : List Nat :=
  if r = T.STRING then
    [T.TARGETSCOPE, T.EXTENSION, T.EXISTING, T.METADATA, T.RESOURCE, T.IMPORT, T.MODULE, T.OUTPUT,
     T.FALSE, T.ITEMS, T.PARAM, T.FROM, T.FUNC, T.NULL, T.TRUE, T.TYPE, T.WITH, T.FOR, T.VAR, T.AS,
     T.IF, T.IN]
  else if r = T.__ANON_2 then
    [T.TARGETSCOPE, T.EXTENSION, T.EXISTING, T.METADATA, T.RESOURCE, T.IMPORT, T.MODULE, T.OUTPUT,
     T.FALSE, T.ITEMS, T.PARAM, T.FROM, T.FUNC, T.NULL, T.TRUE, T.TYPE, T.WITH, T.FOR, T.VAR, T.AS,
     T.IF, T.IN]
  else if r = T.__ANON_1 then [T.STAR]
  else []

/-- String terminals that are not scanned for themselves because some accepted regular expression
already matches their text (`embedded_strs` of `_create_unless`). -/
def embedded (acc : List Nat) (k : Nat) : Bool := acc.any (fun r => (unlessIds r).contains k)

/-- Terminals of the scanner of state `s`. -/
def scanIds (acc : List Nat) : List Nat := acc.filter (fun t => !embedded acc t)

/-- The regular expression of a terminal id. -/
def termRe (t : Nat) : Re :=
  match term? t with
  | some d => d.re
  | .none => .nlook .eps

/-- The alternation `(?P<A>...)|(?P<B>...)|...` compiled by `Scanner`; this is what `(?R)` in
QUOTED_INTERPOLATION refers to. -/
def scanRe (ids : List Nat) : Re := ids.foldr (fun t r => .alt (termRe t) r) (.nlook .eps)

/-- Try the terminals in order; the first one that matches wins. -/
def scanWith (top : Re) : List Nat → List Char → Option (Nat × List Char)
  | [], _ => .none
  | t :: ts, s => match Re.matchIn top (termRe t) s with
    | some rest => some (t, rest)
    | .none => scanWith top ts s

/-- `UnlessCallback`: a keyword matched by a more general terminal gets the keyword's type, if
that keyword is accepted in the state. -/
def retype (acc : List Nat) (t : Nat) (text : List Char) : Nat :=
  match (acc.filter (fun k => (unlessIds t).contains k)).find?
      (fun k => match term? k with
        | some d => d.strVal == some (String.ofList text)
        | .none => false) with
  | some k => k
  | .none => t

/-- Number of line feeds in a text (`LineCounter.feed`). -/
def countNL (s : List Char) : Nat := s.count '\n'

/-- Result of asking the lexer for a token. -/
inductive LexRes where
  | eof
  | fail
  | tok (t : Tok) (rest : List Char)
  deriving Repr

/-- `BasicLexer.next_token` in parser state `s`: skip ignored terminals, return the next token.
`line` is the current line (1-based).  The fuel bounds the number of scans; the length of the text
is enough because no terminal matches the empty text. -/
def nextTok (acc : List Nat) : Nat → List Char → Nat → LexRes
  | _, [], _ => .eof
  | 0, _ :: _, _ => .fail
  | fuel + 1, s@(_ :: _), line =>
    let ids := scanIds acc
    match scanWith (scanRe ids) ids s with
    | .none => .fail
    | some (t, rest) =>
      if rest.length < s.length then
        let text := s.take (s.length - rest.length)
        let line' := line + countNL text
        if ignoreIds.contains t then nextTok acc fuel rest line'
        else .tok ⟨retype acc t text, text, line, line'⟩ rest
      else .fail

end Pycep
