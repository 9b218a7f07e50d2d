import Verif.Parser
/-
The exceptions of Lark for texts that cannot be parsed (lark/exceptions.py `UnexpectedCharacters`,
`UnexpectedToken`), which leave `parse` and `create_tree` unchanged (main.py:52): what they say
about the place of the error.  `LR.lean` only says that one of them is raised; the functions here
are the same ones, with the position counter of the lexer, and with the second attempt that the
contextual lexer makes before it gives up.  (`Proofs/SynErr.lean` proves that they agree.)
-/
namespace Pycep

/-- `LineCounter` (lark/lexer.py): `char_pos`, `line`, `column`, `line_start_pos`. -/
structure Ctr where
  pos : Nat
  line : Nat
  col : Nat
  lineStart : Nat
  deriving DecidableEq, Repr

/-- `LineCounter.__init__` -/
def Ctr.init : Ctr := ⟨0, 1, 1, 0⟩

/-- `token.rindex('\n')` -/
def lastNL (x : List Char) : Nat := x.length - 1 - x.reverse.idxOf '\n'

/-- `LineCounter.feed(token, test_newline)` -/
def Ctr.feed (c : Ctr) (x : List Char) (test : Bool) : Ctr :=
  let newlines := countNL x
  let line := if test && newlines != 0 then c.line + newlines else c.line
  let lineStart := if test && newlines != 0 then c.pos + lastNL x + 1 else c.lineStart
  let pos := c.pos + x.length
  ⟨pos, line, pos - lineStart + 1, lineStart⟩

/-- `BasicLexer.newline_types`: the terminals whose pattern mentions a line feed, `\s` or a negated
character class (`_regexp_has_newline`).  bicep.lark:178-184 and C_COMMENT, SH_COMMENT of
common.lark. -/
def newlineTypes : List Nat :=
  [T.QUOTED_INTERPOLATION, T.MULTI_LINE_STRING, T._NEWLINE, T._CPP_COMMENT_NL, T.C_COMMENT,
   T.SH_COMMENT]

/-- Result of asking the lexer for a token, with positions. -/
inductive LexAt where
  /-- `EOFError` -/
  | eof
  /-- `UnexpectedCharacters`: the remaining text and its position -/
  | fail (rest : List Char) (c : Ctr)
  /-- a token, its position, the remaining text and its position -/
  | tok (t : Tok) (c : Ctr) (rest : List Char) (c' : Ctr)

/-- `BasicLexer.next_token` (lark/lexer.py), as `nextTok`, with the position counter. -/
def nextTokAt (acc : List Nat) : Nat → List Char → Ctr → LexAt
  | _, [], _ => .eof
  | 0, s@(_ :: _), c => .fail s c
  | fuel + 1, s@(_ :: _), c =>
    let ids := scanIds acc
    match scanWith (scanRe ids) ids s with
    | .none => .fail s c
    | some (t, rest) =>
      if rest.length < s.length then
        let text := s.take (s.length - rest.length)
        let c' := c.feed text (newlineTypes.contains t)
        if ignoreIds.contains t then nextTokAt acc fuel rest c'
        else .tok ⟨retype acc t text, text, c.line, c'.line⟩ c rest c'
      else .fail s c

/-- What the exception says: the token (type and text) for `UnexpectedToken`, none for
`UnexpectedCharacters`; the attributes `pos_in_stream`, `line` and `column`. -/
structure SynErr where
  token : Option (Nat × List Char)
  pos : Nat
  line : Nat
  col : Nat
  deriving DecidableEq, Repr

/-- Outcome of a parser run: a tree, one of the two exceptions, or the `EOFError` that the second
attempt of the lexer would let through. -/
inductive RunRes where
  | ok (t : Tree)
  | err (e : SynErr)
  | eofError
  | stuck
  | fuel

/-- `ContextualLexer.lex` after `UnexpectedCharacters`: one more attempt at the same place with the
lexer that knows all terminals.  If it finds a token, `UnexpectedToken` is raised instead. -/
def secondTry (s : List Char) (c : Ctr) : RunRes :=
  match nextTokAt (List.range tEND) s.length s c with
  | .tok t c' _ _ => .err ⟨some (t.type, t.text), c'.pos, c'.line, c'.col⟩
  | .fail _ _ => .err ⟨.none, c.pos, c.line, c.col⟩
  | .eof => .eofError

/-- `_Parser.parse_from_state`, as `parseLoop`; `last` is the position of the last token, from which
`$END` borrows its own (`Token.new_borrow_pos`). -/
def runLoop : Nat → Stack → List Char → Ctr → Ctr → RunRes
  | 0, _, _, _, _ => .fuel
  | n + 1, stk, s, c, last =>
    match nextTokAt (accepts (topState stk)) s.length s c with
    | .fail s' c' => secondTry s' c'
    | .eof =>
      match feed (feedFuel stk) stk ⟨tEND, [], c.line, c.line⟩ with
      | .accept t => .ok t
      | .unexpected => .err ⟨some (tEND, []), last.pos, last.line, last.col⟩
      | .fuel => .fuel
      | _ => .stuck
    | .tok tk c' rest c'' =>
      match feed (feedFuel stk) stk tk with
      | .shifted stk' => runLoop n stk' rest c'' c'
      | .unexpected => .err ⟨some (tk.type, tk.text), c'.pos, c'.line, c'.col⟩
      | .fuel => .fuel
      | _ => .stuck

/-- `Lark.parse(text)`, with what its exceptions say (main.py:52). -/
def larkRun (text : String) : RunRes :=
  runLoop (text.toList.length + 1) [] text.toList .init .init

end Pycep
