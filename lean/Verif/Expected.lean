import Verif.SyntaxError
/-
What Lark's exceptions for syntax errors (lark/exceptions.py `UnexpectedToken`,
`UnexpectedCharacters`), which leave `parse` and `create_tree` unchanged (main.py:52), say about the
tokens that would have been acceptable.  The loop is the one of `LR.lean`; here it keeps the state of
the parser at the error, on which these sets depend.  (`Proofs/Expected.lean` proves that it fails
exactly when the parser does.)
-/
namespace Pycep

/-- The stack at which `ParserState.feed_token` (lark/parsers/lalr_parser_state.py) stops: the parser
state is changed in place, so the reductions made for a token that is then refused stay. -/
def feedStop : Nat → Stack → Tok → Stack
  | 0, stk, _ => stk
  | n + 1, stk, tk =>
    match action (topState stk) tk.type with
    | .error => stk
    | .shift _ => stk
    | .reduce r =>
      match rules[r]? with
      | .none => stk
      | some rule =>
        let size := rule.rhs.length
        if stk.length < size then stk else
        let kids := (stk.take size).reverse.map Prod.snd
        let below := stk.drop size
        match goto (topState below) rule.lhs with
        | .none => stk
        | some s =>
          let value := buildNode rule kids
          if tk.type = tEND ∧ s = endState then stk
          else feedStop n ((s, value) :: below) tk

/-- `InteractiveParser.accepts()` (lark/parsers/lalr_interactive_parser.py), the attribute `accepts` of
`UnexpectedToken`: the terminals with an entry in the current state for which feeding a token without
text does not raise `UnexpectedToken`. -/
def acceptsAt (stk : Stack) : List Nat :=
  (List.range numTerms).filter fun t =>
    action (topState stk) t != .error &&
    match feed (feedFuel stk) stk ⟨t, [], 0, 0⟩ with
    | .unexpected => false
    | _ => true

/-- The terminals with an entry in the current state: the `expected` of an `UnexpectedToken` raised by
`ParserState.feed_token`. -/
def expectedAt (st : Nat) : List Nat := (List.range numTerms).filter fun t => action st t != .error

/-- `BasicLexer.next_token` (lark/lexer.py): the terminals of the scanner that are not ignored; the
`allowed` of `UnexpectedCharacters`, and the `expected` of the `UnexpectedToken` that
`ContextualLexer.lex` may raise in its place.  (For an empty set Lark shows `<END-OF-FILE>`.) -/
def allowedAt (st : Nat) : List Nat := (scanIds (accepts st)).filter fun t => !ignoreIds.contains t

/-- What an exception says about acceptable tokens. -/
structure Choices where
  /-- the tokens read before (all of them; Lark's `token_history` holds the last one) -/
  read : List Tok
  /-- raised while looking for a token (`ContextualLexer.lex`), not while feeding one -/
  byLexer : Bool
  /-- `allowed` of `UnexpectedCharacters`, `expected` of `UnexpectedToken` -/
  expected : List Nat
  /-- `accepts` of `UnexpectedToken`; `interactive_parser.accepts()` of both -/
  accepts : List Nat

/-- `_Parser.parse_from_state`, as `parseLoop`: the exception, if there is one; `w` are the tokens read. -/
def choicesLoop : Nat → Stack → List Tok → List Char → Nat → Option Choices
  | 0, _, _, _, _ => .none
  | n + 1, stk, w, s, line =>
    match nextTok (accepts (topState stk)) s.length s line with
    | .fail => some ⟨w, true, allowedAt (topState stk), acceptsAt stk⟩
    | .eof =>
      match feed (feedFuel stk) stk ⟨tEND, [], line, line⟩ with
      | .unexpected =>
        let stk' := feedStop (feedFuel stk) stk ⟨tEND, [], line, line⟩
        some ⟨w, false, expectedAt (topState stk'), acceptsAt stk'⟩
      | _ => .none
    | .tok tk rest =>
      match feed (feedFuel stk) stk tk with
      | .shifted stk' => choicesLoop n stk' (w ++ [tk]) rest tk.endLine
      | .unexpected =>
        let stk' := feedStop (feedFuel stk) stk tk
        some ⟨w, false, expectedAt (topState stk'), acceptsAt stk'⟩
      | _ => .none

/-- What the exception of `Lark.parse(text)` says about acceptable tokens (main.py:52). -/
def larkChoices (text : String) : Option Choices :=
  choicesLoop (text.toList.length + 1) [] [] text.toList 1

end Pycep
