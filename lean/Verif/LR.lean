import Verif.Lexer
/-
Lark's LALR parser driver (parsers/lalr_parser.py, lalr_parser_state.py) coupled with the
contextual lexer: every token is scanned in the state the parser is in when it asks for it.
-/
namespace Pycep

/-- State stack and value stack of the parser, as one list of pairs, top first.
The bottom state 0 has no value and is left implicit. -/
abbrev Stack := List (Nat × Tree)

/-- Current parser state. -/
def topState : Stack → Nat
  | [] => 0
  | (s, _) :: _ => s

/-- Outcome of feeding one token. -/
inductive FeedRes where
  /-- the token was shifted -/
  | shifted (stk : Stack)
  /-- the end state was reached on `$END`: the finished tree -/
  | accept (t : Tree)
  /-- `UnexpectedToken` -/
  | unexpected
  /-- `KeyError`/`IndexError` inside the driver: a rule number, a goto or a stack entry missing -/
  | stuck
  /-- out of fuel -/
  | fuel
  deriving Repr

/-- `ParserState.feed_token(token, is_end)`: reduce as long as the table says so, then shift.
The fuel bounds the number of reductions. -/
def feed : Nat → Stack → Tok → FeedRes
  | 0, _, _ => .fuel
  | n + 1, stk, tk =>
    match action (topState stk) tk.type with
    | .error => .unexpected
    | .shift s => if tk.type = tEND then .stuck else .shifted ((s, .tok tk) :: stk)
    | .reduce r =>
      match rules[r]? with
      | .none => .stuck
      | some rule =>
        let size := rule.rhs.length
        if stk.length < size then .stuck else
        let kids := (stk.take size).reverse.map Prod.snd
        let below := stk.drop size
        match goto (topState below) rule.lhs with
        | .none => .stuck
        | some s =>
          let value := buildNode rule kids
          if tk.type = tEND ∧ s = endState then .accept value
          else feed n ((s, value) :: below) tk

/-- Reductions that one token can trigger; `Proofs/LRSound.lean` (`feed_fuel`) proves that it suffices. -/
def feedFuel (stk : Stack) : Nat := 1000 * (stk.length + 1)

/-- Outcome of `Lark.parse`. -/
inductive ParseRes where
  | ok (t : Tree)
  /-- `UnexpectedCharacters` or `UnexpectedToken` -/
  | unexpectedInput
  | stuck
  | fuel
  deriving Repr

/-- The main loop of `_Parser.parse_from_state`. The fuel bounds the number of tokens. -/
def parseLoop : Nat → Stack → List Char → Nat → ParseRes
  | 0, _, _, _ => .fuel
  | n + 1, stk, s, line =>
    match nextTok (accepts (topState stk)) s.length s line with
    | .fail => .unexpectedInput
    | .eof =>
      match feed (feedFuel stk) stk ⟨tEND, [], line, line⟩ with
      | .accept t => .ok t
      | .unexpected => .unexpectedInput
      | .fuel => .fuel
      | _ => .stuck
    | .tok tk rest =>
      match feed (feedFuel stk) stk tk with
      | .shifted stk' => parseLoop n stk' rest tk.endLine
      | .unexpected => .unexpectedInput
      | .fuel => .fuel
      | _ => .stuck

/-- `Lark(grammar=LARK_GRAMMAR, parser="lalr", ...).parse(text)` (main.py:25, 52). -/
def larkParse (text : String) : ParseRes :=
  parseLoop (text.toList.length + 1) [] text.toList 1

end Pycep
