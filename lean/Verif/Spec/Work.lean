import Verif.LR
/-
What counts as work: the tokens that are read and the entries of the action table that are looked up
(lark/parsers/lalr_parser_state.py, `feed_token`: one look-up per turn of its loop; every reduction, every
shift and the discovery of an error is one turn).
-/
namespace Pycep

/-- `feed_token` ends with `r` after `n` turns of its loop: `n` is the least fuel that suffices. -/
def FeedsIn (n : Nat) (stk : Stack) (tk : Tok) (r : FeedRes) : Prop :=
  feed n stk tk = r ∧ r ≠ .fuel ∧ ∀ m < n, feed m stk tk = .fuel

/-- `Works stk s l k n r`: from the stack `stk`, with the characters `s` left and in line `l`, the parser
(`_Parser.parse_from_state`) shifts `k` tokens and makes `n` look-ups until the outcome `r`. -/
inductive Works : Stack → List Char → Nat → Nat → Nat → ParseRes → Prop where
  /-- no terminal matches -/
  | noToken {stk s l} : nextTok (accepts (topState stk)) s.length s l = .fail →
      Works stk s l 0 0 .unexpectedInput
  /-- the text ends and the parse is complete -/
  | done {stk s l n t} : nextTok (accepts (topState stk)) s.length s l = .eof →
      FeedsIn n stk ⟨tEND, [], l, l⟩ (.accept t) → Works stk s l 0 n (.ok t)
  /-- the text ends too early -/
  | early {stk s l n} : nextTok (accepts (topState stk)) s.length s l = .eof →
      FeedsIn n stk ⟨tEND, [], l, l⟩ .unexpected → Works stk s l 0 n .unexpectedInput
  /-- a token is refused -/
  | refused {stk s l tk rest n} : nextTok (accepts (topState stk)) s.length s l = .tok tk rest →
      FeedsIn n stk tk .unexpected → Works stk s l 0 n .unexpectedInput
  /-- a token is shifted -/
  | shift {stk s l tk rest n stk' k m r} : nextTok (accepts (topState stk)) s.length s l = .tok tk rest →
      FeedsIn n stk tk (.shifted stk') → Works stk' rest tk.endLine k m r → Works stk s l (k + 1) (n + m) r

mutual
/-- number of nodes of a tree; the transformer calls one method for each -/
def Tree.nodes : Tree → Nat
  | .tok _ => 0
  | .none => 0
  | .node _ kids _ => Tree.nodesL kids + 1
/-- number of nodes of several trees -/
def Tree.nodesL : List Tree → Nat
  | [] => 0
  | t :: ts => t.nodes + Tree.nodesL ts
end

end Pycep
