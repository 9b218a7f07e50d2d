import Verif.Py
/-
Backtracking regular expressions, in the style of Python's `re` / `regex` modules: alternatives are
tried in order, `*` is greedy, `*?` lazy, `*+` possessive, `(?R)` re-enters the whole pattern.
A matcher works on the list of remaining characters and hands the rest to a continuation.
-/
namespace Pycep

/-! ### Character classes -/

/-- `[a-z]`-style inclusive range. -/
def inRange (a b : Char) (c : Char) : Bool := a.toNat ≤ c.toNat && c.toNat ≤ b.toNat

/-- `[a-zA-Z]` -/
def isAsciiAlpha (c : Char) : Bool := inRange 'a' 'z' c || inRange 'A' 'Z' c
/-- `[0-9]` -/
def isAsciiDigit (c : Char) : Bool := inRange '0' '9' c
/-- `[a-zA-Z0-9]` -/
def isAsciiAlnum (c : Char) : Bool := isAsciiAlpha c || isAsciiDigit c
/-- `\w`: ASCII letters, digits and underscore, plus whatever Unicode says beyond ASCII. -/
def isWord (c : Char) : Bool :=
  if c.toNat < 0x80 then isAsciiAlnum c || c == '_' else uniWord c
/-- `\d` (Unicode decimal digits). -/
def isDigitU (c : Char) : Bool :=
  if c.toNat < 0x80 then isAsciiDigit c else (uniDigit c).isSome

/-! ### Regular expressions -/

/-- Regular expressions with the operators used by the terminals of bicep.lark. -/
inductive Re where
  | eps
  | set (p : Char → Bool)
  | seq (a b : Re)
  | alt (a b : Re)
  | star (r : Re)
  | lazyStar (r : Re)
  | possStar (r : Re)
  | look (r : Re)
  | nlook (r : Re)
  | recur

namespace Re
/-- a literal character -/
def chr (c : Char) : Re := .set (· == c)
/-- a literal string -/
def lit (s : List Char) : Re := s.foldr (fun c r => .seq (chr c) r) .eps
/-- `r+` -/
def plus (r : Re) : Re := .seq r (.star r)
/-- `r?` -/
def opt (r : Re) : Re := .alt r .eps
/-- `.` (no DOTALL flag): any character but a line feed -/
def dot : Re := .set (· != '\n')
end Re

/-- What is left to do after a partial match; the final answer is the unconsumed input. -/
abbrev Cont := List Char → Option (List Char)
/-- A matcher: input, continuation, answer. -/
abbrev Matcher := List Char → Cont → Option (List Char)

/-- First success of two attempts. -/
def orElse (a : Option (List Char)) (b : Unit → Option (List Char)) : Option (List Char) :=
  match a with
  | some x => some x
  | .none => b ()

/-- Greedy iteration of `body`; an iteration that consumes nothing ends the loop.
The fuel is an upper bound of the number of productive iterations. -/
def starLoop (body : Matcher) : Nat → Matcher
  | 0, s, k => k s
  | n + 1, s, k =>
    orElse (body s (fun s' => if s'.length < s.length then starLoop body n s' k else k s'))
      (fun _ => k s)

/-- Lazy iteration of `body`. -/
def lazyLoop (body : Matcher) : Nat → Matcher
  | 0, s, k => k s
  | n + 1, s, k =>
    orElse (k s)
      (fun _ => body s (fun s' => if s'.length < s.length then lazyLoop body n s' k else k s'))

/-- Matching, given a matcher for `(?R)`. -/
def Re.run (rec : Matcher) : Re → Matcher
  | .eps, s, k => k s
  | .set p, s, k => match s with
    | [] => .none
    | c :: cs => if p c then k cs else .none
  | .seq a b, s, k => a.run rec s (fun s' => b.run rec s' k)
  | .alt a b, s, k => orElse (a.run rec s k) (fun _ => b.run rec s k)
  | .star r, s, k => starLoop (r.run rec) s.length s k
  | .lazyStar r, s, k => lazyLoop (r.run rec) s.length s k
  | .possStar r, s, k => match starLoop (r.run rec) s.length s some with
    | some s' => k s'
    | .none => .none
  | .look r, s, k => if (r.run rec s some).isSome then k s else .none
  | .nlook r, s, k => if (r.run rec s some).isSome then .none else k s
  | .recur, s, k => rec s k

/-- The matcher for `(?R)`: the whole pattern `top` again, nested at most `n` times. -/
def recMatcher (top : Re) : Nat → Matcher
  | 0, _, _ => .none
  | n + 1, s, k => top.run (recMatcher top n) s k

/-- `pattern.match(text, pos)`: match `r`, part of the whole pattern `top`, at the start of `s`;
answers the unconsumed rest.  Every `(?R)` in bicep.lark is preceded by a consumed character, so
`s.length` nested re-entries always suffice. -/
def Re.matchIn (top r : Re) (s : List Char) : Option (List Char) :=
  r.run (recMatcher top s.length) s some

end Pycep
