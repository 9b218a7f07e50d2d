import Verif.Regex
/-
Reading regular expressions: the notation of Python's `re` and `regex` modules as far as the
patterns of pycep/bicep.lark (lines 63, 95, 100, 175-184) and of the terminals it imports from
Lark's common.lark use it.  Anything outside that part of the notation makes the reader fail.
-/
namespace Pycep.Lark

/-- What a character class is made of (bicep.lark:95, 100, 175-179). -/
inductive ClassItem where
  /-- `a-b` (a single character is `a-a`) -/
  | range (a b : Char)
  /-- `\w` -/
  | word
  deriving DecidableEq, Repr

/-- Regular expressions, as written (bicep.lark:63, 95, 100, 175-181). -/
inductive Rx where
  | eps
  | chr (c : Char)
  /-- `.` -/
  | dot
  /-- `[...]`, `[^...]`, `\w` -/
  | cls (neg : Bool) (items : List ClassItem)
  | seq (a b : Rx)
  | alt (a b : Rx)
  | opt (a : Rx)
  | plus (a : Rx)
  | star (a : Rx)
  /-- `a*?` -/
  | lazyStar (a : Rx)
  /-- `a*+` -/
  | possStar (a : Rx)
  /-- `(?=a)` -/
  | look (a : Rx)
  /-- `(?!a)` -/
  | nlook (a : Rx)
  /-- `(?R)` -/
  | recur
  deriving DecidableEq, Repr

/-- The character meant by `\c` (bicep.lark:63, 95, 100, 175-179). -/
def escaped (c : Char) : Option Char :=
  if c == 'n' then some '\n' else if c == 'r' then some '\r' else if c == 't' then some '\t'
  else if c.isAlphanum then none else some c

/-- One character of a class (bicep.lark:175-179). -/
def readClassChar : List Char → Option (Char × List Char)
  | '\\' :: c :: cs => (escaped c).map (·, cs)
  | c :: cs => some (c, cs)
  | [] => none

/-- The items of a class up to the closing bracket (bicep.lark:175-179). -/
def readClass : Nat → List Char → Option (List ClassItem × List Char)
  | 0, _ => none
  | _ + 1, ']' :: cs => some ([], cs)
  | n + 1, '\\' :: 'w' :: cs => (readClass n cs).map fun (is, r) => (.word :: is, r)
  | n + 1, cs => do
    let (a, cs) ← readClassChar cs
    match cs with
    | '-' :: ']' :: cs => some ([.range a a, .range '-' '-'], cs)
    | '-' :: cs => do
      let (b, cs) ← readClassChar cs
      (readClass n cs).map fun (is, r) => (.range a b :: is, r)
    | cs => (readClass n cs).map fun (is, r) => (.range a a :: is, r)

/-- Repetition marks (bicep.lark:95, 175-181; possessive: 178, lazy: 181). -/
def quantified (a : Rx) : List Char → Rx × List Char
  | '*' :: '?' :: cs => (.lazyStar a, cs)
  | '*' :: '+' :: cs => (.possStar a, cs)
  | '*' :: cs => (.star a, cs)
  | '+' :: cs => (.plus a, cs)
  | '?' :: cs => (.opt a, cs)
  | cs => (a, cs)

mutual
/-- Alternatives separated by `|` (bicep.lark:100, 175-179). -/
def rxAlts : Nat → List Char → Option (Rx × List Char)
  | 0, _ => none
  | n + 1, cs => do
    let (a, cs) ← rxSeq n cs
    match cs with
    | '|' :: cs => do
      let (b, cs) ← rxAlts n cs
      some (.alt a b, cs)
    | _ => some (a, cs)
/-- A sequence (bicep.lark:95, 100, 175-181). -/
def rxSeq : Nat → List Char → Option (Rx × List Char)
  | 0, _ => none
  | n + 1, cs =>
    match rxOne n cs with
    | none => some (.eps, cs)
    | some (a, cs) => do
      let (b, cs) ← rxSeq n cs
      some (if b = .eps then a else .seq a b, cs)
/-- A single character, class or group with its repetition mark (bicep.lark:95, 100, 175-181). -/
def rxOne : Nat → List Char → Option (Rx × List Char)
  | 0, _ => none
  | n + 1, cs =>
    match cs with
    | [] => none
    | '(' :: '?' :: 'R' :: ')' :: cs => some (quantified .recur cs)
    | '(' :: '?' :: '=' :: cs => rxGroup n .look cs
    | '(' :: '?' :: '!' :: cs => rxGroup n .nlook cs
    | '(' :: '?' :: ':' :: cs => rxGroup n id cs
    | '(' :: '?' :: _ => none
    | '(' :: cs => rxGroup n id cs
    | '[' :: '^' :: cs => (readClass cs.length.succ cs).map fun (is, cs) => quantified (.cls true is) cs
    | '[' :: cs => (readClass cs.length.succ cs).map fun (is, cs) => quantified (.cls false is) cs
    | '.' :: cs => some (quantified .dot cs)
    | '\\' :: 'w' :: cs => some (quantified (.cls false [.word]) cs)
    | '\\' :: c :: cs => (escaped c).map fun c => quantified (.chr c) cs
    | c :: cs =>
      if [')', '|', '*', '+', '?', '^', '$', '\\'].contains c ∨ (c = '{' ∧ cs.head?.any Char.isDigit)
      then none else some (quantified (.chr c) cs)
/-- The inside of a group up to the closing parenthesis (bicep.lark:95, 100, 175-179). -/
def rxGroup : Nat → (Rx → Rx) → List Char → Option (Rx × List Char)
  | 0, _, _ => none
  | n + 1, f, cs =>
    match rxAlts n cs with
    | some (a, ')' :: cs) => some (quantified (f a) cs)
    | _ => none
end

/-- A whole pattern (bicep.lark:63, 95, 100, 175-181). -/
def readRx (cs : List Char) : Option Rx :=
  match rxAlts (3 * cs.length + 3) cs with
  | some (a, []) => some a
  | _ => none

/-! ### Widths -/

/-- Does the pattern use `(?R)`?  Python's own `re` module cannot read such a pattern. -/
def Rx.hasRecur : Rx → Bool
  | .recur => true
  | .seq a b | .alt a b => a.hasRecur || b.hasRecur
  | .opt a | .plus a | .star a | .lazyStar a | .possStar a | .look a | .nlook a => a.hasRecur
  | .eps | .chr _ | .dot | .cls _ _ => false

/-- Least and greatest length of a match (`sre_parse`'s `getwidth`); `none` is "unbounded". -/
def Rx.bounds : Rx → Nat × Option Nat
  | .eps | .look _ | .nlook _ | .recur => (0, some 0)
  | .chr _ | .dot | .cls _ _ => (1, some 1)
  | .seq a b => (a.bounds.1 + b.bounds.1, do return (← a.bounds.2) + (← b.bounds.2))
  | .alt a b => (min a.bounds.1 b.bounds.1, do return max (← a.bounds.2) (← b.bounds.2))
  | .opt a => (0, a.bounds.2)
  | .plus a => (a.bounds.1, if a.bounds.2 = some 0 then some 0 else none)
  | .star a | .lazyStar a | .possStar a => (0, if a.bounds.2 = some 0 then some 0 else none)

/-- `lark.utils.get_regexp_width`; a pattern with `(?R)` counts as unbounded and not empty. -/
def Rx.width (r : Rx) : Nat × Option Nat := if r.hasRecur then (1, none) else r.bounds

/-! ### Matching -/

/-- Membership in a class (bicep.lark:175-179). -/
def ClassItem.mem (c : Char) : ClassItem → Bool
  | .range a b => inRange a b c
  | .word => isWord c

/-- The characters of a class (bicep.lark:175-179). -/
def clsPred (neg : Bool) (is : List ClassItem) (c : Char) : Bool :=
  if is.any (·.mem c) then !neg else neg

/-- The matcher of a pattern (bicep.lark:63, 95, 100, 175-181). -/
def Rx.toRe : Rx → Re
  | .eps => .eps
  | .chr c => Re.chr c
  | .dot => Re.dot
  | .cls neg is => .set (clsPred neg is)
  | .seq a b => .seq a.toRe b.toRe
  | .alt a b => .alt a.toRe b.toRe
  | .opt a => Re.opt a.toRe
  | .plus a => Re.plus a.toRe
  | .star a => .star a.toRe
  | .lazyStar a => .lazyStar a.toRe
  | .possStar a => .possStar a.toRe
  | .look a => .look a.toRe
  | .nlook a => .nlook a.toRe
  | .recur => .recur

end Pycep.Lark
