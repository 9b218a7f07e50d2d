/-
Python values and the handful of built-in operations that pycep's code applies to them.
Nothing in this file is specific to Bicep; it is the "Python runtime" part of the trusted model.
-/
namespace Pycep

/-- Python exceptions that code in `/repo/pycep` can raise while transforming a tree.
Only the messages of exceptions raised *explicitly* by pycep are kept
(transformer.py:81, 439, 455, 478, 494); the interpreter's own messages are dropped. -/
inductive PyErr where
  | valueError (msg : String)
  | typeError
  | keyError
  | indexError
  | attributeError
  deriving DecidableEq, Repr, Inhabited

/-- Python objects that occur while pycep runs.
* `elem` is `pycep.models.BicepElement` (models.py:4-5), a `str` subclass;
* `tok` is `lark.Token`, also a `str` subclass, with its `type` and its text;
* `tup2` is a two-element tuple (only produced by transformer.py:311 and 902);
* `dict` is an insertion ordered dictionary with string keys. -/
inductive Val where
  | none
  | bool (b : Bool)
  | int (i : Int)
  | str (s : String)
  | elem (s : String)
  | tok (type : String) (value : String)
  | list (l : List Val)
  | tup2 (a b : Val)
  | dict (d : List (String × Val))
  deriving Inhabited, Repr

/-! ### Unicode database
The behaviour of Python on non-ASCII characters is left completely open: `opaque` constants have
no equations, so every theorem holds whatever the Unicode tables say.  (The bodies below are only
used when the model is executed.) -/

/-- `str.isprintable` for a non-ASCII character (used by `repr`). -/
opaque uniPrintable : Char → Bool := fun _ => true
/-- membership of a non-ASCII character in the class `\w` of the `regex` module (used by Lark). -/
opaque uniWord : Char → Bool := fun _ => true
/-- membership of a non-ASCII character in the class `\w` of the `re` module (transformer.py:19-27). -/
opaque uniWordRe : Char → Bool := fun _ => true
/-- membership of a non-ASCII character in the regex class `\d`, with its value. -/
opaque uniDigit : Char → Option Nat := fun _ => .none
/-- `str.isspace` for a non-ASCII character. -/
opaque uniSpace : Char → Bool := fun _ => false

/-! ### Truthiness -/

/-- `bool(v)` / `if v:`. -/
def Val.truthy : Val → Bool
  | .none => false
  | .bool b => b
  | .int i => i != 0
  | .str s => s != ""
  | .elem s => s != ""
  | .tok _ s => s != ""
  | .list l => !l.isEmpty
  | .tup2 _ _ => true
  | .dict d => !d.isEmpty

/-! ### Dictionaries -/

/-- `d.get(k)` / `k in d`, as an option. -/
def dGet (k : String) : List (String × Val) → Option Val
  | [] => .none
  | (k', v) :: d => if k' = k then some v else dGet k d

/-- `d[k] = v`: overwrite in place (keeping the position of the key), append if new. -/
def dSet (k : String) (v : Val) : List (String × Val) → List (String × Val)
  | [] => [(k, v)]
  | (k', v') :: d => if k' = k then (k, v) :: d else (k', v') :: dSet k v d

/-- `d.pop(k)`: the dictionary without `k`. -/
def dErase (k : String) : List (String × Val) → List (String × Val)
  | [] => []
  | (k', v') :: d => if k' = k then d else (k', v') :: dErase k d

/-- A dict display / `dict(pairs)` / dict comprehension: assignments from left to right. -/
def mkDict (ps : List (String × Val)) : List (String × Val) :=
  ps.foldl (fun d p => dSet p.1 p.2 d) []

/-- `{f"{pre}{idx + start}": x for idx, x in enumerate(xs)}` as the list of its items. -/
def enumKeys (pre : String) (start : Nat) : List Val → List (String × Val)
  | [] => []
  | x :: xs => (pre ++ toString start, x) :: enumKeys pre (start + 1) xs

/-- `v[k]` where `v` is expected to be a dict and `k` is a string. -/
def Val.item (v : Val) (k : String) : Except PyErr Val :=
  match v with
  | .dict d => match dGet k d with
    | some x => .ok x
    | .none => .error .keyError
  | _ => .error .typeError

/-- `v.get(k, {})`: a method call, `AttributeError` unless `v` is a dict. -/
def Val.getOrEmpty (v : Val) (k : String) : Except PyErr Val :=
  match v with
  | .dict d => .ok ((dGet k d).getD (.dict []))
  | _ => .error .attributeError

/-- `v.get(k)`: `None` if absent. -/
def Val.get (v : Val) (k : String) : Except PyErr Val :=
  match v with
  | .dict d => .ok ((dGet k d).getD .none)
  | _ => .error .attributeError

/-- `v[k] = x`. -/
def Val.setItem (v : Val) (k : String) (x : Val) : Except PyErr Val :=
  match v with
  | .dict d => .ok (.dict (dSet k x d))
  | _ => .error .typeError

/-- `v == s` for a string literal `s` (all `str` subclasses compare by content). -/
def Val.eqStr (v : Val) (s : String) : Bool :=
  match v with
  | .str t => t == s
  | .elem t => t == s
  | .tok _ t => t == s
  | _ => false

/-! ### `str` and `repr` -/

/-- One hexadecimal digit. -/
def hexDigit (n : Nat) : Char := "0123456789abcdef".toList.getD n '0'

/-- `n` as `w` hexadecimal digits. -/
def hexPad (w n : Nat) : List Char :=
  (List.range w).reverse.map (fun i => hexDigit ((n >>> (4 * i)) % 16))

/-- How `repr` of a string delimited by `q` renders one character. -/
def reprChar (q : Char) (c : Char) : List Char :=
  if c = q ∨ c = '\\' then ['\\', c]
  else if c = '\t' then ['\\', 't']
  else if c = '\n' then ['\\', 'n']
  else if c = '\r' then ['\\', 'r']
  else if c.toNat < 0x20 ∨ c.toNat = 0x7f then ['\\', 'x'] ++ hexPad 2 c.toNat
  else if c.toNat < 0x7f then [c]
  else if uniPrintable c then [c]
  else if c.toNat < 0x100 then ['\\', 'x'] ++ hexPad 2 c.toNat
  else if c.toNat < 0x10000 then ['\\', 'u'] ++ hexPad 4 c.toNat
  else ['\\', 'U'] ++ hexPad 8 c.toNat

/-- `repr(s)` of a Python string. -/
def reprStr (s : String) : String :=
  let cs := s.toList
  let q := if cs.contains '\'' && !cs.contains '"' then '"' else '\''
  String.ofList ([q] ++ cs.flatMap (reprChar q) ++ [q])

mutual
/-- `repr(v)`.  `BicepElement` inherits `str.__repr__`; `lark.Token` prints `Token('T', 'x')`. -/
def Val.repr : Val → String
  | .none => "None"
  | .bool true => "True"
  | .bool false => "False"
  | .int i => toString i
  | .str s => reprStr s
  | .elem s => reprStr s
  | .tok t s => "Token(" ++ reprStr t ++ ", " ++ reprStr s ++ ")"
  | .list l => "[" ++ ", ".intercalate (Val.reprList l) ++ "]"
  | .tup2 a b => "(" ++ a.repr ++ ", " ++ b.repr ++ ")"
  | .dict d => "{" ++ ", ".intercalate (Val.reprItems d) ++ "}"
def Val.reprList : List Val → List String
  | [] => []
  | v :: l => v.repr :: Val.reprList l
def Val.reprItems : List (String × Val) → List String
  | [] => []
  | (k, v) :: d => (reprStr k ++ ": " ++ v.repr) :: Val.reprItems d
end

/-- `str(v)`: the text itself for strings (and `str` subclasses), `repr` otherwise. -/
def Val.pyStr : Val → String
  | .str s => s
  | .elem s => s
  | .tok _ s => s
  | v => v.repr

/-! ### String slicing -/

/-- `s[n:-n]`. -/
def sliceBoth (n : Nat) (s : String) : String :=
  String.ofList ((s.toList.drop n).take (s.toList.length - n - n))

/-- `s[n:]`. -/
def sliceFrom (n : Nat) (s : String) : String := String.ofList (s.toList.drop n)

/-- `s.removeprefix(p)`. -/
def removePrefix (p s : String) : String :=
  if p.toList.isPrefixOf s.toList then String.ofList (s.toList.drop p.toList.length) else s

/-- `s.removesuffix(p)`. -/
def removeSuffix (p s : String) : String :=
  if p.toList.isSuffixOf s.toList then
    String.ofList (s.toList.take (s.toList.length - p.toList.length))
  else s

/-- `s.startswith(p)`. -/
def startsWith (p s : String) : Bool := p.toList.isPrefixOf s.toList

/-- `s.split(c)` for a one-character separator, on character lists. -/
def splitChars (c : Char) : List Char → List (List Char)
  | [] => [[]]
  | x :: xs =>
    if x = c then [] :: splitChars c xs
    else match splitChars c xs with
      | [] => [[x]]
      | y :: ys => (x :: y) :: ys

/-- `s.split(c)`. -/
def splitOn (c : Char) (s : String) : List String := (splitChars c s.toList).map String.ofList

/-- `s.count(p)`: number of non-overlapping occurrences, scanning from the left (`p` non-empty).
The fuel is the number of characters still to be scanned. -/
def countSub (p : List Char) : Nat → List Char → Nat
  | 0, _ => 0
  | _, [] => 0
  | n + 1, c :: cs =>
    if p.isPrefixOf (c :: cs) then 1 + countSub p n ((c :: cs).drop p.length)
    else countSub p n cs

/-! ### `int()` -/

/-- CPython's default `sys.get_int_max_str_digits()`. -/
def intMaxStrDigits : Nat := 4300

/-- ASCII whitespace accepted around a number by `int()`, or Unicode whitespace. -/
def isPySpace (c : Char) : Bool :=
  if c.toNat < 0x80 then (9 ≤ c.toNat && c.toNat ≤ 13) || c.toNat == 32
  else uniSpace c

/-- value of a decimal digit. -/
def digitVal (c : Char) : Option Nat :=
  if c.toNat < 0x80 then
    if 48 ≤ c.toNat ∧ c.toNat ≤ 57 then some (c.toNat - 48) else .none
  else uniDigit c

/-- Digits with optional single underscores between them; `pre` tells whether the previous
character was a digit (so that an underscore or the end of the text is allowed). -/
def digitsOf : Bool → List Char → Option (List Nat)
  | pre, [] => if pre then some [] else .none
  | pre, c :: cs =>
    if c = '_' then (if pre then digitsOf false cs else .none)
    else match digitVal c with
      | some d => (digitsOf true cs).map (d :: ·)
      | .none => .none

/-- Positional value of a list of decimal digits. -/
def ofDigits10 (ds : List Nat) : Nat := ds.foldl (fun n d => 10 * n + d) 0

/-- optional sign of a number: negative?, rest -/
def splitSign : List Char → Bool × List Char
  | '-' :: r => (true, r)
  | '+' :: r => (false, r)
  | r => (false, r)

/-- `int(s)` for a string. -/
def intOfStr (s : String) : Except PyErr Int :=
  let cs := ((s.toList.dropWhile isPySpace).reverse.dropWhile isPySpace).reverse
  let (neg, body) := splitSign cs
  match digitsOf false body with
  | .none => .error (.valueError "")
  | some ds =>
    if ds.length > intMaxStrDigits then .error (.valueError "")
    else .ok (if neg then -(ofDigits10 ds : Int) else (ofDigits10 ds : Int))

/-- `int(v)`. -/
def pyInt : Val → Except PyErr Val
  | .int i => .ok (.int i)
  | .bool b => .ok (.int (if b then 1 else 0))
  | .str s => (intOfStr s).map .int
  | .elem s => (intOfStr s).map .int
  | .tok _ s => (intOfStr s).map .int
  | _ => .error .typeError

/-- `v * -1`. Multiplying a sequence by a negative number gives the empty sequence. -/
def mulNegOne : Val → Except PyErr Val
  | .int i => .ok (.int (-i))
  | .bool b => .ok (.int (if b then -1 else 0))
  | .str _ => .ok (.str "")
  | .elem _ => .ok (.str "")
  | .tok _ _ => .ok (.str "")
  | .list _ => .ok (.list [])
  | _ => .error .typeError

/-- `l[i]`. -/
def idx (l : List Val) (i : Nat) : Except PyErr Val :=
  match l[i]? with
  | some v => .ok v
  | .none => .error .indexError

/-- Failed sequence unpacking (`a, b = args` with the wrong number of items). -/
def unpackErr {α} : Except PyErr α := .error (.valueError "")

end Pycep
