import Verif.Py
/-
Reading back what Python prints: the part of `ast.literal_eval` that is needed for plain data, with
the blanks that `str` and `repr` put between the parts.
-/
namespace Pycep

/-- value of a hexadecimal digit -/
def hexOf (c : Char) : Option Nat :=
  if '0' ≤ c ∧ c ≤ '9' then some (c.toNat - '0'.toNat)
  else if 'a' ≤ c ∧ c ≤ 'f' then some (c.toNat - 'a'.toNat + 10) else .none

/-- value of a hexadecimal numeral -/
def hexNum : Nat → List Char → Option Nat
  | n, [] => some n
  | n, c :: cs => do
    let d ← hexOf c
    hexNum (16 * n + d) cs

/-- a character given by `w` hexadecimal digits -/
def readHex (w : Nat) (cs : List Char) : Option (Char × List Char) :=
  if w ≤ cs.length then (hexNum 0 (cs.take w)).map (fun n => (Char.ofNat n, cs.drop w)) else .none

/-- what a backslash stands for together with what follows it -/
def readEscape : List Char → Option (Char × List Char)
  | '\\' :: r => some ('\\', r)
  | '\'' :: r => some ('\'', r)
  | '"' :: r => some ('"', r)
  | 't' :: r => some ('\t', r)
  | 'n' :: r => some ('\n', r)
  | 'r' :: r => some ('\r', r)
  | 'x' :: r => readHex 2 r
  | 'u' :: r => readHex 4 r
  | 'U' :: r => readHex 8 r
  | _ => .none

/-- the rest of a string that ends at the quote `q`; the first argument bounds its length -/
def readStr (q : Char) : Nat → List Char → Option (List Char × List Char)
  | 0, _ => .none
  | _, [] => .none
  | n + 1, c :: cs =>
    if c = q then some ([], cs)
    else if c = '\\' then do
      let (x, r) ← readEscape cs
      let (xs, r) ← readStr q n r
      some (x :: xs, r)
    else do
      let (xs, r) ← readStr q n cs
      some (c :: xs, r)

/-- a text in quotes -/
def readText : List Char → Option (String × List Char)
  | '\'' :: r => (readStr '\'' (r.length + 1) r).map (fun p => (String.ofList p.1, p.2))
  | '"' :: r => (readStr '"' (r.length + 1) r).map (fun p => (String.ofList p.1, p.2))
  | _ => .none

/-- a decimal numeral -/
def readNat (cs : List Char) : Option (Nat × List Char) :=
  if cs.takeWhile Char.isDigit = [] then .none
  else some ((cs.takeWhile Char.isDigit).foldl (fun n c => 10 * n + (c.toNat - '0'.toNat)) 0, cs.dropWhile Char.isDigit)

mutual
/-- a literal; the first argument bounds the depth -/
def readVal : Nat → List Char → Option (Val × List Char)
  | 0, _ => .none
  | n + 1, cs =>
    match cs with
    | 'N' :: 'o' :: 'n' :: 'e' :: r => some (.none, r)
    | 'T' :: 'r' :: 'u' :: 'e' :: r => some (.bool true, r)
    | 'F' :: 'a' :: 'l' :: 's' :: 'e' :: r => some (.bool false, r)
    | '-' :: r => (readNat r).map (fun p => (.int (-(p.1 : Int)), p.2))
    | '[' :: ']' :: r => some (.list [], r)
    | '[' :: r => (readMore n r).map (fun p => (.list p.1, p.2))
    | '{' :: '}' :: r => some (.dict [], r)
    | '{' :: r => (readPairs n r).map (fun p => (.dict p.1, p.2))
    | c :: r =>
      if c = '\'' ∨ c = '"' then (readText (c :: r)).map (fun p => (.str p.1, p.2))
      else (readNat (c :: r)).map (fun p => (.int p.1, p.2))
    | [] => .none
/-- the items of a list, and its end -/
def readMore : Nat → List Char → Option (List Val × List Char)
  | 0, _ => .none
  | n + 1, cs => do
    let (v, r) ← readVal n cs
    match r with
    | ']' :: r => some ([v], r)
    | ',' :: ' ' :: r => do
      let (vs, r) ← readMore n r
      some (v :: vs, r)
    | _ => .none
/-- the items of a dictionary, and its end -/
def readPairs : Nat → List Char → Option (List (String × Val) × List Char)
  | 0, _ => .none
  | n + 1, cs => do
    let (k, r) ← readText cs
    match r with
    | ':' :: ' ' :: r => do
      let (v, r) ← readVal n r
      match r with
      | '}' :: r => some ([(k, v)], r)
      | ',' :: ' ' :: r => do
        let (ps, r) ← readPairs n r
        some ((k, v) :: ps, r)
      | _ => .none
    | _ => .none
end

/-- the value written as a Python literal -/
def literal (s : String) : Option Val :=
  match readVal (s.toList.length + 1) s.toList with
  | some (v, []) => some v
  | _ => .none

mutual
/-- a value without the distinction between identifiers and strings, which Python does not print -/
def Val.plain : Val → Val
  | .elem s => .str s
  | .list l => .list (Val.plainL l)
  | .dict d => .dict (Val.plainD d)
  | v => v
/-- the same for the items of a list -/
def Val.plainL : List Val → List Val
  | [] => []
  | v :: l => v.plain :: Val.plainL l
/-- the same for the items of a dictionary -/
def Val.plainD : List (String × Val) → List (String × Val)
  | [] => []
  | (k, v) :: d => (k, v.plain) :: Val.plainD d
end

/-- `y` is the printed form of `v`: a string as it is, anything else as a literal -/
def Prints (v : Val) (y : String) : Prop :=
  match v with
  | .str s => y = s
  | .elem s => y = s
  | v => literal y = some v.plain

end Pycep
