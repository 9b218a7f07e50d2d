import Verif.Spec.Ast
import Verif.Derivation
/-
Concrete syntax: which sequences of tokens (comments, blanks and tabs are no tokens, line breaks
are) are ways to write a piece of abstract syntax.  Nothing here mentions the parsing table.

Every relation has, as last argument, the type `n` of the token that follows.  It matters in one
respect only: operators extend as far to the right as possible, so what ends with an operand is
never followed by an infix operator.
-/
namespace Pycep

/-- the fixed text of a terminal, if it has one -/
def fixedText (t : Nat) : Option String := (term? t).bind (·.strVal)

/-- `u` is the keyword or punctuation mark `s` -/
def Kw (s : String) (u : Tok) : Prop := fixedText u.type = some s ∧ u.text = s.toList
/-- `u` is the identifier `x` -/
def Id (x : Ident) (u : Tok) : Prop := u.type = T.STRING ∧ u.text = x.1
/-- `u` is the integer literal `d` -/
def Num (d : Digits) (u : Tok) : Prop := u.type = T.INT ∧ u.text = d.1
/-- `u` is the string literal `'b'` -/
def Quoted (b : List Char) (u : Tok) : Prop := u.type = T.QUOTED_INTERPOLATION ∧ u.text = quote b
/-- `u` is the string literal `'b'`, made of word characters and dots -/
def QuotedWord (b : List Char) (u : Tok) : Prop := u.type = T.QUOTED_STRING ∧ u.text = quote b
/-- `u` is the multi-line string literal `'''b'''` -/
def Multi (b : List Char) (u : Tok) : Prop := u.type = T.MULTI_LINE_STRING ∧ u.text = quote3 b
/-- `u` is the function name `f` together with `(` -/
def Fun (f : FunName) (u : Tok) : Prop := u.type = T.FUNCTION ∧ u.text = f.1 ++ ['(']
/-- `u` is the method name `f` -/
def Method (f : ListName) (u : Tok) : Prop := u.type = T.LIST_FUNC_NAME ∧ u.text = f.1
/-- `u` is the decorator name `d` -/
def DecoId (d : DecoName) (u : Tok) : Prop := u.type = T.__ANON_2 ∧ u.text = d.1
/-- `u` is the star of a wildcard import -/
def Star (u : Tok) : Prop := u.type = T.__ANON_1 ∧ u.text = ['*']

/-- line breaks, possibly with comments -/
def Breaks (w : List Tok) : Prop := ∀ u ∈ w, u.type = T._CPP_COMMENT_NL
/-- at most one token of line breaks, possibly with comments -/
def OptBreak (w : List Tok) : Prop := w = [] ∨ ∃ u, w = [u] ∧ u.type = T._CPP_COMMENT_NL
/-- at most one token of line breaks, without comments -/
def OptNewline (w : List Tok) : Prop := w = [] ∨ ∃ u, w = [u] ∧ u.type = T._NEWLINE

/-- how binary operators are written; indexing is different -/
def BinOp.sign : BinOp → Option String
  | .ge => some ">=" | .gt => some ">" | .le => some "<=" | .lt => some "<" | .eq => some "=="
  | .ne => some "!=" | .eqi => some "=~" | .nei => some "!~" | .and => some "&&" | .or => some "||"
  | .coalesce => some "??" | .add => some "+" | .div => some "/" | .mod => some "%"
  | .mul => some "*" | .sub => some "-" | .index => .none | .nested => some "::" | .prop => some "."

/-- everything that can continue an expression to the right, except `!` -/
def infixSigns : List String :=
  [">=", ">", "<=", "<", "==", "!=", "=~", "!~", "&&", "||", "??", "+", "/", "%", "*", "-", "::",
   ".", "[", "?", "=>"]

/-- `n` does not continue an expression -/
def NoInfix (n : Nat) : Prop := ∀ s ∈ infixSigns, fixedText n ≠ some s
/-- `n` is not `!` -/
def NoBang (n : Nat) : Prop := fixedText n ≠ some "!"

/-- the lines of a piece of text -/
def LinesOf (l : Lines) (w : List Tok) : Prop :=
  ∃ u v, w.head? = some u ∧ w.getLast? = some v ∧ l = (u.line, v.endLine)

/-- object keys -/
inductive KeySyn : Key → Tok → Prop where
  | resource {u} : Kw "resource" u → KeySyn .resource u
  | ident {x u} : Id x u → KeySyn (.ident x) u
  | word {b u} : QuotedWord b u → KeySyn (.quoted true b) u
  | quoted {b u} : Quoted b u → KeySyn (.quoted false b) u

/-- the optional keyword `existing` -/
inductive ExistingSyn : Bool → List Tok → Prop where
  | no : ExistingSyn false []
  | yes {u} : Kw "existing" u → ExistingSyn true [u]

mutual
/-- `ESyn b e w n`: `w` is a way to write the expression `e` in front of `n`; if `b`, it may be in
brackets or asserted to be non-null (`!`). -/
inductive ESyn : Bool → Expr → List Tok → Nat → Prop where
  | null {w u n} : OptNewline w → Kw "null" u → ESyn false .null (w ++ [u]) n
  | tru {w u n} : OptNewline w → Kw "true" u → ESyn false .tru (w ++ [u]) n
  | fls {w u n} : OptNewline w → Kw "false" u → ESyn false .fls (w ++ [u]) n
  | int {d w u n} : OptNewline w → Num d u → ESyn false (.int d) (w ++ [u]) n
  | ident {x w u n} : OptNewline w → Id x u → ESyn false (.ident x) (w ++ [u]) n
  | str {b w u n} : OptNewline w → Quoted b u → ESyn false (.str b) (w ++ [u]) n
  | multi {b u n} : Multi b u → ESyn false (.multi b) [u] n
  /-- `[` elements `]` -/
  | array {es u w1 w2 v n} : Kw "[" u → Breaks w1 → Elems es w2 v.type → Kw "]" v →
      ESyn false (.array es) (u :: (w1 ++ (w2 ++ [v]))) n
  | object {is w n} : ObjSyn is w n → ESyn false (.object is) w n
  | call {f es w1 w2 n} : OptNewline w1 → CallSyn f es w2 n → ESyn false (.call f es) (w1 ++ w2) n
  /-- `a op b` -/
  | bin {op s a b w1 u w2 n} : op.sign = some s → ESyn true a w1 u.type → Kw s u → ESyn true b w2 n →
      NoInfix n → ESyn false (.bin op a b) (w1 ++ (u :: w2)) n
  /-- `a.?b` -/
  | safe {a b w1 u q w2 n} : ESyn true a w1 u.type → Kw "." u → Kw "?" q → ESyn true b w2 n →
      NoInfix n → ESyn false (.bin .prop a b) (w1 ++ (u :: q :: w2)) n
  /-- `a[b]` -/
  | index {a b w1 u w2 v n} : ESyn true a w1 u.type → Kw "[" u → ESyn true b w2 v.type →
      Kw "]" v → ESyn false (.bin .index a b) (w1 ++ (u :: (w2 ++ [v]))) n
  /-- `a[?b]` -/
  | safeIndex {a b w1 u q w2 v n} : ESyn true a w1 u.type → Kw "[" u → Kw "?" q →
      ESyn true b w2 v.type → Kw "]" v →
      ESyn false (.bin .index a b) (w1 ++ (u :: q :: (w2 ++ [v]))) n
  /-- `!a` -/
  | not {a u w n} : Kw "!" u → ESyn true a w n → NoInfix n → ESyn false (.not a) (u :: w) n
  /-- `-a` -/
  | minus {a u w n} : Kw "-" u → ESyn true a w n → NoInfix n → ESyn false (.minus a) (u :: w) n
  /-- `c ? t : f` -/
  | cond {c t f w1 u w2 v w3 n} : ESyn true c w1 u.type → Kw "?" u → ESyn true t w2 v.type →
      Kw ":" v → ESyn true f w3 n → NoInfix n →
      ESyn false (.cond c t f) (w1 ++ (u :: (w2 ++ (v :: w3)))) n
  /-- `a.listF(args)` -/
  | method {a f args w1 u m p w2 q n} : ESyn true a w1 u.type → Kw "." u → Method f m →
      Kw "(" p → MArgs args w2 q.type → Kw ")" q →
      ESyn false (.method a f args) (w1 ++ (u :: m :: p :: (w2 ++ [q]))) n
  /-- `x => e` -/
  | lambda {x e w1 u w2 n} : ESyn true x w1 u.type → Kw "=>" u → ESyn true e w2 n → NoInfix n →
      ESyn false (.lambda x e) (w1 ++ (u :: w2)) n
  /-- `(x1, x2, x3, ...) => e` -/
  | lambdaN {x1 x2 x3 xs e p w1 u w2 w3 q v w4 n} : Kw "(" p → ESyn true x1 w1 u.type → Kw "," u →
      ESyn true x2 w2 (nextT w3 q.type) → ETail (x3 :: xs) w3 q.type → Kw ")" q → Kw "=>" v →
      ESyn true e w4 n → NoInfix n →
      ESyn false (.lambdaN x1 x2 x3 xs e) (p :: (w1 ++ (u :: (w2 ++ (w3 ++ (q :: v :: w4)))))) n
  /-- a value as an operand -/
  | plain {e w n} : ESyn false e w n → NoBang n → ESyn true e w n
  /-- `(e)` -/
  | paren {e p w q n} : Kw "(" p → ESyn false e w q.type → Kw ")" q → NoBang n →
      ESyn true e (p :: (w ++ [q])) n
  /-- `e!` -/
  | bang {e w v n} : ESyn false e w v.type → Kw "!" v → ESyn true e (w ++ [v]) n
  /-- `(e)!` -/
  | parenBang {e p w q v n} : Kw "(" p → ESyn false e w q.type → Kw ")" q → Kw "!" v →
      ESyn true e (p :: (w ++ [q, v])) n
/-- `, e1, e2, ...` -/
inductive ETail : List Expr → List Tok → Nat → Prop where
  | nil {n} : ETail [] [] n
  | snoc {es w1 u e w2 n} : ETail es w1 u.type → Kw "," u → ESyn true e w2 n → NoInfix n →
      ETail (es ++ [e]) (w1 ++ (u :: w2)) n
/-- elements of an array: groups of elements separated by commas; groups are separated by line
breaks or not at all -/
inductive Elems : List Expr → List Tok → Nat → Prop where
  | nil {n} : Elems [] [] n
  | snoc {es e es' w1 w2 w3 w4 n} : Elems es w1 (nextT (w2 ++ (w3 ++ w4)) n) →
      ESyn true e w2 (nextT (w3 ++ w4) n) → ETail es' w3 (nextT w4 n) → Breaks w4 →
      NoInfix (nextT w4 n) →
      Elems (es ++ e :: es') (w1 ++ (w2 ++ (w3 ++ w4))) n
/-- `f(e1, e2, ...)` -/
inductive CallSyn : FunName → List Expr → List Tok → Nat → Prop where
  | args {f e es u w1 w2 w3 w4 v n} : Fun f u → OptBreak w1 →
      ESyn true e w2 (nextT (w3 ++ w4) v.type) → FTail es w3 (nextT w4 v.type) → OptBreak w4 →
      Kw ")" v → CallSyn f (e :: es) (u :: (w1 ++ (w2 ++ (w3 ++ (w4 ++ [v]))))) n
  /-- no argument before the first comma (or none at all) -/
  | noArg {f es u w1 w3 w4 v n} : Fun f u → OptBreak w1 → FTail es w3 (nextT w4 v.type) →
      OptBreak w4 → Kw ")" v → CallSyn f es (u :: (w1 ++ (w3 ++ (w4 ++ [v])))) n
/-- `, e1, e2, ...` with line breaks after commas -/
inductive FTail : List Expr → List Tok → Nat → Prop where
  | nil {n} : FTail [] [] n
  | snoc {es w1 u w2 e w3 n} : FTail es w1 u.type → Kw "," u → OptBreak w2 → ESyn true e w3 n →
      NoInfix n → FTail (es ++ [e]) (w1 ++ (u :: (w2 ++ w3))) n
/-- arguments of a method; without comma there is one more, absent, argument -/
inductive MArgs : List (Option Expr) → List Tok → Nat → Prop where
  | empty {n} : MArgs [.none] [] n
  | one {e w n} : ESyn true e w n → MArgs [some e, .none] w n
  | many {e es e' w1 w2 n} : ESyn true e w1 (nextT w2 n) → ETail (es ++ [e']) w2 n →
      MArgs ((e :: es ++ [e']).map some) (w1 ++ w2) n
  | lead {es e' w n} : ETail (es ++ [e']) w n → MArgs ((es ++ [e']).map some) w n
/-- `{` members `}` -/
inductive ObjSyn : List Item → List Tok → Nat → Prop where
  | mk {is u w1 w2 v n} : Kw "{" u → Breaks w1 → Items is w2 v.type → Kw "}" v →
      ObjSyn is (u :: (w1 ++ (w2 ++ [v]))) n
/-- members of an object, separated by commas, line breaks or not at all -/
inductive Items : List Item → List Tok → Nat → Prop where
  | nil {n} : Items [] [] n
  | pairs {is i is' w1 w2 w3 w4 n} : Items is w1 (nextT (w2 ++ (w3 ++ w4)) n) →
      PairSyn i w2 (nextT (w3 ++ w4) n) → PTail is' w3 (nextT w4 n) → Breaks w4 →
      Items (is ++ i :: is') (w1 ++ (w2 ++ (w3 ++ w4))) n
  | child {is i w1 w2 w3 n} : Items is w1 (nextT (w2 ++ w3) n) → ChildSyn i w2 (nextT w3 n) →
      Breaks w3 → Items (is ++ [i]) (w1 ++ (w2 ++ w3)) n
/-- `, k1: v1, k2: v2, ...` -/
inductive PTail : List Item → List Tok → Nat → Prop where
  | nil {n} : PTail [] [] n
  | snoc {is w1 u i w2 n} : PTail is w1 u.type → Kw "," u → PairSyn i w2 n →
      PTail (is ++ [i]) (w1 ++ (u :: w2)) n
/-- `k: v`; a trailing `?` has no meaning -/
inductive PairSyn : Item → List Tok → Nat → Prop where
  | expr {k e u c w n} : KeySyn k u → Kw ":" c → ESyn true e w n → NoInfix n →
      PairSyn (.pair k e) (u :: c :: w) n
  | exprOpt {k e u c w q n} : KeySyn k u → Kw ":" c → ESyn true e w q.type → Kw "?" q →
      n ≠ T.STRING → n ≠ T.QUOTED_INTERPOLATION → PairSyn (.pair k e) (u :: c :: (w ++ [q])) n
  | loop {k l u c w n} : KeySyn k u → Kw ":" c → LoopSyn l w n →
      PairSyn (.pairLoop k l) (u :: c :: w) n
  | loopOpt {k l u c w q n} : KeySyn k u → Kw ":" c → LoopSyn l w q.type → Kw "?" q →
      PairSyn (.pairLoop k l) (u :: c :: (w ++ [q])) n
/-- `resource x 'type' existing = body` with all line breaks that follow -/
inductive ChildSyn : Item → List Tok → Nat → Prop where
  | mk {l x b ex c u v q w1 e w2 w3 n} : Kw "resource" u → Id x v → Quoted b q →
      ExistingSyn ex w1 → Kw "=" e → ConfigSyn c w2 (nextT w3 n) → Breaks w3 → w3 ≠ [] →
      n ≠ T._CPP_COMMENT_NL → LinesOf l (u :: v :: q :: (w1 ++ (e :: (w2 ++ w3)))) →
      ChildSyn (.child l x b ex c) (u :: v :: q :: (w1 ++ (e :: (w2 ++ w3)))) n
/-- `[for head: (condition)? body]` -/
inductive LoopSyn : Loop → List Tok → Nat → Prop where
  | plain {h e u w1 f w2 c w3 w4 v n} : Kw "[" u → OptBreak w1 → Kw "for" f → HeadSyn h w2 c.type →
      Kw ":" c → ESyn true e w3 (nextT w4 v.type) → OptBreak w4 → Kw "]" v →
      LoopSyn (.mk h .none e) (u :: (w1 ++ (f :: (w2 ++ (c :: (w3 ++ (w4 ++ [v]))))))) n
  | filter {h a e u w1 f w2 c w0 w3 w4 v n} : Kw "[" u → OptBreak w1 → Kw "for" f →
      HeadSyn h w2 c.type → Kw ":" c → ESyn true a w0 (nextT (w3 ++ w4) v.type) →
      ESyn true e w3 (nextT w4 v.type) → OptBreak w4 → Kw "]" v →
      LoopSyn (.mk h (some a) e)
        (u :: (w1 ++ (f :: (w2 ++ (c :: (w0 ++ (w3 ++ (w4 ++ [v])))))))) n
/-- what a loop ranges over -/
inductive HeadSyn : LoopHead → List Tok → Nat → Prop where
  | arr {x e u i w n} : Id x u → Kw "in" i → ESyn true e w n → NoInfix n →
      HeadSyn (.arr x e) (u :: i :: w) n
  | arrIdx {x y e p u c v q i w n} : Kw "(" p → Id x u → Kw "," c → Id y v → Kw ")" q →
      Kw "in" i → ESyn true e w n → NoInfix n →
      HeadSyn (.arrIdx x y e) (p :: u :: c :: v :: q :: i :: w) n
  | obj {x e u i k p w q n} : Id x u → Kw "in" i → Kw "items" k → Kw "(" p →
      ESyn true e w q.type → Kw ")" q → HeadSyn (.obj x e) (u :: i :: k :: p :: (w ++ [q])) n
/-- the body of a resource or module -/
inductive ConfigSyn : Config → List Tok → Nat → Prop where
  | obj {is w n} : ObjSyn is w n → ConfigSyn (.obj is) w n
  | loop {l w n} : LoopSyn l w n → ConfigSyn (.loop l) w n
  /-- `if (c) e` -/
  | cond {c e w1 i p w2 q w3 n} : OptBreak w1 → Kw "if" i → Kw "(" p → ESyn true c w2 q.type →
      Kw ")" q → ESyn true e w3 n → NoInfix n →
      ConfigSyn (.cond c e) (w1 ++ (i :: p :: (w2 ++ (q :: w3)))) n
end

/-- `n` times `[]` -/
inductive Suffixes : Nat → List Tok → Prop where
  | zero : Suffixes 0 []
  | succ {k w u v} : Suffixes k w → Kw "[" u → Kw "]" v → Suffixes (k + 1) (w ++ [u, v])

mutual
/-- data types -/
inductive TypeSyn : DataType → List Tok → Prop where
  | mk {b k w1 w2} : BaseSyn b w1 → Suffixes k w2 → TypeSyn (.mk b k) (w1 ++ w2)
/-- named types and `(d1 | d2 | ...)` -/
inductive BaseSyn : BaseType → List Tok → Prop where
  | name {x u} : Id x u → BaseSyn (.name x) [u]
  | union {d1 d2 ds p w1 w2 q} : Kw "(" p → TypeSyn d1 w1 → TypeTail (d2 :: ds) w2 → Kw ")" q →
      BaseSyn (.union d1 d2 ds) (p :: (w1 ++ (w2 ++ [q])))
/-- `| d1 | d2 ...` -/
inductive TypeTail : List DataType → List Tok → Prop where
  | nil : TypeTail [] []
  | snoc {ds w1 u d w2} : TypeTail ds w1 → Kw "|" u → TypeSyn d w2 →
      TypeTail (ds ++ [d]) (w1 ++ (u :: w2))
end

/-- decorators; at most ten tokens of line breaks may follow -/
inductive DecoSyn : Deco → List Tok → Prop where
  | noArg {d a u p w1 q w2} : Kw "@" a → DecoId d u → Kw "(" p → Breaks w1 → w1.length ≤ 2 →
      Kw ")" q → Breaks w2 → w2.length ≤ 10 →
      DecoSyn ⟨d, .none⟩ (a :: u :: p :: (w1 ++ (q :: w2)))
  | arg {d e a u p w1 w2 w3 q w4} : Kw "@" a → DecoId d u → Kw "(" p → OptBreak w1 →
      ESyn true e w2 (nextT w3 q.type) → OptBreak w3 → Kw ")" q → Breaks w4 → w4.length ≤ 10 →
      DecoSyn ⟨d, some e⟩ (a :: u :: p :: (w1 ++ (w2 ++ (w3 ++ (q :: w4)))))

/-- the decorators of a declaration -/
inductive DecosSyn : List Deco → List Tok → Prop where
  | nil : DecosSyn [] []
  | snoc {ds d w1 w2} : DecosSyn ds w1 → DecoSyn d w2 → DecosSyn (ds ++ [d]) (w1 ++ w2)

/-- values of variables and outputs -/
inductive ValueSyn : LoopOrExpr → List Tok → Nat → Prop where
  | expr {e w n} : ESyn true e w n → NoInfix n → ValueSyn (.expr e) w n
  | loop {l w n} : LoopSyn l w n → ValueSyn (.loop l) w n

/-- `name as alias` -/
inductive ImportSyn : ImportItem → List Tok → Prop where
  | name {x u} : Id x u → ImportSyn ⟨.name x, .none⟩ [u]
  | star {u} : Star u → ImportSyn ⟨.star, .none⟩ [u]
  | nameAs {x y u a v} : Id x u → Kw "as" a → Id y v → ImportSyn ⟨.name x, some y⟩ [u, a, v]
  | starAs {y u a v} : Star u → Kw "as" a → Id y v → ImportSyn ⟨.star, some y⟩ [u, a, v]

/-- `, i1, i2, ...` -/
inductive ImportTail : List ImportItem → List Tok → Prop where
  | nil : ImportTail [] []
  | snoc {is w1 u i w2} : ImportTail is w1 → Kw "," u → ImportSyn i w2 →
      ImportTail (is ++ [i]) (w1 ++ (u :: w2))

/-- `, x1 t1, x2 t2, ...` -/
inductive ParamTail : List (Ident × DataType) → List Tok → Prop where
  | nil : ParamTail [] []
  | snoc {ps w1 u x v d w2} : ParamTail ps w1 → Kw "," u → Id x v → TypeSyn d w2 →
      ParamTail (ps ++ [(x, d)]) (w1 ++ (u :: v :: w2))

/-- parameters of a user-defined function -/
inductive ParamsSyn : List (Ident × DataType) → List Tok → Prop where
  | nil : ParamsSyn [] []
  | mk {x d ps v w1 w2} : Id x v → TypeSyn d w1 → ParamTail ps w2 →
      ParamsSyn ((x, d) :: ps) (v :: (w1 ++ w2))

/-- `| e1 | e2 ...` -/
inductive AltTail : List Expr → List Tok → Nat → Prop where
  | nil {n} : AltTail [] [] n
  | snoc {es w1 u e w2 n} : AltTail es w1 u.type → Kw "|" u → ESyn true e w2 n → NoInfix n →
      AltTail (es ++ [e]) (w1 ++ (u :: w2)) n

/-- an optional `?` behind a data type -/
def OptMark (w : List Tok) : Prop := w = [] ∨ ∃ u, w = [u] ∧ Kw "?" u

/-- `with {...}` -/
inductive WithSyn : Option (List Item) → List Tok → Nat → Prop where
  | no {n} : WithSyn .none [] n
  | yes {u is w n} : Kw "with" u → ObjSyn is w n → WithSyn (some is) (u :: w) n

/-- `as x` -/
inductive AsSyn : Option Ident → List Tok → Prop where
  | no : AsSyn .none []
  | yes {u x v} : Kw "as" u → Id x v → AsSyn (some x) [u, v]

/-- the declared type of a variable -/
inductive VarType : Option DataType → List Tok → Prop where
  | no : VarType .none []
  | yes {d w1 w2} : TypeSyn d w1 → OptMark w2 → VarType (some d) (w1 ++ w2)

/-- `= e` -/
inductive DefaultSyn : Option Expr → List Tok → Nat → Prop where
  | no {n} : DefaultSyn .none [] n
  | yes {u e w n} : Kw "=" u → ESyn true e w n → NoInfix n → DefaultSyn (some e) (u :: w) n

/-- declarations -/
inductive DeclSyn : Decl → List Tok → Nat → Prop where
  | scope {b u e q n} : Kw "targetScope" u → Kw "=" e → Quoted b q → DeclSyn (.scope b) [u, e, q] n
  | importNs {b u q n} : Kw "import" u → Quoted b q → DeclSyn (.importNs b) [u, q] n
  | importOne {i b u w f q n} : Kw "import" u → ImportSyn i w → Kw "from" f → Quoted b q →
      DeclSyn (.importFrom i [] b) (u :: (w ++ [f, q])) n
  | importList {i is b u o w1 w2 c f q n} : Kw "import" u → Kw "{" o → ImportSyn i w1 →
      ImportTail is w2 → Kw "}" c → Kw "from" f → Quoted b q →
      DeclSyn (.importFrom i is b) (u :: o :: (w1 ++ (w2 ++ [c, f, q]))) n
  | extension {x c al u v w1 w2 n} : Kw "extension" u → Id x v → WithSyn c w1 (nextT w2 n) →
      AsSyn al w2 → DeclSyn (.extension x c al) (u :: v :: (w1 ++ w2)) n
  | metadata {x b u v e q n} : Kw "metadata" u → Id x v → Kw "=" e → Quoted b q →
      DeclSyn (.metadata x b) [u, v, e, q] n
  | param {ds x t o w0 u v w1 w2 w3 n} : DecosSyn ds w0 → Kw "param" u → Id x v → TypeSyn t w1 →
      OptMark w2 → DefaultSyn o w3 n → DeclSyn (.param ds x t o) (w0 ++ (u :: v :: (w1 ++ (w2 ++ w3)))) n
  | var {ds x t e w0 u v w1 q w2 n} : DecosSyn ds w0 → Kw "var" u → Id x v → VarType t w1 →
      Kw "=" q → ValueSyn e w2 n → DeclSyn (.var ds x t e) (w0 ++ (u :: v :: (w1 ++ (q :: w2)))) n
  | output {ds x t e w0 u v w1 w2 q w3 n} : DecosSyn ds w0 → Kw "output" u → Id x v →
      TypeSyn t w1 → OptMark w2 → Kw "=" q → ValueSyn e w3 n →
      DeclSyn (.output ds x t e) (w0 ++ (u :: v :: (w1 ++ (w2 ++ (q :: w3))))) n
  | resource {ds x b ex c w0 u v t w1 q w2 n} : DecosSyn ds w0 → Kw "resource" u → Id x v →
      Quoted b t → ExistingSyn ex w1 → Kw "=" q → ConfigSyn c w2 n →
      DeclSyn (.resource ds x b ex c) (w0 ++ (u :: v :: t :: (w1 ++ (q :: w2)))) n
  | module {ds x b c w0 u v t q w n} : DecosSyn ds w0 → Kw "module" u → Id x v → Quoted b t →
      Kw "=" q → ConfigSyn c w n → DeclSyn (.module ds x b c) (w0 ++ (u :: v :: t :: q :: w)) n
  | typ {ds x e es w0 u v q w1 w2 n} : DecosSyn ds w0 → Kw "type" u → Id x v → Kw "=" q →
      ESyn true e w1 (nextT w2 n) → AltTail es w2 n → NoInfix n →
      DeclSyn (.typ ds x e es) (w0 ++ (u :: v :: q :: (w1 ++ w2))) n
  | func {ds x ps t e w0 u v p w1 q w2 a w3 n} : DecosSyn ds w0 → Kw "func" u → Id x v →
      Kw "(" p → ParamsSyn ps w1 → Kw ")" q → TypeSyn t w2 → Kw "=>" a → ESyn true e w3 n →
      NoInfix n →
      DeclSyn (.func ds x ps t e) (w0 ++ (u :: v :: p :: (w1 ++ (q :: (w2 ++ (a :: w3)))))) n

/-- Programs: declarations, each with the lines of its first and last token, and line breaks. -/
inductive ProgSyn : Program → List Tok → Nat → Prop where
  | nil {n} : ProgSyn [] [] n
  | decl {p l d w1 w2 n} : ProgSyn p w1 (nextT w2 n) → DeclSyn d w2 n → LinesOf l w2 →
      ProgSyn (p ++ [(l, d)]) (w1 ++ w2) n
  | nl {p w u n} : ProgSyn p w u.type → u.type = T._CPP_COMMENT_NL → ProgSyn p (w ++ [u]) n

end Pycep
