import Verif.Spec.Syntax
import Verif.Spec.Layout
/-
A canonical way to write every program.  Every token is followed by a blank (only the `(` of a
method call follows its name directly), operands that are operator expressions are in brackets, the
members of an object and the declarations are on lines of their own, and a multi-line string has a
line break, hidden in a comment, in front of it.

The renderer takes a choice of redundant brackets and `!` as a parameter: for every place of an
expression in the program, whether to put it in brackets although that is not needed, and whether to
put `!` behind it.
-/
namespace Pycep

/-- a token without position: its type and its text -/
abbrev Lexeme := Nat × List Char

/-- a keyword or punctuation mark -/
def kw (t : Nat) : Lexeme := (t, fixedChars t)
/-- a line break -/
def nl : Lexeme := (T._CPP_COMMENT_NL, ['\n'])
/-- an identifier -/
def idTok (x : Ident) : Lexeme := (T.STRING, x.1)
/-- a string literal -/
def strTok (b : List Char) : Lexeme := (T.QUOTED_INTERPOLATION, quote b)

/-- how to write an expression: in brackets? with `!` behind it? -/
structure Style where
  paren : Bool := false
  bang : Bool := false

/-- a place in a program -/
abbrev Spot := List Nat

/-- a choice of brackets and `!` for all places -/
abbrev Styles := Spot → Style

/-- no redundant brackets, no `!` -/
def noStyle : Styles := fun _ => {}

/-- brackets, unless not needed and not chosen -/
def wrap (plain : Bool) (b : Style) (w : List Lexeme) : List Lexeme :=
  (if plain && !b.paren then w else kw T.LPAR :: (w ++ [kw T.RPAR])) ++
    (if b.bang then [kw T.BANG] else [])

/-- the token of a binary operator -/
def BinOp.token : BinOp → Nat
  | .ge => T.__ANON_3 | .gt => T.MORETHAN | .le => T.__ANON_4 | .lt => T.LESSTHAN
  | .eq => T.__ANON_5 | .ne => T.__ANON_6 | .eqi => T.__ANON_7 | .nei => T.__ANON_8
  | .and => T.__ANON_9 | .or => T.__ANON_10 | .coalesce => T.__ANON_11
  | .add => T.PLUS | .div => T.SLASH | .mod => T.PERCENT | .mul => T.STAR | .sub => T.MINUS
  | .index => T.LSQB | .nested => T.__ANON_12 | .prop => T.DOT

/-- what closes the right operand of a binary operator -/
def BinOp.closing : BinOp → List Lexeme
  | .index => [kw T.RSQB]
  | _ => []

/-- no keyword -/
def Ident.plain (x : Ident) : Bool := keywordIds.all fun k => x.1 != fixedChars k

/-- expressions that are written without brackets as operands; strings with quotes in them and keywords
used as identifiers are put in brackets -/
def Expr.simple : Expr → Bool
  | .null | .tru | .fls | .int _ | .multi _ | .array _ | .object _ | .call _ _ => true
  | .ident x => x.plain
  | .str b => !b.contains '\''
  | _ => false

/-- expressions written without brackets on the right of a binary operator: not calls, because
`a.listKeys(x)` is something else -/
def Expr.simpleR : Expr → Bool
  | .call _ _ => false
  | e => e.simple

/-- an object key -/
def Key.tok : Key → Lexeme
  | .resource => kw T.RESOURCE
  | .ident x => idTok x
  | .quoted _ b => strTok b

/-- the keyword `existing` -/
def existingToks (b : Bool) : List Lexeme := if b then [kw T.EXISTING] else []

section
variable (β : Styles)

mutual
/-- tokens of an expression, without brackets around it -/
def Expr.toks (π : Spot) : Expr → List Lexeme
  | .null => [kw T.NULL]
  | .tru => [kw T.TRUE]
  | .fls => [kw T.FALSE]
  | .int d => [(T.INT, d.1)]
  | .ident x => [idTok x]
  | .str b => [strTok b]
  | .multi b => [(T.MULTI_LINE_STRING, quote3 b)]
  | .array es => kw T.LSQB :: (Expr.listToks π es ++ [kw T.RSQB])
  | .object is => kw T.LBRACE :: nl :: (Item.lineToks π is ++ [kw T.RBRACE])
  | .call f es => (T.FUNCTION, f.1 ++ ['(']) :: (Expr.listToks π es ++ [kw T.RPAR])
  | .bin op a b => wrap a.simple (β (0 :: π)) (Expr.toks (0 :: π) a) ++ (kw op.token ::
      (wrap b.simpleR (β (1 :: π)) (Expr.toks (1 :: π) b) ++ op.closing))
  | .not a => kw T.BANG :: wrap a.simple (β (0 :: π)) (Expr.toks (0 :: π) a)
  | .minus a => kw T.MINUS :: wrap a.simple (β (0 :: π)) (Expr.toks (0 :: π) a)
  | .cond c t f => wrap c.simple (β (0 :: π)) (Expr.toks (0 :: π) c) ++ (kw T.QMARK ::
      (wrap t.simple (β (1 :: π)) (Expr.toks (1 :: π) t) ++
      (kw T.COLON :: wrap f.simple (β (2 :: π)) (Expr.toks (2 :: π) f))))
  | .method a f args => wrap a.simple (β (0 :: π)) (Expr.toks (0 :: π) a) ++ (kw T.DOT ::
      (T.LIST_FUNC_NAME, f.1) :: kw T.LPAR :: (Expr.argToks (1 :: π) args ++ [kw T.RPAR]))
  | .lambda v e => wrap v.simple (β (0 :: π)) (Expr.toks (0 :: π) v) ++ (kw T.__ANON_0 ::
      wrap e.simple (β (1 :: π)) (Expr.toks (1 :: π) e))
  | .lambdaN v1 v2 v3 vs e => kw T.LPAR :: (wrap v1.simple (β (0 :: π)) (Expr.toks (0 :: π) v1) ++
      (kw T.COMMA :: (wrap v2.simple (β (1 :: π)) (Expr.toks (1 :: π) v2) ++
      ((kw T.COMMA :: wrap v3.simple (β (2 :: π)) (Expr.toks (2 :: π) v3) ++ Expr.tailToks (3 :: π) vs) ++
      (kw T.RPAR :: kw T.__ANON_0 :: wrap e.simple (β (4 :: π)) (Expr.toks (4 :: π) e))))))
/-- `e1 , e2 , ...` -/
def Expr.listToks (π : Spot) : List Expr → List Lexeme
  | [] => []
  | e :: es => wrap e.simple (β (0 :: π)) (Expr.toks (0 :: π) e) ++ Expr.tailToks (1 :: π) es
/-- `, e1 , e2 ...` -/
def Expr.tailToks (π : Spot) : List Expr → List Lexeme
  | [] => []
  | e :: es => kw T.COMMA :: wrap e.simple (β (0 :: π)) (Expr.toks (0 :: π) e) ++
      Expr.tailToks (1 :: π) es
/-- an optional expression -/
def Expr.optToks (π : Spot) : Option Expr → List Lexeme
  | .none => []
  | some e => wrap e.simple (β π) (Expr.toks π e)
/-- the arguments of a method -/
def Expr.argToks (π : Spot) : List (Option Expr) → List Lexeme
  | [] => []
  | o :: os => (if o.isSome && os.isEmpty then [kw T.COMMA] else []) ++
      (Expr.optToks (0 :: π) o ++ Expr.argTailToks (1 :: π) os)
/-- the arguments of a method except the first one -/
def Expr.argTailToks (π : Spot) : List (Option Expr) → List Lexeme
  | [] => []
  | o :: os => (if o.isSome then [kw T.COMMA] else []) ++
      (Expr.optToks (0 :: π) o ++ Expr.argTailToks (1 :: π) os)
/-- a member of an object -/
def Item.toks (π : Spot) : Item → List Lexeme
  | .pair k v => k.tok :: kw T.COLON :: wrap v.simple (β (0 :: π)) (Expr.toks (0 :: π) v)
  | .pairLoop k l => k.tok :: kw T.COLON :: Loop.toks π l
  | .child _ x b ex c => kw T.RESOURCE :: idTok x :: strTok b :: (existingToks ex ++
      (kw T.EQUAL :: Config.toks π c))
/-- the members of an object, each on a line of its own -/
def Item.lineToks (π : Spot) : List Item → List Lexeme
  | [] => []
  | i :: is => Item.toks (0 :: π) i ++ (nl :: Item.lineToks (1 :: π) is)
/-- a loop -/
def Loop.toks (π : Spot) : Loop → List Lexeme
  | .mk h c e => kw T.LSQB :: kw T.FOR :: (LoopHead.toks (0 :: π) h ++ (kw T.COLON ::
      (Expr.optToks (1 :: π) c ++ (wrap e.simple (β (2 :: π)) (Expr.toks (2 :: π) e) ++ [kw T.RSQB]))))
/-- the head of a loop -/
def LoopHead.toks (π : Spot) : LoopHead → List Lexeme
  | .arr x e => idTok x :: kw T.IN :: wrap e.simple (β (0 :: π)) (Expr.toks (0 :: π) e)
  | .arrIdx x i e => kw T.LPAR :: idTok x :: kw T.COMMA :: idTok i :: kw T.RPAR :: kw T.IN ::
      wrap e.simple (β (0 :: π)) (Expr.toks (0 :: π) e)
  | .obj x e => idTok x :: kw T.IN :: kw T.ITEMS :: kw T.LPAR ::
      (wrap e.simple (β (0 :: π)) (Expr.toks (0 :: π) e) ++ [kw T.RPAR])
/-- the body of a resource or module -/
def Config.toks (π : Spot) : Config → List Lexeme
  | .obj is => kw T.LBRACE :: nl :: (Item.lineToks π is ++ [kw T.RBRACE])
  | .loop l => Loop.toks π l
  | .cond c e => kw T.IF :: kw T.LPAR :: (wrap c.simple (β (0 :: π)) (Expr.toks (0 :: π) c) ++
      (kw T.RPAR :: wrap e.simple (β (1 :: π)) (Expr.toks (1 :: π) e)))
end

/-- an expression as an operand or in any other place -/
def Expr.opd (π : Spot) (e : Expr) : List Lexeme := wrap e.simple (β π) (e.toks β π)

/-- `n` times `[]` -/
def suffixToks : Nat → List Lexeme
  | 0 => []
  | n + 1 => suffixToks n ++ [kw T.LSQB, kw T.RSQB]

mutual
/-- a data type -/
def DataType.toks : DataType → List Lexeme
  | .mk b n => b.toks ++ suffixToks n
/-- a base type -/
def BaseType.toks : BaseType → List Lexeme
  | .name x => [idTok x]
  | .union d1 d2 ds => kw T.LPAR :: (d1.toks ++ ((kw T.VBAR :: d2.toks ++ DataType.tailToks ds) ++
      [kw T.RPAR]))
/-- `| d1 | d2 ...` -/
def DataType.tailToks : List DataType → List Lexeme
  | [] => []
  | d :: ds => kw T.VBAR :: d.toks ++ DataType.tailToks ds
end

/-- a decorator, with the line break behind it -/
def Deco.toks (π : Spot) (d : Deco) : List Lexeme :=
  kw T.AT :: (T.__ANON_2, d.name.1) :: kw T.LPAR :: (Expr.optToks β π d.arg ++ [kw T.RPAR, nl])

/-- decorators -/
def decoToks (π : Spot) : List Deco → List Lexeme
  | [] => []
  | d :: ds => d.toks β (0 :: π) ++ decoToks (1 :: π) ds

/-- the value of a variable or output -/
def LoopOrExpr.toks (π : Spot) : LoopOrExpr → List Lexeme
  | .expr e => e.opd β π
  | .loop l => l.toks β π

/-- an imported name -/
def ImportName.tok : ImportName → Lexeme
  | .name x => idTok x
  | .star => (T.__ANON_1, ['*'])

/-- `as x` -/
def asToks : Option Ident → List Lexeme
  | .none => []
  | some x => [kw T.AS, idTok x]

/-- `name as alias` -/
def ImportItem.toks (i : ImportItem) : List Lexeme := i.name.tok :: asToks i.alias

/-- `, x1 t1 , x2 t2 ...` -/
def paramTailToks : List (Ident × DataType) → List Lexeme
  | [] => []
  | (x, d) :: ps => kw T.COMMA :: idTok x :: (d.toks ++ paramTailToks ps)

/-- the parameters of a user-defined function -/
def paramToks : List (Ident × DataType) → List Lexeme
  | [] => []
  | (x, d) :: ps => idTok x :: (d.toks ++ paramTailToks ps)

/-- `| e1 | e2 ...` -/
def altToks (π : Spot) : List Expr → List Lexeme
  | [] => []
  | e :: es => kw T.VBAR :: (e.opd β (0 :: π) ++ altToks (1 :: π) es)

/-- the declared type of a variable -/
def typeToks : Option DataType → List Lexeme
  | .none => []
  | some d => d.toks

/-- a default value -/
def defaultToks (π : Spot) : Option Expr → List Lexeme
  | .none => []
  | some e => kw T.EQUAL :: e.opd β π

/-- `with {...}` -/
def withToks (π : Spot) : Option (List Item) → List Lexeme
  | .none => []
  | some is => kw T.WITH :: (Config.obj is).toks β π

/-- a declaration -/
def Decl.toks (π : Spot) : Decl → List Lexeme
  | .scope b => [kw T.TARGETSCOPE, kw T.EQUAL, strTok b]
  | .importNs b => [kw T.IMPORT, strTok b]
  | .importFrom i is b => kw T.IMPORT :: kw T.LBRACE :: (i.toks ++
      (is.flatMap (fun j => kw T.COMMA :: j.toks) ++ [kw T.RBRACE, kw T.FROM, strTok b]))
  | .extension x c al => kw T.EXTENSION :: idTok x :: (withToks β π c ++ asToks al)
  | .metadata x b => [kw T.METADATA, idTok x, kw T.EQUAL, strTok b]
  | .param ds x t o => decoToks β (0 :: π) ds ++ (kw T.PARAM :: idTok x :: (t.toks ++
      defaultToks β (1 :: π) o))
  | .var ds x t e => decoToks β (0 :: π) ds ++ (kw T.VAR :: idTok x :: (typeToks t ++
      (kw T.EQUAL :: e.toks β (1 :: π))))
  | .output ds x t e => decoToks β (0 :: π) ds ++ (kw T.OUTPUT :: idTok x :: (t.toks ++
      (kw T.EQUAL :: e.toks β (1 :: π))))
  | .resource ds x b ex c => decoToks β (0 :: π) ds ++ (kw T.RESOURCE :: idTok x :: strTok b ::
      (existingToks ex ++ (kw T.EQUAL :: c.toks β (1 :: π))))
  | .module ds x b c => decoToks β (0 :: π) ds ++ (kw T.MODULE :: idTok x :: strTok b ::
      kw T.EQUAL :: c.toks β (1 :: π))
  | .typ ds x e es => decoToks β (0 :: π) ds ++ (kw T.TYPE :: idTok x :: kw T.EQUAL ::
      (e.opd β (1 :: π) ++ altToks β (2 :: π) es))
  | .func ds x ps t e => decoToks β (0 :: π) ds ++ (kw T.FUNC :: idTok x :: kw T.LPAR ::
      (paramToks ps ++ (kw T.RPAR :: (t.toks ++ (kw T.__ANON_0 :: e.opd β (1 :: π))))))

/-- a program: every declaration ends with a line break -/
def progToks (π : Spot) : Program → List Lexeme
  | [] => []
  | d :: p => (d.2.toks β (0 :: π) ++ [nl]) ++ progToks (1 :: π) p

/-- the tokens of a program -/
def Program.toks (p : Program) : List Lexeme := progToks β [] p

end

/-- what stands in front of a token -/
def lead (t : Nat) : List Char := if t = T.MULTI_LINE_STRING then "/*\n*/".toList else []
/-- what stands behind a token -/
def sep (t : Nat) : List Char := if t = T.LIST_FUNC_NAME then [] else [' ']

/-- the text made of tokens -/
def spaced : List Lexeme → List Char
  | [] => []
  | (t, x) :: w => lead t ++ (x ++ (sep t ++ spaced w))

/-- The text of a program with some redundant brackets and `!`. -/
def Program.renderWith (β : Styles) (p : Program) : String := String.ofList (spaced (p.toks β))

/-- The canonical text of a program. -/
def Program.render (p : Program) : String := p.renderWith noStyle

/-! ### Programs that can be written -/

/-- none of the words `ks` -/
def Ident.Other (ks : List Nat) (x : Ident) : Prop := ∀ k ∈ ks, x.1 ≠ fixedChars k
/-- `null`, `true`, `false` -/
def literals : List Nat := [T.NULL, T.TRUE, T.FALSE]
/-- a text without `'''` -/
def NoQuotes3 (x : List Char) : Prop := ¬ ['\'', '\'', '\''] <:+: x
/-- the inside of a string literal; the flag says whether strings in interpolations are allowed -/
def StrOK (b : Bool) (x : List Char) : Prop := QBody b x ∧ NoQuotes3 (quote x)
/-- the name of a method: `getSecret`, `list...` or `List...` -/
def ListName.ok (f : ListName) : Prop :=
  f.1 = "getSecret".toList ∨ ∃ c n, f.1 = c :: 'i' :: 's' :: 't' :: n ∧ (c = 'l' ∨ c = 'L')
/-- an object key -/
def Key.ok : Key → Prop
  | .resource => True
  | .ident x => x.Other (T.RESOURCE :: T.FOR :: literals)
  | .quoted s b => s = false ∧ StrOK false b
/-- the arguments of a method: none, or one and no more, or some -/
def ArgsOK (args : List (Option Expr)) : Prop :=
  args = [.none] ∨ (∃ e, args = [some e, .none]) ∨ (args ≠ [] ∧ ∀ o ∈ args, o.isSome = true)

mutual
/-- all identifiers and strings in the expression can be written -/
def Expr.ok : Expr → Prop
  | .null | .tru | .fls | .int _ => True
  | .ident x => x.Other literals
  | .str b => StrOK true b
  | .multi b => NoQuotes3 (b ++ ['\'', '\''])
  | .array es => Expr.okL es
  | .object is => Item.okL is
  | .call _ es => Expr.okL es
  | .bin _ a b => a.ok ∧ b.ok
  | .not a => a.ok
  | .minus a => a.ok
  | .cond c t f => c.ok ∧ t.ok ∧ f.ok
  | .method a f args => a.ok ∧ ListName.ok f ∧ ArgsOK args ∧ Expr.okO args
  | .lambda v e => v.ok ∧ e.ok
  | .lambdaN v1 v2 v3 vs e => v1.ok ∧ v2.ok ∧ v3.ok ∧ Expr.okL vs ∧ e.ok
/-- `Expr.ok` of a list -/
def Expr.okL : List Expr → Prop
  | [] => True
  | e :: es => e.ok ∧ Expr.okL es
/-- `Expr.ok` of an optional expression -/
def Expr.ok1 : Option Expr → Prop
  | .none => True
  | some e => e.ok
/-- `Expr.ok` of a list of optional expressions -/
def Expr.okO : List (Option Expr) → Prop
  | [] => True
  | e :: es => Expr.ok1 e ∧ Expr.okO es
/-- `Expr.ok` of an object member -/
def Item.ok : Item → Prop
  | .pair k v => k.ok ∧ v.ok
  | .pairLoop k l => k.ok ∧ l.ok
  | .child _ _ b _ c => StrOK false b ∧ c.ok
/-- `Item.ok` of a list -/
def Item.okL : List Item → Prop
  | [] => True
  | i :: is => i.ok ∧ Item.okL is
/-- `Expr.ok` of a loop -/
def Loop.ok : Loop → Prop
  | .mk h c e => h.ok ∧ Expr.ok1 c ∧ e.ok
/-- `Expr.ok` of a loop head -/
def LoopHead.ok : LoopHead → Prop
  | .arr _ e => e.ok
  | .arrIdx x i e => x.Other literals ∧ i.Other (T.RESOURCE :: literals) ∧ e.ok
  | .obj _ e => e.ok
/-- `Expr.ok` of a resource or module body -/
def Config.ok : Config → Prop
  | .obj is => Item.okL is
  | .loop l => l.ok
  | .cond c e => c.ok ∧ e.ok
end

mutual
/-- no keyword as a name of a type -/
def DataType.ok : DataType → Prop
  | .mk b _ => b.ok
/-- `DataType.ok` of a base type -/
def BaseType.ok : BaseType → Prop
  | .name x => x.Other keywordIds
  | .union d1 d2 ds => d1.ok ∧ d2.ok ∧ DataType.okL ds
/-- `DataType.ok` of a list -/
def DataType.okL : List DataType → Prop
  | [] => True
  | d :: ds => d.ok ∧ DataType.okL ds
end

/-- `Expr.ok` of decorators -/
def Deco.okL (ds : List Deco) : Prop := ∀ d ∈ ds, Expr.ok1 d.arg

/-- an imported name other than these keywords -/
def ImportItem.ok (i : ImportItem) : Prop :=
  match i.name with | .name x => x.Other (T.RESOURCE :: literals) | .star => True

/-- `Expr.ok` of the value of a variable or output -/
def LoopOrExpr.ok : LoopOrExpr → Prop
  | .expr e => e.ok
  | .loop l => l.ok

/-- `Expr.ok` of a declaration -/
def Decl.ok : Decl → Prop
  | .scope b => StrOK false b
  | .importNs b => StrOK false b
  | .importFrom i is b => StrOK false b ∧ i.ok ∧ ∀ j ∈ is, j.ok
  | .extension _ c _ => match c with | some is => Item.okL is | .none => True
  | .metadata _ b => StrOK false b
  | .param ds _ t o => Deco.okL ds ∧ t.ok ∧ Expr.ok1 o
  | .var ds _ t e => Deco.okL ds ∧ (∀ d ∈ t, d.ok) ∧ e.ok
  | .output ds _ t e => Deco.okL ds ∧ t.ok ∧ e.ok
  | .resource ds _ b _ c => Deco.okL ds ∧ StrOK false b ∧ c.ok
  | .module ds _ b c => Deco.okL ds ∧ StrOK false b ∧ c.ok
  | .typ ds _ e es => Deco.okL ds ∧ e.ok ∧ Expr.okL es
  | .func ds _ ps t e => Deco.okL ds ∧ (∀ p ∈ ps, p.1.Other (T.RESOURCE :: literals) ∧ p.2.ok) ∧ t.ok ∧ e.ok

/-- A program whose identifiers and strings can be written: declarations may have any name; no variable is
called `null`, `true` or `false`. -/
def Program.ok (p : Program) : Prop := ∀ d ∈ p, d.2.ok

/-! ### Programs without line numbers -/

mutual
/-- the expression with all line numbers set to 0 -/
def Expr.bare : Expr → Expr
  | .array es => .array (Expr.bareL es)
  | .object is => .object (Item.bareL is)
  | .call f es => .call f (Expr.bareL es)
  | .bin op a b => .bin op a.bare b.bare
  | .not a => .not a.bare
  | .minus a => .minus a.bare
  | .cond c t f => .cond c.bare t.bare f.bare
  | .method a f args => .method a.bare f (Expr.bareO args)
  | .lambda v e => .lambda v.bare e.bare
  | .lambdaN v1 v2 v3 vs e => .lambdaN v1.bare v2.bare v3.bare (Expr.bareL vs) e.bare
  | .null => .null
  | .tru => .tru
  | .fls => .fls
  | .int d => .int d
  | .ident x => .ident x
  | .str b => .str b
  | .multi b => .multi b
/-- `Expr.bare` of a list -/
def Expr.bareL : List Expr → List Expr
  | [] => []
  | e :: es => e.bare :: Expr.bareL es
/-- `Expr.bare` of an optional expression -/
def Expr.bare1 : Option Expr → Option Expr
  | .none => .none
  | some e => some e.bare
/-- `Expr.bare` of a list of optional expressions -/
def Expr.bareO : List (Option Expr) → List (Option Expr)
  | [] => []
  | e :: es => Expr.bare1 e :: Expr.bareO es
/-- `Expr.bare` of an object member -/
def Item.bare : Item → Item
  | .pair k v => .pair k v.bare
  | .pairLoop k l => .pairLoop k l.bare
  | .child _ x b ex c => .child (0, 0) x b ex c.bare
/-- `Item.bare` of a list -/
def Item.bareL : List Item → List Item
  | [] => []
  | i :: is => i.bare :: Item.bareL is
/-- `Expr.bare` of a loop -/
def Loop.bare : Loop → Loop
  | .mk h c e => .mk h.bare (Expr.bare1 c) e.bare
/-- `Expr.bare` of a loop head -/
def LoopHead.bare : LoopHead → LoopHead
  | .arr x e => .arr x e.bare
  | .arrIdx x i e => .arrIdx x i e.bare
  | .obj x e => .obj x e.bare
/-- `Expr.bare` of a resource or module body -/
def Config.bare : Config → Config
  | .obj is => .obj (Item.bareL is)
  | .loop l => .loop l.bare
  | .cond c e => .cond c.bare e.bare
end

/-- `Expr.bare` of decorators -/
def Deco.bareL (ds : List Deco) : List Deco := ds.map (fun d => ⟨d.name, Expr.bare1 d.arg⟩)

/-- `Expr.bare` of the value of a variable or output -/
def LoopOrExpr.bare : LoopOrExpr → LoopOrExpr
  | .expr e => .expr e.bare
  | .loop l => .loop l.bare

/-- `Expr.bare` of a declaration -/
def Decl.bare : Decl → Decl
  | .scope b => .scope b
  | .importNs b => .importNs b
  | .importFrom i is b => .importFrom i is b
  | .extension x c al => .extension x (c.map Item.bareL) al
  | .metadata x b => .metadata x b
  | .param ds x t o => .param (Deco.bareL ds) x t (Expr.bare1 o)
  | .var ds x t e => .var (Deco.bareL ds) x t e.bare
  | .output ds x t e => .output (Deco.bareL ds) x t e.bare
  | .resource ds x b ex c => .resource (Deco.bareL ds) x b ex c.bare
  | .module ds x b c => .module (Deco.bareL ds) x b c.bare
  | .typ ds x e es => .typ (Deco.bareL ds) x e.bare (Expr.bareL es)
  | .func ds x ps t e => .func (Deco.bareL ds) x ps t e.bare

/-- The program with all line numbers set to 0. -/
def Program.bare (p : Program) : Program := p.map (fun d => ((0, 0), d.2.bare))

end Pycep
