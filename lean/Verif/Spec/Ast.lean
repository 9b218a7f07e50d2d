import Verif.Spec.Text
/-
Abstract syntax of Bicep as accepted by bicep.lark, and the parse tree of each piece of syntax.
Texts of tokens are kept as they are in the source, without the quotes of string literals and
without the `(` of a function name.
-/
namespace Pycep

/-- identifiers -/
abbrev Ident := {x : List Char // IsIdentText x}
/-- integer literals -/
abbrev Digits := {x : List Char // x ≠ [] ∧ ∀ c ∈ x, isAsciiDigit c = true}
/-- names of called functions -/
abbrev FunName := {x : List Char // IsFunctionText (x ++ ['('])}
/-- names of method-style functions (`listKeys`, `getSecret`, ...) -/
abbrev ListName := {x : List Char // x ≠ [] ∧ ∀ c ∈ x, isAsciiAlpha c = true}
/-- names of decorators -/
abbrev DecoName := {x : List Char // IsDecoratorText x}
/-- line of the first token, line reached after the last token -/
abbrev Lines := Nat × Nat

/-- binary operators and accessors -/
inductive BinOp where
  | ge | gt | le | lt | eq | ne | eqi | nei
  | and | or | coalesce
  | add | div | mod | mul | sub
  | index | nested | prop
  deriving DecidableEq, Repr

/-- object keys -/
inductive Key where
  /-- the keyword `resource` -/
  | resource
  /-- an identifier -/
  | ident (x : Ident)
  /-- a string literal `'x'`; `simple` if it consists of word characters and dots and was read as
  such -/
  | quoted (simple : Bool) (b : List Char)

mutual
/-- Expressions. -/
inductive Expr where
  | null
  | tru
  | fls
  | int (d : Digits)
  | ident (x : Ident)
  /-- `'...'` -/
  | str (b : List Char)
  /-- `'''...'''` -/
  | multi (b : List Char)
  | array (es : List Expr)
  | object (is : List Item)
  /-- `f(e1, ..., en)` -/
  | call (f : FunName) (es : List Expr)
  | bin (op : BinOp) (a b : Expr)
  | not (a : Expr)
  | minus (a : Expr)
  /-- `c ? t : f` -/
  | cond (c t f : Expr)
  /-- `a.listKeys(e1, ..., en)`; absent arguments are possible -/
  | method (a : Expr) (f : ListName) (args : List (Option Expr))
  /-- `v => e` -/
  | lambda (v : Expr) (e : Expr)
  /-- `(v1, v2, v3, ...) => e` -/
  | lambdaN (v1 v2 v3 : Expr) (vs : List Expr) (e : Expr)
/-- Members of an object. -/
inductive Item where
  | pair (k : Key) (v : Expr)
  | pairLoop (k : Key) (l : Loop)
  /-- a nested `resource` declaration with its lines -/
  | child (ln : Lines) (name : Ident) (type : List Char) (existing : Bool) (c : Config)
/-- `[for h: (cond)? body]` -/
inductive Loop where
  | mk (h : LoopHead) (cond : Option Expr) (body : Expr)
/-- what a loop ranges over -/
inductive LoopHead where
  /-- `x in e` -/
  | arr (x : Ident) (e : Expr)
  /-- `(x, i) in e` -/
  | arrIdx (x i : Ident) (e : Expr)
  /-- `x in items (e)` -/
  | obj (x : Ident) (e : Expr)
/-- The body of a resource or module. -/
inductive Config where
  | obj (is : List Item)
  | loop (l : Loop)
  /-- `if (c) e` -/
  | cond (c e : Expr)
end

mutual
/-- data types: a base followed by `n` times `[]` -/
inductive DataType where
  | mk (b : BaseType) (n : Nat)
/-- named types and unions of at least two alternatives -/
inductive BaseType where
  | name (x : Ident)
  | union (d1 d2 : DataType) (ds : List DataType)
end

/-- `@name(arg?)` -/
structure Deco where
  name : DecoName
  arg : Option Expr

/-- values of variables and outputs -/
inductive LoopOrExpr where
  | expr (e : Expr)
  | loop (l : Loop)

/-- what is imported: a name or `*` -/
inductive ImportName where
  | name (x : Ident)
  | star

/-- `name as alias` -/
structure ImportItem where
  name : ImportName
  alias : Option Ident

/-- Top-level declarations. -/
inductive Decl where
  | scope (b : List Char)
  /-- `import 'x'` -/
  | importNs (b : List Char)
  /-- `import {...} from 'x'` -/
  | importFrom (i : ImportItem) (is : List ImportItem) (b : List Char)
  | extension (name : Ident) (config : Option (List Item)) (alias : Option Ident)
  | metadata (name : Ident) (b : List Char)
  | param (ds : List Deco) (name : Ident) (type : DataType) (default : Option Expr)
  | var (ds : List Deco) (name : Ident) (type : Option DataType) (v : LoopOrExpr)
  | output (ds : List Deco) (name : Ident) (type : DataType) (v : LoopOrExpr)
  | resource (ds : List Deco) (name : Ident) (typeApi : List Char) (existing : Bool) (c : Config)
  | module (ds : List Deco) (name : Ident) (path : List Char) (c : Config)
  /-- `type name = e | es...` -/
  | typ (ds : List Deco) (name : Ident) (e : Expr) (es : List Expr)
  | func (ds : List Deco) (name : Ident) (params : List (Ident × DataType)) (ret : DataType)
      (body : Expr)

/-! ### Parse trees, without positions of tokens and of nodes that do not report them -/

/-- a token without position -/
def tk (t : Nat) (x : List Char) : Tree := .tok ⟨t, x, 0, 0⟩
/-- `'x'` -/
def quote (x : List Char) : List Char := '\'' :: x ++ ['\'']
/-- `'''x'''` -/
def quote3 (x : List Char) : List Char := '\'' :: '\'' :: '\'' :: x ++ ['\'', '\'', '\'']
/-- a node without position -/
def nd (d : String) (ks : List Tree) : Tree := .node d ks .none
/-- a node with line numbers -/
def ndl (d : String) (ks : List Tree) (ln : Lines) : Tree :=
  .node d ks (some ⟨ln.1, ln.2, 0, 0⟩)

/-- name of the tree node of a binary operator -/
def BinOp.node : BinOp → String
  | .ge => "greater_than_or_equals" | .gt => "greater_than" | .le => "less_than_or_equals"
  | .lt => "less_than" | .eq => "equals" | .ne => "not_equals" | .eqi => "equals_case_insens"
  | .nei => "not_equals_case_insens" | .and => "and_op" | .or => "or_op" | .coalesce => "coalesce"
  | .add => "add" | .div => "divide" | .mod => "modulo" | .mul => "multiply" | .sub => "substract"
  | .index => "index_accessor" | .nested => "nested_resource_accessor"
  | .prop => "property_accessor"

/-- tree of an object key -/
def Key.tree : Key → Tree
  | .resource => nd "key" [tk T.RESOURCE "resource".toList]
  | .ident x => nd "key" [tk T.STRING x.1]
  | .quoted true b => nd "key" [tk T.QUOTED_STRING (quote b)]
  | .quoted false b => nd "key" [tk T.QUOTED_INTERPOLATION (quote b)]

/-- the optional keyword `existing` -/
def existingTree (e : Bool) : Tree := if e then tk T.EXISTING "existing".toList else .none

mutual
/-- tree of an expression -/
def Expr.tree : Expr → Tree
  | .null => nd "null" []
  | .tru => nd "true" []
  | .fls => nd "false" []
  | .int d => nd "int_type" [tk T.INT d.1]
  | .ident x => nd "string" [tk T.STRING x.1]
  | .str b => nd "string" [tk T.QUOTED_INTERPOLATION (quote b)]
  | .multi b => nd "multi_line_string" [tk T.MULTI_LINE_STRING (quote3 b)]
  | .array es => nd "array" (Expr.trees es)
  | .object is => nd "object" (Item.trees is)
  | .call f es => nd "function" (tk T.FUNCTION (f.1 ++ ['(']) :: Expr.trees es)
  | .bin op a b => nd "operator" [nd op.node [a.tree, b.tree]]
  | .not a => nd "operator" [nd "not_op" [a.tree]]
  | .minus a => nd "operator" [nd "minus" [a.tree]]
  | .cond c t f => nd "operator" [nd "conditional" [c.tree, t.tree, f.tree]]
  | .method a f args => nd "operator" [nd "function_accessor"
      (a.tree :: tk T.LIST_FUNC_NAME f.1 :: Expr.optTrees args)]
  | .lambda v e => nd "lambda_expression" [v.tree, e.tree]
  | .lambdaN v1 v2 v3 vs e => nd "lambda_expression"
      (v1.tree :: v2.tree :: v3.tree :: (Expr.trees vs ++ [e.tree]))
/-- trees of a list of expressions -/
def Expr.trees : List Expr → List Tree
  | [] => []
  | e :: es => e.tree :: Expr.trees es
/-- tree of an optional expression -/
def Expr.optTree : Option Expr → Tree
  | .none => .none
  | some e => e.tree
/-- trees of a list of optional expressions -/
def Expr.optTrees : List (Option Expr) → List Tree
  | [] => []
  | e :: es => Expr.optTree e :: Expr.optTrees es
/-- tree of an object member -/
def Item.tree : Item → Tree
  | .pair k v => nd "pair" [k.tree, v.tree]
  | .pairLoop k l => nd "pair" [k.tree, l.tree]
  | .child ln name type existing c =>
    ndl "child_resource" [tk T.STRING name.1, tk T.QUOTED_INTERPOLATION (quote type),
      existingTree existing, c.tree] ln
/-- trees of object members -/
def Item.trees : List Item → List Tree
  | [] => []
  | i :: is => i.tree :: Item.trees is
/-- tree of a loop -/
def Loop.tree : Loop → Tree
  | .mk h cond body => nd "loop" [h.tree, Expr.optTree cond, body.tree]
/-- tree of a loop head -/
def LoopHead.tree : LoopHead → Tree
  | .arr x e => nd "loop_array" [tk T.STRING x.1, e.tree]
  | .arrIdx x i e => nd "loop_array_index" [tk T.STRING x.1, tk T.STRING i.1, e.tree]
  | .obj x e => nd "loop_object" [tk T.STRING x.1, e.tree]
/-- tree of a resource or module body -/
def Config.tree : Config → Tree
  | .obj is => nd "object" (Item.trees is)
  | .loop l => l.tree
  | .cond c e => nd "deploy_condition" [c.tree, e.tree]
end

mutual
/-- tree of a data type -/
def DataType.tree : DataType → Tree
  | .mk b n => nd "data_type" (b.tree :: List.replicate n (nd "array_suffix" []))
/-- tree of a base type -/
def BaseType.tree : BaseType → Tree
  | .name x => nd "base_type" [tk T.STRING x.1]
  | .union d1 d2 ds => nd "base_type" [nd "union_type" (d1.tree :: d2.tree :: DataType.trees ds)]
/-- trees of data types -/
def DataType.trees : List DataType → List Tree
  | [] => []
  | d :: ds => d.tree :: DataType.trees ds
end

/-- tree of a decorator -/
def Deco.tree (d : Deco) : Tree :=
  nd "decorator" (tk T.__ANON_2 d.name.1 ::
    match d.arg with | some e => [e.tree] | .none => [])

/-- tree of the decorators of a declaration -/
def decosTree (ds : List Deco) : Tree :=
  if ds.isEmpty then .none else nd "decorators" (ds.map Deco.tree)

/-- tree of a value of a variable or output -/
def LoopOrExpr.tree : LoopOrExpr → Tree
  | .expr e => e.tree
  | .loop l => l.tree

/-- tree of an optional identifier -/
def optIdentTree : Option Ident → Tree
  | .none => .none
  | some x => tk T.STRING x.1

/-- tree of an imported name -/
def ImportItem.tree (i : ImportItem) : Tree :=
  nd "import_alias" [match i.name with | .name x => tk T.STRING x.1 | .star => tk T.__ANON_1 ['*'],
    optIdentTree i.alias]

/-- tree of the parameters of a user-defined function -/
def paramTrees : List (Ident × DataType) → List Tree
  | [] => []
  | (x, d) :: ps => tk T.STRING x.1 :: d.tree :: paramTrees ps

/-- tree of the right-hand side of a type declaration -/
def typeValueTree (e : Expr) (es : List Expr) : Tree :=
  if es.isEmpty then e.tree else nd "type_value" (e.tree :: Expr.trees es)

/-- tree of a declaration -/
def Decl.tree (ln : Lines) : Decl → Tree
  | .scope b => ndl "scope" [tk T.QUOTED_INTERPOLATION (quote b)] ln
  | .importNs b => ndl "custom_import" [tk T.QUOTED_INTERPOLATION (quote b)] ln
  | .importFrom i is b => ndl "custom_import"
      (i.tree :: (is.map ImportItem.tree ++ [tk T.QUOTED_INTERPOLATION (quote b)])) ln
  | .extension name config alias => ndl "extension" [tk T.STRING name.1,
      (match config with | some is => nd "object" (Item.trees is) | .none => .none),
      optIdentTree alias] ln
  | .metadata name b => ndl "metadata" [tk T.STRING name.1,
      nd "string" [tk T.QUOTED_INTERPOLATION (quote b)]] ln
  | .param ds name type default => ndl "param" [decosTree ds, tk T.STRING name.1, type.tree,
      Expr.optTree default] ln
  | .var ds name type v => ndl "var" [decosTree ds, tk T.STRING name.1,
      (match type with | some d => d.tree | .none => .none), v.tree] ln
  | .output ds name type v => ndl "output" [decosTree ds, tk T.STRING name.1, type.tree, v.tree] ln
  | .resource ds name typeApi existing c => ndl "resource" [decosTree ds, tk T.STRING name.1,
      nd "type_api_pair" [tk T.QUOTED_INTERPOLATION (quote typeApi)], existingTree existing,
      c.tree] ln
  | .module ds name path c => ndl "module" [decosTree ds, tk T.STRING name.1,
      nd "module_path" [tk T.QUOTED_INTERPOLATION (quote path)], c.tree] ln
  | .typ ds name e es => ndl "custom_type" [decosTree ds, tk T.STRING name.1,
      typeValueTree e es] ln
  | .func ds name params ret body => ndl "custom_func" (decosTree ds :: tk T.STRING name.1 ::
      (paramTrees params ++ [ret.tree, body.tree])) ln

/-- A program: declarations with their lines. -/
abbrev Program := List (Lines × Decl)

/-- tree of a program -/
def Program.tree (p : Program) : Tree := nd "start" (p.map (fun d => d.2.tree d.1))

end Pycep
