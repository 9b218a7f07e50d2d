import Verif.Spec.Ast
import Verif.Transformer
import Mathlib.Data.Nat.Digits.Defs
/-
What a program means: the dictionary that represents it, defined by recursion on the abstract
syntax.  Nothing here mentions tokens, trees, positions of nodes or the order in which methods of
the transformer run.  The tables of functions and decorators, the classification of module
references and the extraction of nested resources are taken over as functions on values; they have
their own specifications (`Spec/FunTable.lean`, `Props/...`).
-/
namespace Pycep

/-- the text of a list of characters -/
abbrev txt (x : List Char) : String := String.ofList x

/-- The dictionary made by assigning the pairs from left to right: keys in the order of their first
occurrence, each with the value of its last occurrence. -/
def lastWins (ps : List (String × Val)) : List (String × Val) :=
  (ps.map Prod.fst).eraseDups.map (fun k => (k, (ps.reverse.lookup k).getD .none))

/-- `name1: v1, name2: v2, ...`, counting from `n` -/
def numbered (pre : String) : Nat → List Val → List (String × Val)
  | _, [] => []
  | n, v :: vs => (pre ++ toString n, v) :: numbered pre (n + 1) vs

/-- value of a decimal numeral -/
def decimal (x : List Char) : Nat := Nat.ofDigits 10 (x.reverse.map (fun c => c.toNat - '0'.toNat))

/-- a multi-line string starts after the line break that directly follows the opening quotes -/
def dropNewline : List Char → List Char
  | '\n' :: x => x
  | x => x

/-- the exception of a method, wrapped by Lark -/
def inRule {α} (rule : String) : Except PyErr α → Except VErr α
  | .ok a => .ok a
  | .error e => .error (.visit rule e)

/-- how operators are reported -/
def BinOp.label : BinOp → String
  | .ge => "greater_than_or_equals" | .gt => "greater_than" | .le => "less_than_or_equals"
  | .lt => "less_than" | .eq => "equals" | .ne => "not_equals"
  | .eqi => "equals_case_insensitive" | .nei => "not_equals_case_insensitive"
  | .and => "and" | .or => "or" | .coalesce => "coalesce"
  | .add => "add" | .div => "divide" | .mod => "modulo" | .mul => "multiply" | .sub => "substract"
  | .index => "index_accessor" | .nested => "nested_resource_accessor"
  | .prop => "property_accessor"

/-- `{operator: {type: label, operands: {...}}}` -/
def opVal (label : String) (operands : List (String × Val)) : Val :=
  .dict [("operator", .dict [("type", .str label), ("operands", .dict operands)])]

/-- the text of an object key: quoted keys keep their quotes -/
def Key.text : Key → String
  | .resource => "resource"
  | .ident x => txt x.1
  | .quoted _ b => txt (quote b)

/-- the line entries of a declaration, if asked for -/
def lineItems (ln : Bool) (l : Lines) : List (String × Val) :=
  if ln then [("__start_line__", .int l.1), ("__end_line__", .int l.2)] else []

mutual
/-- what represents an expression -/
def Expr.val (ln : Bool) : Expr → Except VErr Val
  | .null => .ok .none
  | .tru => .ok (.bool true)
  | .fls => .ok (.bool false)
  | .int d =>
    if d.1.length ≤ intMaxStrDigits then .ok (.int (decimal d.1))
    else .error (.visit "int_type" (.valueError ""))
  | .ident x => .ok (.elem (txt x.1))
  | .str b => .ok (.str (txt b))
  | .multi b => .ok (.str (txt (dropNewline b)))
  | .array es => do
    let vs ← Expr.vals ln es
    .ok (.list vs)
  | .object is => do
    let ps ← Item.vals ln is
    .ok (.dict (lastWins ps))
  | .call f es => do
    let vs ← Expr.vals ln es
    let data ← inRule "function" (Functions.getFunction (txt f.1) (txt f.1) vs)
    .ok (.dict [("function", data)])
  | .bin op a b => do
    let x ← a.val ln
    let y ← b.val ln
    .ok (opVal op.label [("operand_1", x), ("operand_2", y)])
  | .not a => do
    let x ← a.val ln
    .ok (opVal "not" [("bool_value", x)])
  | .minus a => do
    let x ← a.val ln
    .ok (opVal "minus" [("integer_value", x)])
  | .cond c t f => do
    let x ← c.val ln
    let y ← t.val ln
    let z ← f.val ln
    .ok (opVal "conditional" [("condition", x), ("true_value", y), ("false_value", z)])
  | .method a f args => do
    let x ← a.val ln
    let vs ← Expr.optVals ln args
    .ok (opVal "function_accessor" (("operand_1", x) :: ("func_name", .str (txt f.1)) ::
      (numbered "operand_" 2 vs).filter (fun p => p.2.truthy)))
  | .lambda v e => do
    let x ← v.val ln
    let b ← e.val ln
    .ok (.dict [("type", .str "lambda_expression"),
      ("detail", .dict [("var_1", .str x.pyStr), ("expression", b)])])
  | .lambdaN v1 v2 v3 vs e => do
    let x1 ← v1.val ln
    let x2 ← v2.val ln
    let x3 ← v3.val ln
    let xs ← Expr.vals ln vs
    let b ← e.val ln
    .ok (.dict [("type", .str "lambda_expression"),
      ("detail", .dict (numbered "var_" 1 ((x1 :: x2 :: x3 :: xs).map (fun x => .str x.pyStr)) ++
        [("expression", b)]))])
/-- what represents a list of expressions -/
def Expr.vals (ln : Bool) : List Expr → Except VErr (List Val)
  | [] => .ok []
  | e :: es => do
    let v ← e.val ln
    let vs ← Expr.vals ln es
    .ok (v :: vs)
/-- what represents an optional expression -/
def Expr.optVal (ln : Bool) : Option Expr → Except VErr Val
  | .none => .ok .none
  | some e => e.val ln
/-- what represents optional expressions -/
def Expr.optVals (ln : Bool) : List (Option Expr) → Except VErr (List Val)
  | [] => .ok []
  | e :: es => do
    let v ← Expr.optVal ln e
    let vs ← Expr.optVals ln es
    .ok (v :: vs)
/-- key and value of an object member; nested resources travel under a reserved key -/
def Item.val (ln : Bool) : Item → Except VErr (String × Val)
  | .pair k e => do
    let v ← e.val ln
    .ok (k.text, v)
  | .pairLoop k l => do
    let v ← l.val ln
    .ok (k.text, v)
  | .child l name type existing c => do
    let v ← c.val ln
    .ok ("__child_resource__", .dict [("__name__", .str (txt name.1)), ("__attrs__", .dict
      ([("decorators", .list []), ("type", .str (txt type)), ("api_version", .str ""),
        ("existing", .bool existing), ("config", v)] ++ lineItems ln (l.1, l.2 - 1)))])
/-- keys and values of the members of an object -/
def Item.vals (ln : Bool) : List Item → Except VErr (List (String × Val))
  | [] => .ok []
  | i :: is => do
    let p ← i.val ln
    let ps ← Item.vals ln is
    .ok (p :: ps)
/-- what represents a loop -/
def Loop.val (ln : Bool) : Loop → Except VErr Val
  | .mk h cond body => do
    let x ← h.val ln
    let c ← Expr.optVal ln cond
    let b ← body.val ln
    let c ← inRule "loop" (loopCondition c)
    .ok (.dict [("loop_type", x), ("condition", c), ("config", b)])
/-- what represents a loop head -/
def LoopHead.val (ln : Bool) : LoopHead → Except VErr Val
  | .arr x e => do
    let v ← e.val ln
    .ok (.dict [("type", .str "array"), ("detail", .dict [
      ("item_name", .str (txt x.1)), ("array_name", v)])])
  | .arrIdx x i e => do
    let v ← e.val ln
    .ok (.dict [("type", .str "array_index"), ("detail", .dict [
      ("item_name", .str (txt x.1)), ("index_name", .str (txt i.1)), ("array_name", v)])])
  | .obj x e => do
    let v ← e.val ln
    .ok (.dict [("type", .str "object"), ("detail", .dict [
      ("item_name", .str (txt x.1)), ("object_name", .str v.pyStr)])])
/-- what represents the body of a resource or module -/
def Config.val (ln : Bool) : Config → Except VErr Val
  | .obj is => do
    let ps ← Item.vals ln is
    .ok (.dict (lastWins ps))
  | .loop l => l.val ln
  | .cond c e => do
    let x ← c.val ln
    let y ← e.val ln
    .ok (.dict [("condition", x), ("config", y)])
end

/-- `n` times "array of" -/
def arrayOf : Nat → Val → Val
  | 0, v => v
  | n + 1, v => .dict [("type", .str "array"), ("item_type", arrayOf n v)]

mutual
/-- what represents a data type -/
def DataType.val : DataType → Val
  | .mk b n => arrayOf n b.val
/-- what represents a base type -/
def BaseType.val : BaseType → Val
  | .name x => .str (txt x.1)
  | .union d1 d2 ds => .dict [("type", .str "union"),
      ("members", .list (d1.val :: d2.val :: DataType.vals ds))]
/-- what represents data types -/
def DataType.vals : List DataType → List Val
  | [] => []
  | d :: ds => d.val :: DataType.vals ds
end

/-- what represents a decorator -/
def Deco.val (ln : Bool) (d : Deco) : Except VErr Val := do
  let args ← match d.arg with
    | some e => do
      let v ← e.val ln
      .ok [v]
    | .none => .ok []
  inRule "decorator" (Decorators.getDecorator (txt d.name.1) (txt d.name.1) args)

/-- what represents the decorators of a declaration -/
def decoVals (ln : Bool) : List Deco → Except VErr (List Val)
  | [] => .ok []
  | d :: ds => do
    let v ← d.val ln
    let vs ← decoVals ln ds
    .ok (v :: vs)

/-- what represents the value of a variable or output -/
def LoopOrExpr.val (ln : Bool) : LoopOrExpr → Except VErr Val
  | .expr e => e.val ln
  | .loop l => l.val ln

/-- An entry of the result: section, name, attributes. -/
structure Entry where
  sec : String
  name : String
  attrs : List (String × Val)

/-- What a declaration contributes: entries at its own place, imports, nested resources. -/
structure Out where
  own : List Entry
  imports : List Entry := []
  children : List Entry := []

/-- name under which something is imported -/
def ImportName.text : ImportName → String
  | .name x => txt x.1
  | .star => "*"

/-- `as x` -/
def aliasItem : Option Ident → List (String × Val)
  | some a => [("alias", .str (txt a.1))]
  | .none => []

/-- the configuration of an extension: `with {}` counts as none -/
def configItem (ln : Bool) : Option (List Item) → Except VErr (List (String × Val))
  | some is => do
    let ps ← Item.vals ln is
    .ok (if ps.isEmpty then [] else [("config", .dict (lastWins ps))])
  | .none => .ok []

/-- the declared type of a variable -/
def typeItem : Option DataType → List (String × Val)
  | some d => [("type", d.val)]
  | .none => []

/-- type and version in the type of a resource: exactly one `@` -/
def typeApi (x : List Char) : Except PyErr (String × String) :=
  match splitOn '@' (txt x) with
  | [t, api] => .ok (t, api)
  | _ => .error (.valueError "")

/-- what represents the right hand side of a type declaration -/
def typeVal (ln : Bool) (e : Expr) (es : List Expr) : Except VErr Val :=
  if es.isEmpty then e.val ln else do
    let x ← e.val ln
    let xs ← Expr.vals ln es
    .ok (.str (" | ".intercalate ((x :: xs).map Val.pyStr)))

/-- the entry of an imported name -/
def ImportItem.entry (ln : Bool) (l : Lines) (file : List Char) (i : ImportItem) : Entry :=
  ⟨"imports", i.name.text, ("file_path", .str (txt file)) ::
    (aliasItem i.alias ++ lineItems ln l)⟩

/-- The nested resources handed upwards by `processChild`, as entries. -/
def childEntry (v : Val) : Entry :=
  match v with
  | .dict [("resources", .dict d)] =>
    match dGet "__name__" d, dGet "__attrs__" d with
    | some (.str n), some (.dict a) => ⟨"resources", n, a⟩
    | _, _ => ⟨"resources", "", []⟩
  | _ => ⟨"resources", "", []⟩

/-- The attributes of a resource declaration and its nested resources. -/
def resourceVal (name : String) (t api : String) (config : Val) :
    Except PyErr (List (String × Val) × List Val) :=
  match config with
  | .dict cfg => processChild (config.depth + 1) (.str name) (.str t) (.str api) cfg
  | _ => .error .typeError

/-- what a declaration contributes -/
def Decl.out (ln : Bool) (l : Lines) : Decl → Except VErr Out
  | .scope b =>
    if txt b ∈ ["resourceGroup", "subscription", "managementGroup", "tenant"] then
      .ok { own := [⟨"globals", "scope", ("value", .str (txt b)) :: lineItems ln l⟩] }
    else .error (.visit "scope" (.valueError ("target scope is invalid: " ++ txt b)))
  | .importNs b => .ok { own := [], imports := [⟨"imports", txt b, []⟩] }
  | .importFrom i is b => .ok { own := [], imports := (i :: is).map (ImportItem.entry ln l b) }
  | .extension name config al => do
    let c ← configItem ln config
    .ok { own := [⟨"extensions", txt name.1, c ++ (aliasItem al ++ lineItems ln l)⟩] }
  | .metadata name b =>
    .ok { own := [⟨"metadata", txt name.1, ("value", .str (txt b)) :: lineItems ln l⟩] }
  | .param ds name type default => do
    let vs ← decoVals ln ds
    let v ← Expr.optVal ln default
    .ok { own := [⟨"parameters", txt name.1, [("decorators", .list vs), ("type", type.val),
      ("default", v)] ++ lineItems ln l⟩] }
  | .var ds name type e => do
    let vs ← decoVals ln ds
    let v ← e.val ln
    .ok { own := [⟨"variables", txt name.1, [("decorators", .list vs), ("value", v)] ++
      (typeItem type ++ lineItems ln l)⟩] }
  | .output ds name type e => do
    let vs ← decoVals ln ds
    let v ← e.val ln
    .ok { own := [⟨"outputs", txt name.1, [("decorators", .list vs), ("type", type.val),
      ("value", v)] ++ lineItems ln l⟩] }
  | .resource ds name ta existing c => do
    let vs ← decoVals ln ds
    let (t, api) ← inRule "type_api_pair" (typeApi ta)
    let v ← c.val ln
    let (cfg, inner) ← inRule "resource" (resourceVal (txt name.1) t api v)
    .ok ⟨[⟨"resources", txt name.1, [("decorators", .list vs), ("type", .str t),
        ("api_version", .str api), ("existing", .bool existing), ("config", .dict cfg)] ++
        lineItems ln l⟩], [], inner.map childEntry⟩
  | .module ds name path c => do
    let vs ← decoVals ln ds
    let p ← inRule "module_path" (classifyModulePath (txt path))
    let v ← c.val ln
    let t ← inRule "module" (p.item "type")
    let d ← inRule "module" (p.item "detail")
    .ok { own := [⟨"modules", txt name.1, [("decorators", .list vs), ("type", t), ("detail", d),
      ("config", v)] ++ lineItems ln l⟩] }
  | .typ ds name e es => do
    let vs ← decoVals ln ds
    let v ← typeVal ln e es
    .ok { own := [⟨"types", txt name.1, [("decorators", .list vs), ("value", v)] ++
      lineItems ln l⟩] }
  | .func ds name params ret body => do
    let vs ← decoVals ln ds
    let v ← body.val ln
    .ok { own := [⟨"functions", txt name.1, [("decorators", .list vs),
      ("args", .dict (lastWins (params.map (fun p => (txt p.1.1, p.2.val))))),
      ("type", ret.val), ("expression", v)] ++ lineItems ln l⟩] }

/-- what the declarations of a program contribute -/
def Program.outs (ln : Bool) : Program → Except VErr (List Out)
  | [] => .ok []
  | (l, d) :: p => do
    let o ← d.out ln l
    let os ← Program.outs ln p
    .ok (o :: os)

/-- The result made of a list of entries: sections in the order of their first entry; in each
section the names in the order of their first entry, each with the attributes of its last entry. -/
def collect (es : List Entry) : List (String × Val) :=
  (es.map Entry.sec).eraseDups.map (fun s =>
    (s, .dict (lastWins ((es.filter (·.sec = s)).map (fun e => (e.name, .dict e.attrs))))))

/-- the target scope that holds unless declared otherwise -/
def defaultScope (ln : Bool) : Entry :=
  ⟨"globals", "scope", ("value", .str "resourceGroup") :: lineItems ln (0, 0)⟩

/-- all entries of a program -/
def entries (ln : Bool) (os : List Out) : List Entry :=
  defaultScope ln :: (os.flatMap Out.own ++ os.flatMap Out.imports ++ os.flatMap Out.children)

/-- what represents a program -/
def Program.val (ln : Bool) (p : Program) : Except VErr Val := do
  let os ← p.outs ln
  .ok (.dict (collect (entries ln os)))

end Pycep
