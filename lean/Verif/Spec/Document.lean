import Verif.Spec.Faithful
import Verif.Spec.DecoTable
import Verif.Spec.Reported
/-
When two documents are reported alike: `Same` says how they may differ in writing, `Faithful`
singles out documents about which nothing is lost.
-/
namespace Pycep

/-! ### The same declarations -/

/-- two names of the same decorator -/
def SameDeco (x y : DecoName) : Prop :=
  x = y ∨ ∃ n ∈ knownDecos, String.ofList x.1 ∈ decoNames n ∧ String.ofList y.1 ∈ decoNames n

/-- both absent, or both there and the same -/
inductive SameOpt : Option Expr → Option Expr → Prop where
  | none : SameOpt .none .none
  | some {e e'} : e.Same e' → SameOpt (some e) (some e')

/-- the same decorator, with the same argument -/
def Deco.Same (d d' : Deco) : Prop := SameDeco d.name d'.name ∧ SameOpt d.arg d'.arg

/-- the same value of a variable or output -/
inductive LoopOrExpr.Same : LoopOrExpr → LoopOrExpr → Prop where
  | expr {e e'} : e.Same e' → LoopOrExpr.Same (.expr e) (.expr e')
  | loop {l l'} : l.Same l' → LoopOrExpr.Same (.loop l) (.loop l')

/-- the same body of a resource or module -/
inductive Config.Same : Config → Config → Prop where
  | obj {is is'} : List.Forall₂ Item.Same is is' → Config.Same (.obj is) (.obj is')
  | loop {l l'} : l.Same l' → Config.Same (.loop l) (.loop l')
  | cond {c c' e e'} : c.Same c' → e.Same e' → Config.Same (.cond c e) (.cond c' e')

/-- a default value, unless it is `null` -/
def unlessNull : Option Expr → Option Expr
  | some .null => .none
  | e => e

/-- The same declaration. It does not matter whether a parameter has no default value or `null`,
and whether an extension has no configuration or an empty one. -/
inductive Decl.Same : Decl → Decl → Prop where
  | extension {n c c' a} : List.Forall₂ Item.Same (c.getD []) (c'.getD []) →
      Decl.Same (.extension n c a) (.extension n c' a)
  | metadata {n b} : Decl.Same (.metadata n b) (.metadata n b)
  | param {ds ds' n t e e'} : List.Forall₂ Deco.Same ds ds' → SameOpt (unlessNull e) (unlessNull e') →
      Decl.Same (.param ds n t e) (.param ds' n t e')
  | var {ds ds' n t e e'} : List.Forall₂ Deco.Same ds ds' → e.Same e' →
      Decl.Same (.var ds n t e) (.var ds' n t e')
  | output {ds ds' n t e e'} : List.Forall₂ Deco.Same ds ds' → e.Same e' →
      Decl.Same (.output ds n t e) (.output ds' n t e')
  | resource {ds ds' n b x c c'} : List.Forall₂ Deco.Same ds ds' → c.Same c' →
      Decl.Same (.resource ds n b x c) (.resource ds' n b x c')
  | module {ds ds' n b c c'} : List.Forall₂ Deco.Same ds ds' → c.Same c' →
      Decl.Same (.module ds n b c) (.module ds' n b c')
  | typ {ds ds' n e e'} : List.Forall₂ Deco.Same ds ds' → e.Same e' →
      Decl.Same (.typ ds n e []) (.typ ds' n e' [])
  | func {ds ds' n ps t e e'} : List.Forall₂ Deco.Same ds ds' → e.Same e' →
      Decl.Same (.func ds n ps t e) (.func ds' n ps t e')

/-- what kind of declaration it is -/
def Decl.kind : Decl → String
  | .scope .. => "globals" | .importNs .. => "imports" | .importFrom .. => "imports"
  | .extension .. => "extensions" | .metadata .. => "metadata" | .param .. => "parameters"
  | .var .. => "variables" | .output .. => "outputs" | .resource .. => "resources"
  | .module .. => "modules" | .typ .. => "types" | .func .. => "functions"

/-- kinds other than imports and target scopes -/
def ordinary (k : String) : Bool := k != "globals" && k != "imports"

/-- the declarations of a kind, in the order written -/
def Program.ofKind (p : Program) (k : String) : Program := p.filter (fun d => d.2.kind = k)

/-- the kinds of declarations, in the order in which they first occur -/
def Program.kinds (p : Program) : List String := ((p.map (fun d => d.2.kind)).filter ordinary).eraseDups

/-- An imported name: with file and alias and, if they count, the lines of the statement. Of
`import 'x'` there is only `x`. -/
abbrev Imported := String × Option (List Char × Option Ident × Option Lines)

/-- what a declaration imports -/
def Decl.imported (ln : Bool) (l : Lines) : Decl → List Imported
  | .importNs b => [(txt b, .none)]
  | .importFrom i is b => (i :: is).map (fun i => (i.name.text, some (b, i.alias, if ln then some l else .none)))
  | _ => []

/-- everything imported, in the order written -/
def Program.imported (ln : Bool) (p : Program) : List Imported := p.flatMap (fun d => d.2.imported ln d.1)

/-- the text of a declared target scope and, if they count, its lines -/
def Decl.target (ln : Bool) (l : Lines) : Decl → Option (List Char × Option Lines)
  | .scope b => some (b, if ln then some l else .none)
  | _ => .none

/-- the target scope: that of the last declaration or `resourceGroup` -/
def Program.target (ln : Bool) (p : Program) : List Char × Option Lines :=
  (p.filterMap (fun d => d.2.target ln d.1)).getLast?.getD
    ("resourceGroup".toList, if ln then some (0, 0) else .none)

/-- **The same document**: the same declarations of every kind in the same order, the same imports,
the same target scope, and the kinds in the same order. How declarations of different kinds are
interleaved and how imports are distributed over statements does not matter. If line numbers are
asked for, the declarations are on the same lines. -/
structure Program.Same (ln : Bool) (p p' : Program) : Prop where
  decls : ∀ k, ordinary k = true →
    List.Forall₂ (fun d d' => d.2.Same d'.2 ∧ (ln = true → d.1 = d'.1)) (p.ofKind k) (p'.ofKind k)
  kinds : p.kinds = p'.kinds
  imports : p.imported ln = p'.imported ln
  target : p.target ln = p'.target ln

/-! ### Documents about which nothing is lost -/

/-- Nothing is lost about a decorator: flags have no argument, `minValue` and `maxValue` a number,
others a faithful argument, if any. -/
def Deco.Faithful (d : Deco) : Prop :=
  (∀ n ∈ flags, String.ofList d.name.1 ∈ decoNames n → d.arg = .none) ∧
  (String.ofList d.name.1 ∈ decoNames "minValue" →
    ∃ n : Digits, d.arg = some (.int n) ∨ d.arg = some (.minus (.int n)) ∧ decimal n.1 ≠ 0) ∧
  (String.ofList d.name.1 ∈ decoNames "maxValue" → ∃ n : Digits, d.arg = some (.int n)) ∧
  ∀ e ∈ d.arg, e.Faithful

/-- the value of a variable or output is faithful -/
def LoopOrExpr.Faithful : LoopOrExpr → Prop
  | .expr e => e.Faithful
  | .loop l => l.Faithful

/-- the body of a resource or module is faithful, and if it is an object, it does not look like
something else -/
def Config.Faithful : Config → Prop
  | .obj is => (is.map Item.key).Nodup ∧ is.map Item.key ∉ reservedKeys ∧
      is.map Item.key ≠ ["condition", "config"] ∧ Item.FaithfulAll is
  | .loop l => l.Faithful
  | .cond c e => c.Faithful ∧ e.Faithful

/-- no member of the body is called `__child_resource__` -/
def Config.Childless : Config → Prop
  | .obj is => "__child_resource__" ∉ is.map Item.key
  | _ => True

/-- Nothing is lost about a declaration. -/
def Decl.Faithful : Decl → Prop
  | .scope _ | .importNs _ | .importFrom .. | .metadata .. => True
  | .extension _ c _ => ∀ is ∈ c, (is.map Item.key).Nodup ∧ Item.FaithfulAll is
  | .param ds _ _ o => (∀ d ∈ ds, d.Faithful) ∧ ∀ e ∈ o, e.Faithful
  | .var ds _ _ e => (∀ d ∈ ds, d.Faithful) ∧ e.Faithful
  | .output ds _ _ e => (∀ d ∈ ds, d.Faithful) ∧ e.Faithful
  | .resource ds _ _ _ c => (∀ d ∈ ds, d.Faithful) ∧ c.Faithful ∧ c.Childless
  | .module ds _ _ c => (∀ d ∈ ds, d.Faithful) ∧ c.Faithful
  | .typ ds _ e es => (∀ d ∈ ds, d.Faithful) ∧ e.Faithful ∧ es = []
  | .func ds _ ps _ e => (∀ d ∈ ds, d.Faithful) ∧ (ps.map Prod.fst).Nodup ∧ e.Faithful

/-- the names a declaration declares or imports, by kind; the target scope counts as one -/
def Decl.declares : Decl → List (String × String)
  | .importNs b => [("imports", txt b)]
  | .importFrom i is _ => (i :: is).map (fun i => ("imports", i.name.text))
  | .scope _ => []
  | d => d.ownName

/-- Nothing is lost about a document: no name is declared twice in the same section, and nothing is
lost about any declaration. -/
def Program.Faithful (p : Program) : Prop :=
  (p.flatMap (fun d => d.2.declares)).Nodup ∧ ∀ d ∈ p, d.2.Faithful

end Pycep
