import Verif.Spec.Place
/-
When two expressions are reported alike: `Same` says how they may differ in writing, `Faithful`
singles out expressions about which nothing is lost.
-/
namespace Pycep

/-- the text of a string literal, however it is quoted -/
def Expr.text? : Expr → Option (List Char)
  | .str b => some b
  | .multi b => some (dropNewline b)
  | _ => .none

/-- two names of the same function -/
def SameFun (f g : FunName) : Prop :=
  f = g ∨ ∃ s ∈ signatures, String.ofList f.1 ∈ s.names ∧ String.ofList g.1 ∈ s.names

mutual
/-- The same expression, up to the way numbers and strings are written, prefixes of functions, and
keys with the same text. -/
inductive Expr.Same : Expr → Expr → Prop where
  | null : Expr.Same .null .null
  | tru : Expr.Same .tru .tru
  | fls : Expr.Same .fls .fls
  | int {d d'} : decimal d.1 = decimal d'.1 → Expr.Same (.int d) (.int d')
  | ident {x} : Expr.Same (.ident x) (.ident x)
  | text {e e' b} : e.text? = some b → e'.text? = some b → Expr.Same e e'
  | array {es es'} : List.Forall₂ Expr.Same es es' → Expr.Same (.array es) (.array es')
  | object {is is'} : List.Forall₂ Item.Same is is' → Expr.Same (.object is) (.object is')
  | call {f f' es es'} : SameFun f f' → List.Forall₂ Expr.Same es es' → Expr.Same (.call f es) (.call f' es')
  | bin {op a b a' b'} : Expr.Same a a' → Expr.Same b b' → Expr.Same (.bin op a b) (.bin op a' b')
  | not {a a'} : Expr.Same a a' → Expr.Same (.not a) (.not a')
  | minus {a a'} : Expr.Same a a' → Expr.Same (.minus a) (.minus a')
  | cond {c t f c' t' f'} : Expr.Same c c' → Expr.Same t t' → Expr.Same f f' →
      Expr.Same (.cond c t f) (.cond c' t' f')
  | method {a f es a' es'} : Expr.Same a a' → List.Forall₂ Expr.Same es es' →
      Expr.Same (.method a f (es.map some)) (.method a' f (es'.map some))
  | lambda {x e e'} : Expr.Same e e' → Expr.Same (.lambda (.ident x) e) (.lambda (.ident x) e')
  | lambdaN {x1 x2 x3 e e'} {xs : List Ident} : Expr.Same e e' →
      Expr.Same (.lambdaN (.ident x1) (.ident x2) (.ident x3) (xs.map .ident) e)
        (.lambdaN (.ident x1) (.ident x2) (.ident x3) (xs.map .ident) e')
/-- the same member of an object -/
inductive Item.Same : Item → Item → Prop where
  | pair {k k' e e'} : k.text = k'.text → Expr.Same e e' → Item.Same (.pair k e) (.pair k' e')
  | pairLoop {k k' l l'} : k.text = k'.text → Loop.Same l l' → Item.Same (.pairLoop k l) (.pairLoop k' l')
/-- the same loop -/
inductive Loop.Same : Loop → Loop → Prop where
  | always {h h' b b'} : LoopHead.Same h h' → Expr.Same b b' → Loop.Same (.mk h .none b) (.mk h' .none b')
  | filter {h f c b h' c' b'} : LoopHead.Same h h' → Expr.Same c c' → Expr.Same b b' →
      Loop.Same (.mk h (some (.call f [c])) b) (.mk h' (some (.call f [c'])) b')
/-- the same head of a loop -/
inductive LoopHead.Same : LoopHead → LoopHead → Prop where
  | arr {x e e'} : Expr.Same e e' → LoopHead.Same (.arr x e) (.arr x e')
  | arrIdx {x i e e'} : Expr.Same e e' → LoopHead.Same (.arrIdx x i e) (.arrIdx x i e')
  | obj {x y} : LoopHead.Same (.obj x (.ident y)) (.obj x (.ident y))
end

/-- Keys that an object must not have, all of them and no others, since pieces of syntax that are
not objects are represented by such dictionaries. -/
def reservedKeys : List (List String) :=
  [["function"], ["operator"], ["type", "detail"], ["loop_type", "condition", "config"]]

/-- all arguments of a call with `n` arguments are reported -/
def AllReported (s : Signature) (n : Nat) : Prop :=
  ∀ args, args.length = n → ∀ i < n, ∃ ps k, s.report args = .params ps ∧ (k, .arg i) ∈ ps

/-- represented by something empty -/
def Expr.blank : Expr → Bool
  | .null | .fls => true
  | .int d => decimal d.1 == 0
  | .str b => b.isEmpty
  | .multi b => (dropNewline b).isEmpty
  | .array es => es.isEmpty
  | .object is => is.isEmpty
  | _ => false

mutual
/-- Nothing that matters is lost about the expression: objects have distinct keys and no nested
resources, and do not look like something else; all arguments of calls are reported, and those of
known functions are not `null`, which is reported for absent ones; arguments of method-style calls
are not empty; the variables of lambda expressions are identifiers. -/
def Expr.Faithful : Expr → Prop
  | .null | .tru | .fls | .int _ | .ident _ | .str _ | .multi _ => True
  | .array es => Expr.FaithfulAll es
  | .object is => (is.map Item.key).Nodup ∧ is.map Item.key ∉ reservedKeys ∧ Item.FaithfulAll is
  | .call f es => Expr.FaithfulAll es ∧ ∀ s ∈ signatures, String.ofList f.1 ∈ s.names →
      AllReported s es.length ∧ .null ∉ es
  | .bin _ a b => a.Faithful ∧ b.Faithful
  | .not a => a.Faithful
  | .minus a => a.Faithful
  | .cond c t f => c.Faithful ∧ t.Faithful ∧ f.Faithful
  | .method a _ args => a.Faithful ∧ Expr.FaithfulArgs args
  | .lambda v e => (∃ x, v = .ident x) ∧ e.Faithful
  | .lambdaN v1 v2 v3 vs e => (∀ v ∈ v1 :: v2 :: v3 :: vs, ∃ x, v = .ident x) ∧ e.Faithful
/-- all expressions of a list are faithful -/
def Expr.FaithfulAll : List Expr → Prop
  | [] => True
  | e :: es => e.Faithful ∧ Expr.FaithfulAll es
/-- all arguments of a method-style call are there, not empty and faithful -/
def Expr.FaithfulArgs : List (Option Expr) → Prop
  | [] => True
  | .none :: _ => False
  | some e :: es => e.Faithful ∧ e.blank = false ∧ Expr.FaithfulArgs es
/-- all members of an object are faithful -/
def Item.FaithfulAll : List Item → Prop
  | [] => True
  | i :: is => i.Faithful ∧ Item.FaithfulAll is
/-- a member of an object is faithful -/
def Item.Faithful : Item → Prop
  | .pair _ e => e.Faithful
  | .pairLoop _ l => l.Faithful
  | .child .. => False
/-- a loop is faithful; its condition, if any, is `if(c)` and not `null` -/
def Loop.Faithful : Loop → Prop
  | .mk h .none b => h.Faithful ∧ b.Faithful
  | .mk h (some (.call f [c])) b => h.Faithful ∧ f.1 = ['i', 'f'] ∧ c ≠ .null ∧ c.Faithful ∧ b.Faithful
  | .mk _ (some _) _ => False
/-- a head of a loop is faithful -/
def LoopHead.Faithful : LoopHead → Prop
  | .arr _ e => e.Faithful
  | .arrIdx _ _ e => e.Faithful
  | .obj _ e => ∃ x, e = .ident x
end

/-- a piece of syntax is faithful: expressions, loops and their heads, data types -/
def Node.Faithful : Node → Prop
  | .expr e => e.Faithful
  | .loop l => l.Faithful
  | .head h => h.Faithful
  | .type _ => True
  | _ => False

/-- the same piece of syntax -/
inductive Node.Same : Node → Node → Prop where
  | expr {e e'} : e.Same e' → Node.Same (.expr e) (.expr e')
  | loop {l l'} : l.Same l' → Node.Same (.loop l) (.loop l')
  | head {h h'} : h.Same h' → Node.Same (.head h) (.head h')
  | type {d} : Node.Same (.type d) (.type d)

end Pycep
