import Verif.Spec.Reported
/-
Two programs that differ in one piece, and two results that differ in one place.
-/
namespace Pycep

/-- `OnlyAt π v v' y y'`: the values `v` and `v'` have the same keys in the same order and the same
entries, except that at the place `π` there is `y` in `v` and `y'` in `v'`. -/
inductive Val.OnlyAt : List PStep → Val → Val → Val → Val → Prop where
  | here {y y'} : OnlyAt [] y y' y y'
  | key {a b : List (String × Val)} {k u u' π y y'} : k ∉ a.map Prod.fst → k ∉ b.map Prod.fst →
      OnlyAt π u u' y y' → OnlyAt (.key k :: π) (.dict (a ++ (k, u) :: b)) (.dict (a ++ (k, u') :: b)) y y'
  | idx {a b : List Val} {u u' π y y'} : OnlyAt π u u' y y' →
      OnlyAt (.idx a.length :: π) (.list (a ++ u :: b)) (.list (a ++ u' :: b)) y y'

/-- `Edit1 n n' π m m'`: `n` and `n'` are alike, except that `n` has the immediate piece `m` where `n'`
has `m'`; it is reported at `π`. Not covered are pieces that are not reported as they are: variables of
lambdas, the object of a loop over an object, arguments of methods and decorators. -/
inductive Edit1 : Node → Node → List PStep → Node → Node → Prop where
  | elem {a b : List Expr} {e e'} :
      Edit1 (.expr (.array (a ++ e :: b))) (.expr (.array (a ++ e' :: b))) [.idx a.length] (.expr e) (.expr e')
  | member {a b : List Item} {k : Key} {e e'} : (∀ j ∈ b, j.key ≠ k.text) →
      Edit1 (.expr (.object (a ++ .pair k e :: b))) (.expr (.object (a ++ .pair k e' :: b))) [.key k.text]
        (.expr e) (.expr e')
  | memberLoop {a b : List Item} {k : Key} {l l'} : (∀ j ∈ b, j.key ≠ k.text) →
      Edit1 (.expr (.object (a ++ .pairLoop k l :: b))) (.expr (.object (a ++ .pairLoop k l' :: b))) [.key k.text]
        (.loop l) (.loop l')
  | arg {f : FunName} {a b : List Expr} {e e' k} : ArgKey (txt f.1) (a ++ e :: b).length a.length k →
      Edit1 (.expr (.call f (a ++ e :: b))) (.expr (.call f (a ++ e' :: b)))
        [.key "function", .key "parameters", .key k] (.expr e) (.expr e')
  | left {op a a' b} : Edit1 (.expr (.bin op a b)) (.expr (.bin op a' b)) (operandPath "operand_1") (.expr a) (.expr a')
  | right {op a b b'} : Edit1 (.expr (.bin op a b)) (.expr (.bin op a b')) (operandPath "operand_2") (.expr b) (.expr b')
  | not {a a'} : Edit1 (.expr (.not a)) (.expr (.not a')) (operandPath "bool_value") (.expr a) (.expr a')
  | minus {a a'} : Edit1 (.expr (.minus a)) (.expr (.minus a')) (operandPath "integer_value") (.expr a) (.expr a')
  | cond {c c' t f} : Edit1 (.expr (.cond c t f)) (.expr (.cond c' t f)) (operandPath "condition") (.expr c) (.expr c')
  | condT {c t t' f} : Edit1 (.expr (.cond c t f)) (.expr (.cond c t' f)) (operandPath "true_value") (.expr t) (.expr t')
  | condF {c t f f'} : Edit1 (.expr (.cond c t f)) (.expr (.cond c t f')) (operandPath "false_value") (.expr f) (.expr f')
  | method {a a' f args} : Edit1 (.expr (.method a f args)) (.expr (.method a' f args)) (operandPath "operand_1")
      (.expr a) (.expr a')
  | lambda {v e e'} : Edit1 (.expr (.lambda v e)) (.expr (.lambda v e')) [.key "detail", .key "expression"]
      (.expr e) (.expr e')
  | lambdaN {v1 v2 v3 vs e e'} : Edit1 (.expr (.lambdaN v1 v2 v3 vs e)) (.expr (.lambdaN v1 v2 v3 vs e'))
      [.key "detail", .key "expression"] (.expr e) (.expr e')
  | loopHead {h h' c b} : Edit1 (.loop (.mk h c b)) (.loop (.mk h' c b)) [.key "loop_type"] (.head h) (.head h')
  /-- the filter `if (c)` is represented by `c` -/
  | loopFilter {h b} {f : FunName} {c c' es} : txt f.1 = "if" →
      Edit1 (.loop (.mk h (some (.call f (c :: es))) b)) (.loop (.mk h (some (.call f (c' :: es))) b))
        [.key "condition"] (.expr c) (.expr c')
  | loopCond {h c c' b} : AsItIs c → AsItIs c' →
      Edit1 (.loop (.mk h (some c) b)) (.loop (.mk h (some c') b)) [.key "condition"] (.expr c) (.expr c')
  | loopBody {h c b b'} : Edit1 (.loop (.mk h c b)) (.loop (.mk h c b')) [.key "config"] (.expr b) (.expr b')
  | headArr {x e e'} : Edit1 (.head (.arr x e)) (.head (.arr x e')) [.key "detail", .key "array_name"] (.expr e) (.expr e')
  | headIdx {x i e e'} : Edit1 (.head (.arrIdx x i e)) (.head (.arrIdx x i e')) [.key "detail", .key "array_name"]
      (.expr e) (.expr e')
  | configMember {a b : List Item} {k : Key} {e e'} : (∀ j ∈ b, j.key ≠ k.text) →
      Edit1 (.config (.obj (a ++ .pair k e :: b))) (.config (.obj (a ++ .pair k e' :: b))) [.key k.text]
        (.expr e) (.expr e')
  | configMemberLoop {a b : List Item} {k : Key} {l l'} : (∀ j ∈ b, j.key ≠ k.text) →
      Edit1 (.config (.obj (a ++ .pairLoop k l :: b))) (.config (.obj (a ++ .pairLoop k l' :: b))) [.key k.text]
        (.loop l) (.loop l')
  | configLoop {l l'} : Edit1 (.config (.loop l)) (.config (.loop l')) [] (.loop l) (.loop l')
  | configCond {c c' e} : Edit1 (.config (.cond c e)) (.config (.cond c' e)) [.key "condition"] (.expr c) (.expr c')
  | configBody {c e e'} : Edit1 (.config (.cond c e)) (.config (.cond c e')) [.key "config"] (.expr e) (.expr e')

/-- `Edit n n' π m m'`: `n` and `n'` are alike, except that somewhere inside `n` has the piece `m` where
`n'` has `m'`; it is reported at `π`. -/
inductive Edit : Node → Node → List PStep → Node → Node → Prop where
  | refl {n n'} : Edit n n' [] n n'
  | step {n n' π m m' σ k k'} : Edit1 n n' π m m' → Edit m m' σ k k' → Edit n n' (π ++ σ) k k'

/-- `DeclEdit d d' κ m m'`: the declarations `d` and `d'` are alike, except that `d` has the piece `m`
where `d'` has `m'`; it is reported at `κ` in the attributes. -/
inductive DeclEdit : Decl → Decl → List PStep → Node → Node → Prop where
  | paramDeco {a b : List Deco} {x t o d d'} : DeclEdit (.param (a ++ d :: b) x t o) (.param (a ++ d' :: b) x t o)
      [.key "decorators", .idx a.length] (.deco d) (.deco d')
  | paramType {ds x t t' o} : DeclEdit (.param ds x t o) (.param ds x t' o) [.key "type"] (.type t) (.type t')
  | paramDefault {ds x t e e'} : DeclEdit (.param ds x t (some e)) (.param ds x t (some e')) [.key "default"]
      (.expr e) (.expr e')
  | varDeco {a b : List Deco} {x t v d d'} : DeclEdit (.var (a ++ d :: b) x t v) (.var (a ++ d' :: b) x t v)
      [.key "decorators", .idx a.length] (.deco d) (.deco d')
  | varType {ds x t t' v} : DeclEdit (.var ds x (some t) v) (.var ds x (some t') v) [.key "type"] (.type t) (.type t')
  | varExpr {ds x t e e'} : DeclEdit (.var ds x t (.expr e)) (.var ds x t (.expr e')) [.key "value"] (.expr e) (.expr e')
  | varLoop {ds x t l l'} : DeclEdit (.var ds x t (.loop l)) (.var ds x t (.loop l')) [.key "value"] (.loop l) (.loop l')
  | outDeco {a b : List Deco} {x t v d d'} : DeclEdit (.output (a ++ d :: b) x t v) (.output (a ++ d' :: b) x t v)
      [.key "decorators", .idx a.length] (.deco d) (.deco d')
  | outType {ds x t t' v} : DeclEdit (.output ds x t v) (.output ds x t' v) [.key "type"] (.type t) (.type t')
  | outExpr {ds x t e e'} : DeclEdit (.output ds x t (.expr e)) (.output ds x t (.expr e')) [.key "value"]
      (.expr e) (.expr e')
  | outLoop {ds x t l l'} : DeclEdit (.output ds x t (.loop l)) (.output ds x t (.loop l')) [.key "value"]
      (.loop l) (.loop l')
  | resDeco {a b : List Deco} {x ta ex c d d'} :
      DeclEdit (.resource (a ++ d :: b) x ta ex c) (.resource (a ++ d' :: b) x ta ex c)
        [.key "decorators", .idx a.length] (.deco d) (.deco d')
  /-- members of the body of a resource; nested resources are taken out -/
  | resMember {ds x ta ex} {a b : List Item} {k : Key} {e e'} : (∀ j ∈ b, j.key ≠ k.text) →
      k.text ≠ "__child_resource__" →
      DeclEdit (.resource ds x ta ex (.obj (a ++ .pair k e :: b))) (.resource ds x ta ex (.obj (a ++ .pair k e' :: b)))
        [.key "config", .key k.text] (.expr e) (.expr e')
  | resMemberLoop {ds x ta ex} {a b : List Item} {k : Key} {l l'} : (∀ j ∈ b, j.key ≠ k.text) →
      k.text ≠ "__child_resource__" →
      DeclEdit (.resource ds x ta ex (.obj (a ++ .pairLoop k l :: b)))
        (.resource ds x ta ex (.obj (a ++ .pairLoop k l' :: b))) [.key "config", .key k.text] (.loop l) (.loop l')
  | resLoop {ds x ta ex l l'} : DeclEdit (.resource ds x ta ex (.loop l)) (.resource ds x ta ex (.loop l'))
      [.key "config"] (.loop l) (.loop l')
  | resCond {ds x ta ex c c' e} : DeclEdit (.resource ds x ta ex (.cond c e)) (.resource ds x ta ex (.cond c' e))
      [.key "config", .key "condition"] (.expr c) (.expr c')
  | resBody {ds x ta ex c e e'} : DeclEdit (.resource ds x ta ex (.cond c e)) (.resource ds x ta ex (.cond c e'))
      [.key "config", .key "config"] (.expr e) (.expr e')
  | modDeco {a b : List Deco} {x r c d d'} : DeclEdit (.module (a ++ d :: b) x r c) (.module (a ++ d' :: b) x r c)
      [.key "decorators", .idx a.length] (.deco d) (.deco d')
  | modConfig {ds x r c c'} : DeclEdit (.module ds x r c) (.module ds x r c') [.key "config"] (.config c) (.config c')
  | typDeco {a b : List Deco} {x e es d d'} : DeclEdit (.typ (a ++ d :: b) x e es) (.typ (a ++ d' :: b) x e es)
      [.key "decorators", .idx a.length] (.deco d) (.deco d')
  | typExpr {ds x e e'} : DeclEdit (.typ ds x e []) (.typ ds x e' []) [.key "value"] (.expr e) (.expr e')
  | funcDeco {a b : List Deco} {x ps t e d d'} : DeclEdit (.func (a ++ d :: b) x ps t e) (.func (a ++ d' :: b) x ps t e)
      [.key "decorators", .idx a.length] (.deco d) (.deco d')
  | funcType {ds x ps t t' e} : DeclEdit (.func ds x ps t e) (.func ds x ps t' e) [.key "type"] (.type t) (.type t')
  | funcBody {ds x ps t e e'} : DeclEdit (.func ds x ps t e) (.func ds x ps t e') [.key "expression"] (.expr e) (.expr e')
  | extConfig {x is is' al} : is ≠ [] → is' ≠ [] → DeclEdit (.extension x (some is) al) (.extension x (some is') al)
      [.key "config"] (.config (.obj is)) (.config (.obj is'))

/-- `NestedEdit c c' i r r'`: the bodies `c` and `c'` are alike, except that the nested resource with
index `i` of the chain is `r` in `c` and `r'` in `c'`. -/
inductive NestedEdit : Config → Config → Nat → Nested → Nested → Prop where
  | here {a b : List Item} {r r' : Nested} : (∀ j ∈ b, j.key ≠ "__child_resource__") →
      NestedEdit (.obj (a ++ r.item :: b)) (.obj (a ++ r'.item :: b)) 0 r r'
  | deeper {a b : List Item} {l x t ex c c' i r r'} : (∀ j ∈ b, j.key ≠ "__child_resource__") → NestedEdit c c' i r r' →
      NestedEdit (.obj (a ++ .child l x t ex c :: b)) (.obj (a ++ .child l x t ex c' :: b)) (i + 1) r r'

/-- `NestedBody c c' κ m m'`: the bodies `c` and `c'` of two nested resources are alike, except that
`c` has the piece `m` where `c'` has `m'`; it is reported at `κ` in the body. -/
inductive NestedBody : Config → Config → List PStep → Node → Node → Prop where
  | member {a b : List Item} {k : Key} {e e'} : (∀ j ∈ b, j.key ≠ k.text) → k.text ≠ "__child_resource__" →
      k.text ≠ "depends_on" →
      NestedBody (.obj (a ++ .pair k e :: b)) (.obj (a ++ .pair k e' :: b)) [.key k.text] (.expr e) (.expr e')
  | memberLoop {a b : List Item} {k : Key} {l l'} : (∀ j ∈ b, j.key ≠ k.text) → k.text ≠ "__child_resource__" →
      k.text ≠ "depends_on" →
      NestedBody (.obj (a ++ .pairLoop k l :: b)) (.obj (a ++ .pairLoop k l' :: b)) [.key k.text] (.loop l) (.loop l')
  | loop {l l' π m m'} : Edit1 (.loop l) (.loop l') π m m' → NestedBody (.loop l) (.loop l') π m m'
  | cond {c c' e e' π m m'} : Edit1 (.config (.cond c e)) (.config (.cond c' e')) π m m' →
      NestedBody (.cond c e) (.cond c' e') π m m'

/-- `p.Edited p' π m m'`: the programs `p` and `p'` are alike, except that `p` has the piece `m` where
`p'` has `m'`; it is reported at the place `π`. -/
inductive Program.Edited : Program → Program → List PStep → Node → Node → Prop where
  | own {a b : Program} {l d d' s n κ m m' π k k'} : DeclEdit d d' κ m m' → Edit m m' π k k' →
      (s, n) ∈ d.ownName → (∀ q ∈ b, (s, n) ∉ q.2.ownName) →
      (s = "resources" → NotNested (a ++ (l, d) :: b) n) →
      Edited (a ++ (l, d) :: b) (a ++ (l, d') :: b) (.key s :: .key n :: (κ ++ π)) k k'
  | nested {a b : Program} {l ds x ta ex c c' rs i n r r' κ m m' π k k'} : NestedEdit c c' i r r' →
      r' = { r with config := r'.config } → NestedBody r.config r'.config κ m m' → Edit m m' π k k' →
      Chain c rs → (chainNames (txt x.1) rs)[i]? = some n → NotNested b n →
      Edited (a ++ (l, .resource ds x ta ex c) :: b) (a ++ (l, .resource ds x ta ex c') :: b)
        (.key "resources" :: .key n :: .key "config" :: (κ ++ π)) k k'

end Pycep
