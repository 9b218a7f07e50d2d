import Verif.Spec.Path
import Verif.Spec.FunTable
/-
Which pieces of syntax a program consists of, and where in the result each of them is found.
-/
namespace Pycep

/-- pieces of syntax -/
inductive Node where
  | expr (e : Expr)
  | loop (l : Loop)
  | head (h : LoopHead)
  | config (c : Config)
  | type (d : DataType)
  | deco (d : Deco)

/-- what represents a piece of syntax -/
def Node.val (ln : Bool) : Node → Except VErr Val
  | .expr e => e.val ln
  | .loop l => l.val ln
  | .head h => h.val ln
  | .config c => c.val ln
  | .type d => .ok d.val
  | .deco d => d.val ln

/-- key of a member of an object -/
def Item.key : Item → String
  | .pair k _ => k.text
  | .pairLoop k _ => k.text
  | .child _ _ _ _ _ => "__child_resource__"

/-- what a member of an object contains -/
def Item.node : Item → Node
  | .pair _ e => .expr e
  | .pairLoop _ l => .loop l
  | .child _ _ _ _ c => .config c

/-- `i` is the last member with the key `k` -/
def LastItem (is : List Item) (k : String) (i : Item) : Prop :=
  ∃ a b, is = a ++ i :: b ∧ i.key = k ∧ ∀ j ∈ b, j.key ≠ k

/-! ### All pieces -/

/-- the immediate pieces of a piece -/
inductive Part1 : Node → Node → Prop where
  | elem {es e} : e ∈ es → Part1 (.expr (.array es)) (.expr e)
  | member {is i} : i ∈ is → Part1 (.expr (.object is)) i.node
  | arg {f es e} : e ∈ es → Part1 (.expr (.call f es)) (.expr e)
  | left {op a b} : Part1 (.expr (.bin op a b)) (.expr a)
  | right {op a b} : Part1 (.expr (.bin op a b)) (.expr b)
  | not {a} : Part1 (.expr (.not a)) (.expr a)
  | minus {a} : Part1 (.expr (.minus a)) (.expr a)
  | cond {c t f} : Part1 (.expr (.cond c t f)) (.expr c)
  | condT {c t f} : Part1 (.expr (.cond c t f)) (.expr t)
  | condF {c t f} : Part1 (.expr (.cond c t f)) (.expr f)
  | method {a f args} : Part1 (.expr (.method a f args)) (.expr a)
  | methodArg {a f args e} : some e ∈ args → Part1 (.expr (.method a f args)) (.expr e)
  | lambdaV {v e} : Part1 (.expr (.lambda v e)) (.expr v)
  | lambdaB {v e} : Part1 (.expr (.lambda v e)) (.expr e)
  | lambdaNV {v1 v2 v3 vs e v} : v ∈ v1 :: v2 :: v3 :: vs →
      Part1 (.expr (.lambdaN v1 v2 v3 vs e)) (.expr v)
  | lambdaNB {v1 v2 v3 vs e} : Part1 (.expr (.lambdaN v1 v2 v3 vs e)) (.expr e)
  | loopHead {h c b} : Part1 (.loop (.mk h c b)) (.head h)
  | loopCond {h c b} : Part1 (.loop (.mk h (some c) b)) (.expr c)
  | loopBody {h c b} : Part1 (.loop (.mk h c b)) (.expr b)
  | headArr {x e} : Part1 (.head (.arr x e)) (.expr e)
  | headIdx {x i e} : Part1 (.head (.arrIdx x i e)) (.expr e)
  | headObj {x e} : Part1 (.head (.obj x e)) (.expr e)
  | configMember {is i} : i ∈ is → Part1 (.config (.obj is)) i.node
  | configLoop {l} : Part1 (.config (.loop l)) (.loop l)
  | configCond {c e} : Part1 (.config (.cond c e)) (.expr c)
  | configBody {c e} : Part1 (.config (.cond c e)) (.expr e)
  | decoArg {d e} : d.arg = some e → Part1 (.deco d) (.expr e)

/-- `Part n m`: `m` is a piece of `n`, at any depth -/
inductive Part : Node → Node → Prop where
  | refl {n} : Part n n
  | step {n m k} : Part n m → Part1 m k → Part n k

/-- the immediate pieces of a declaration -/
inductive DeclPart1 : Decl → Node → Prop where
  | extension {x is al i} : i ∈ is → DeclPart1 (.extension x (some is) al) i.node
  | paramDeco {ds x t o d} : d ∈ ds → DeclPart1 (.param ds x t o) (.deco d)
  | paramDefault {ds x t e} : DeclPart1 (.param ds x t (some e)) (.expr e)
  | varDeco {ds x t v d} : d ∈ ds → DeclPart1 (.var ds x t v) (.deco d)
  | varExpr {ds x t e} : DeclPart1 (.var ds x t (.expr e)) (.expr e)
  | varLoop {ds x t l} : DeclPart1 (.var ds x t (.loop l)) (.loop l)
  | outDeco {ds x t v d} : d ∈ ds → DeclPart1 (.output ds x t v) (.deco d)
  | outExpr {ds x t e} : DeclPart1 (.output ds x t (.expr e)) (.expr e)
  | outLoop {ds x t l} : DeclPart1 (.output ds x t (.loop l)) (.loop l)
  | resDeco {ds x b ex c d} : d ∈ ds → DeclPart1 (.resource ds x b ex c) (.deco d)
  | resConfig {ds x b ex c} : DeclPart1 (.resource ds x b ex c) (.config c)
  | modDeco {ds x b c d} : d ∈ ds → DeclPart1 (.module ds x b c) (.deco d)
  | modConfig {ds x b c} : DeclPart1 (.module ds x b c) (.config c)
  | typDeco {ds x e es d} : d ∈ ds → DeclPart1 (.typ ds x e es) (.deco d)
  | typExpr {ds x e es a} : a ∈ e :: es → DeclPart1 (.typ ds x e es) (.expr a)
  | funcDeco {ds x ps t e d} : d ∈ ds → DeclPart1 (.func ds x ps t e) (.deco d)
  | funcBody {ds x ps t e} : DeclPart1 (.func ds x ps t e) (.expr e)

/-- `p.Has n`: the piece `n` occurs somewhere in the program `p` -/
def Program.Has (p : Program) (n : Node) : Prop :=
  ∃ l d m, (l, d) ∈ p ∧ DeclPart1 d m ∧ Part m n

/-! ### Pieces and their places -/

/-- the path of an operand -/
def operandPath (k : String) : List PStep := [.key "operator", .key "operands", .key k]

/-- the name under which the argument with index `i` of a call of `f` with `n` arguments is
reported -/
inductive ArgKey (f : String) (n i : Nat) : String → Prop where
  | known {s ps k} : s ∈ signatures → f ∈ s.names →
      (∀ args, args.length = n → s.report args = .params ps) → (k, Src.arg i) ∈ ps → ArgKey f n i k
  | unknown : (∀ s ∈ signatures, f ∉ s.names) → ArgKey f n i ("arg_" ++ toString (i + 1))

/-- a condition of a loop that is reported as it is: not `if (...)`, which is read as a call of a
function `if`, and not an object that may look like one -/
def AsItIs : Expr → Prop
  | .call f _ => txt f.1 ≠ "if"
  | .object is => ∀ i ∈ is, i.key ≠ "function"
  | _ => True

/-- `Place1 n π m`: the immediate piece `m` of `n` is found at `π` in what represents `n` -/
inductive Place1 : Node → List PStep → Node → Prop where
  | elem {es : List Expr} {e i} : es[i]? = some e → Place1 (.expr (.array es)) [.idx i] (.expr e)
  | member {is k key e} : LastItem is k (.pair key e) →
      Place1 (.expr (.object is)) [.key k] (.expr e)
  | memberLoop {is k key l} : LastItem is k (.pairLoop key l) →
      Place1 (.expr (.object is)) [.key k] (.loop l)
  | arg {f : FunName} {es : List Expr} {e i k} : es[i]? = some e → ArgKey (txt f.1) es.length i k →
      Place1 (.expr (.call f es)) [.key "function", .key "parameters", .key k] (.expr e)
  | left {op a b} : Place1 (.expr (.bin op a b)) (operandPath "operand_1") (.expr a)
  | right {op a b} : Place1 (.expr (.bin op a b)) (operandPath "operand_2") (.expr b)
  | not {a} : Place1 (.expr (.not a)) (operandPath "bool_value") (.expr a)
  | minus {a} : Place1 (.expr (.minus a)) (operandPath "integer_value") (.expr a)
  | cond {c t f} : Place1 (.expr (.cond c t f)) (operandPath "condition") (.expr c)
  | condT {c t f} : Place1 (.expr (.cond c t f)) (operandPath "true_value") (.expr t)
  | condF {c t f} : Place1 (.expr (.cond c t f)) (operandPath "false_value") (.expr f)
  | method {a f args} : Place1 (.expr (.method a f args)) (operandPath "operand_1") (.expr a)
  | lambda {v e} : Place1 (.expr (.lambda v e)) [.key "detail", .key "expression"] (.expr e)
  | lambdaN {v1 v2 v3 vs e} :
      Place1 (.expr (.lambdaN v1 v2 v3 vs e)) [.key "detail", .key "expression"] (.expr e)
  | loopHead {h c b} : Place1 (.loop (.mk h c b)) [.key "loop_type"] (.head h)
  /-- the filter `if (c)` is represented by `c` -/
  | loopFilter {h b} {f : FunName} {c es} : txt f.1 = "if" →
      Place1 (.loop (.mk h (some (.call f (c :: es))) b)) [.key "condition"] (.expr c)
  | loopCond {h c b} : AsItIs c →
      Place1 (.loop (.mk h (some c) b)) [.key "condition"] (.expr c)
  | loopBody {h c b} : Place1 (.loop (.mk h c b)) [.key "config"] (.expr b)
  | headArr {x e} : Place1 (.head (.arr x e)) [.key "detail", .key "array_name"] (.expr e)
  | headIdx {x i e} : Place1 (.head (.arrIdx x i e)) [.key "detail", .key "array_name"] (.expr e)
  | configMember {is k key e} : LastItem is k (.pair key e) →
      Place1 (.config (.obj is)) [.key k] (.expr e)
  | configMemberLoop {is k key l} : LastItem is k (.pairLoop key l) →
      Place1 (.config (.obj is)) [.key k] (.loop l)
  | configLoop {l} : Place1 (.config (.loop l)) [] (.loop l)
  | configCond {c e} : Place1 (.config (.cond c e)) [.key "condition"] (.expr c)
  | configBody {c e} : Place1 (.config (.cond c e)) [.key "config"] (.expr e)
  | typeItem {b k} : Place1 (.type (.mk b (k + 1))) [.key "item_type"] (.type (.mk b k))
  | member1 {d1 d2 ds} : Place1 (.type (.mk (.union d1 d2 ds) 0)) [.key "members", .idx 0] (.type d1)
  | member2 {d1 d2 ds} : Place1 (.type (.mk (.union d1 d2 ds) 0)) [.key "members", .idx 1] (.type d2)
  | memberN {d1 d2} {ds : List DataType} {d i} : ds[i]? = some d →
      Place1 (.type (.mk (.union d1 d2 ds) 0)) [.key "members", .idx (i + 2)] (.type d)

/-- `Place n π m`: the piece `m` of `n` is found at `π` in what represents `n` -/
inductive Place : Node → List PStep → Node → Prop where
  | refl {n} : Place n [] n
  | step {n π m σ k} : Place n π m → Place1 m σ k → Place n (π ++ σ) k

/-- `DeclPlace1 d π n`: the piece `n` of the declaration `d` is found at `π` in its attributes -/
inductive DeclPlace1 : Decl → List PStep → Node → Prop where
  | paramDeco {ds : List Deco} {x t o d i} : ds[i]? = some d →
      DeclPlace1 (.param ds x t o) [.key "decorators", .idx i] (.deco d)
  | paramType {ds x t o} : DeclPlace1 (.param ds x t o) [.key "type"] (.type t)
  | paramDefault {ds x t e} : DeclPlace1 (.param ds x t (some e)) [.key "default"] (.expr e)
  | varDeco {ds : List Deco} {x t v d i} : ds[i]? = some d →
      DeclPlace1 (.var ds x t v) [.key "decorators", .idx i] (.deco d)
  | varType {ds x t v} : DeclPlace1 (.var ds x (some t) v) [.key "type"] (.type t)
  | varExpr {ds x t e} : DeclPlace1 (.var ds x t (.expr e)) [.key "value"] (.expr e)
  | varLoop {ds x t l} : DeclPlace1 (.var ds x t (.loop l)) [.key "value"] (.loop l)
  | outDeco {ds : List Deco} {x t v d i} : ds[i]? = some d →
      DeclPlace1 (.output ds x t v) [.key "decorators", .idx i] (.deco d)
  | outType {ds x t v} : DeclPlace1 (.output ds x t v) [.key "type"] (.type t)
  | outExpr {ds x t e} : DeclPlace1 (.output ds x t (.expr e)) [.key "value"] (.expr e)
  | outLoop {ds x t l} : DeclPlace1 (.output ds x t (.loop l)) [.key "value"] (.loop l)
  | resDeco {ds : List Deco} {x b ex c d i} : ds[i]? = some d →
      DeclPlace1 (.resource ds x b ex c) [.key "decorators", .idx i] (.deco d)
  /-- members of the body of a resource; nested resources are taken out -/
  | resMember {ds x b ex is k key e} : LastItem is k (.pair key e) → k ≠ "__child_resource__" →
      DeclPlace1 (.resource ds x b ex (.obj is)) [.key "config", .key k] (.expr e)
  | resMemberLoop {ds x b ex is k key l} : LastItem is k (.pairLoop key l) →
      k ≠ "__child_resource__" →
      DeclPlace1 (.resource ds x b ex (.obj is)) [.key "config", .key k] (.loop l)
  | resLoop {ds x b ex l} : DeclPlace1 (.resource ds x b ex (.loop l)) [.key "config"] (.loop l)
  | resCond {ds x b ex c e} : DeclPlace1 (.resource ds x b ex (.cond c e)) [.key "config"]
      (.config (.cond c e))
  | modDeco {ds : List Deco} {x b c d i} : ds[i]? = some d →
      DeclPlace1 (.module ds x b c) [.key "decorators", .idx i] (.deco d)
  | modConfig {ds x b c} : DeclPlace1 (.module ds x b c) [.key "config"] (.config c)
  | typDeco {ds : List Deco} {x e es d i} : ds[i]? = some d →
      DeclPlace1 (.typ ds x e es) [.key "decorators", .idx i] (.deco d)
  | typExpr {ds x e} : DeclPlace1 (.typ ds x e []) [.key "value"] (.expr e)
  | funcDeco {ds : List Deco} {x ps t e d i} : ds[i]? = some d →
      DeclPlace1 (.func ds x ps t e) [.key "decorators", .idx i] (.deco d)
  | funcType {ds x ps t e} : DeclPlace1 (.func ds x ps t e) [.key "type"] (.type t)
  | funcBody {ds x ps t e} : DeclPlace1 (.func ds x ps t e) [.key "expression"] (.expr e)
  | extConfig {x is al} : is ≠ [] →
      DeclPlace1 (.extension x (some is) al) [.key "config"] (.config (.obj is))

end Pycep
