import Verif.Spec.Syntax
import Verif.Proofs.CoreTree
/-
The tree and the tokens of a derivation are the tree and the tokens of a piece of syntax:
definitions and the part of the argument that does not look at individual rules.
-/
namespace Pycep

/-- What the (position-free) tree `c` and the tokens `w` of a derivation from a symbol look like;
`n` is the type of the token after `w`. -/
def ShapeW (X : Nat) (c : Tree) (w : List Tok) (n : Nat) : Prop :=
  match X with
  | N.start => ∃ p : Program, c = p.tree ∧ ProgSyn p w n
  | N.element => ∃ l d, c = Decl.tree l d ∧ DeclSyn d w n ∧ LinesOf l w
  | N.value => ∃ e : Expr, c = e.tree ∧ ESyn false e w n
  | N.value_brackets => ∃ e : Expr, c = e.tree ∧ ESyn true e w n
  | N._import_statement =>
    (∃ b q, kidsOf c = [tk T.QUOTED_INTERPOLATION (quote b)] ∧ w = [q] ∧ Quoted b q) ∨
    (∃ i b w1 f q, kidsOf c = [ImportItem.tree i, tk T.QUOTED_INTERPOLATION (quote b)] ∧
      w = w1 ++ [f, q] ∧ ImportSyn i w1 ∧ Kw "from" f ∧ Quoted b q) ∨
    (∃ (i : ImportItem) (is : List ImportItem) (b : List Char) (o : Tok) (w1 w2 : List Tok)
      (c' f q : Tok), kidsOf c =
        i.tree :: (is.map ImportItem.tree ++ [tk T.QUOTED_INTERPOLATION (quote b)]) ∧
      w = o :: (w1 ++ (w2 ++ [c', f, q])) ∧ Kw "{" o ∧ ImportSyn i w1 ∧ ImportTail is w2 ∧
      Kw "}" c' ∧ Kw "from" f ∧ Quoted b q)
  | N._func_statement => ∃ (name : Ident) (ps : List (Ident × DataType)) (ret : DataType)
      (body : Expr) (v p : Tok) (w1 : List Tok) (q : Tok) (w2 : List Tok) (a : Tok) (w3 : List Tok),
      kidsOf c = tk T.STRING name.1 :: (paramTrees ps ++ [ret.tree, body.tree]) ∧
      w = v :: p :: (w1 ++ (q :: (w2 ++ (a :: w3)))) ∧ Id name v ∧ Kw "(" p ∧ ParamsSyn ps w1 ∧
      Kw ")" q ∧ TypeSyn ret w2 ∧ Kw "=>" a ∧ ESyn true body w3 n ∧ NoInfix n
  | N.var_value => ∃ v : LoopOrExpr, c = v.tree ∧ ValueSyn v w n
  | N.output_value => ∃ v : LoopOrExpr, c = v.tree ∧ ValueSyn v w n
  | N.metadata_value => ∃ b q, c = nd "string" [tk T.QUOTED_INTERPOLATION (quote b)] ∧ w = [q] ∧
      Quoted b q
  | N.resource_value => ∃ g : Config, c = g.tree ∧ ConfigSyn g w n
  | N.module_value => ∃ g : Config, c = g.tree ∧ ConfigSyn g w n
  | N.child_resource => ∃ i : Item, c = i.tree ∧ ChildSyn i w n
  | N.type_value => ∃ e es w1 w2, c = typeValueTree e es ∧ w = w1 ++ w2 ∧
      ESyn true e w1 (nextT w2 n) ∧ AltTail es w2 n ∧ NoInfix n
  | N.data_type => ∃ d : DataType, c = d.tree ∧ TypeSyn d w
  | N.base_type => ∃ b : BaseType, c = b.tree ∧ BaseSyn b w
  | N.union_type => ∃ (d1 d2 : DataType) (ds : List DataType),
      c = nd "union_type" (d1.tree :: d2.tree :: DataType.trees ds) ∧ BaseSyn (.union d1 d2 ds) w
  | N.array_suffix => c = nd "array_suffix" [] ∧ ∃ u v, w = [u, v] ∧ Kw "[" u ∧ Kw "]" v
  | N.type_api_pair => ∃ b q, c = nd "type_api_pair" [tk T.QUOTED_INTERPOLATION (quote b)] ∧
      w = [q] ∧ Quoted b q
  | N.module_path => ∃ b q, c = nd "module_path" [tk T.QUOTED_INTERPOLATION (quote b)] ∧
      w = [q] ∧ Quoted b q
  | N.import_alias => ∃ i : ImportItem, c = i.tree ∧ ImportSyn i w
  | N.loop => ∃ l : Loop, c = l.tree ∧ LoopSyn l w n
  | N.loop_array => ∃ h : LoopHead, c = h.tree ∧ HeadSyn h w n
  | N.loop_array_index => ∃ h : LoopHead, c = h.tree ∧ HeadSyn h w n
  | N.loop_object => ∃ h : LoopHead, c = h.tree ∧ HeadSyn h w n
  | N.deploy_condition => ∃ a e, c = (Config.cond a e).tree ∧ ConfigSyn (.cond a e) w n
  | N.quoted_string => isMeta c = false ∧ ∃ k u, nd "key" [c] = Key.tree k ∧ w = [u] ∧ KeySyn k u
  | N.array => ∃ es, c = (Expr.array es).tree ∧ ESyn false (.array es) w n
  | N.object => ∃ is, c = nd "object" (Item.trees is) ∧ ObjSyn is w n
  | N.pair => ∃ i : Item, c = i.tree ∧ PairSyn i w n
  | N.key => ∃ k u, c = Key.tree k ∧ w = [u] ∧ KeySyn k u
  | N.lambda_expression => ∃ e : Expr, c = e.tree ∧ ESyn false e w n
  | N.decorator => ∃ d : Deco, c = d.tree ∧ DecoSyn d w
  | N.decorators => ∃ (d : Deco) (ds : List Deco), c = decosTree (d :: ds) ∧ DecosSyn (d :: ds) w
  | N.function => ∃ f es, c = (Expr.call f es).tree ∧ CallSyn f es w n
  | N.operator => ∃ e : Expr, c = e.tree ∧ ESyn false e w n
  | N.__start_star_0 => ∃ p : Program, kidsOf c = p.map (fun d => d.2.tree d.1) ∧ ProgSyn p w n
  | N.___import_statement_star_1 => ∃ is, kidsOf c = is.map ImportItem.tree ∧ ImportTail is w
  | N.___func_statement_star_2 => ∃ ps, kidsOf c = paramTrees ps ∧ ParamTail ps w
  | N.__child_resource_plus_3 => kidsOf c = [] ∧ Breaks w ∧ w ≠ []
  | N.__type_value_star_4 => ∃ e es, kidsOf c = Expr.trees (e :: es) ∧ AltTail (e :: es) w n ∧
      NoInfix n
  | N.__data_type_star_5 => ∃ k, kidsOf c = List.replicate k (nd "array_suffix" []) ∧ Suffixes k w
  | N.__union_type_plus_6 => ∃ d ds, kidsOf c = DataType.trees (d :: ds) ∧ TypeTail (d :: ds) w
  | N.__array_star_7 => ∃ e es, kidsOf c = Expr.trees (e :: es) ∧ ETail (e :: es) w n ∧ NoInfix n
  | N.__array_star_8 => ∃ es, kidsOf c = Expr.trees es ∧ Elems es w n
  | N.__object_star_9 => ∃ is, kidsOf c = Item.trees is ∧ PTail is w n
  | N.__object_star_10 => ∃ is, kidsOf c = Item.trees is ∧ Items is w n
  | N.__decorators_plus_11 => ∃ (d : Deco) (ds : List Deco), kidsOf c = (d :: ds).map Deco.tree ∧
      DecosSyn (d :: ds) w
  | N.__function_star_12 => ∃ es, kidsOf c = Expr.trees es ∧ FTail es w n
  | N.__function_accessor_plus_13 =>
    (kidsOf c = [.none] ∧ w = [] ∧ n ≠ T.COMMA) ∨
    (∃ es e, kidsOf c = Expr.optTrees ((es ++ [e]).map some) ∧ ETail (es ++ [e]) w n)
  | t => if t < 128 then ∃ u, c = tk t u.text ∧ w = [u] ∧ u.type = t ∧ TokText t u.text
    else ∃ e : Expr, nd "operator" [c] = e.tree ∧ ESyn false e w n

/-- `FitsW ss cs w n`: trees and tokens of a sequence of symbols. -/
inductive FitsW : List Nat → List Tree → List Tok → Nat → Prop where
  | nil {n} : FitsW [] [] [] n
  | one {s c w n} : ShapeW s c w n → FitsW [s] [c] w n
  | cons {s ss c cs w₁ w₂ n} : ss ≠ [] → ShapeW s c w₁ (nextT w₂ n) → FitsW ss cs w₂ n →
      FitsW (s :: ss) (c :: cs) (w₁ ++ w₂) n

theorem fitsW_nil {cs w n} : FitsW [] cs w n ↔ cs = [] ∧ w = [] := by
  constructor
  · intro h; cases h; exact ⟨rfl, rfl⟩
  · rintro ⟨rfl, rfl⟩; exact .nil
theorem fitsW_one {s cs w n} : FitsW [s] cs w n ↔ ∃ c, cs = [c] ∧ ShapeW s c w n := by
  constructor
  · intro h
    cases h with
    | one h => exact ⟨_, rfl, h⟩
    | cons h => exact absurd rfl h
  · rintro ⟨_, rfl, h⟩; exact .one h
theorem fitsW_cons {s s' ss cs w n} : FitsW (s :: s' :: ss) cs w n ↔
    ∃ c cs' w₁ w₂, cs = c :: cs' ∧ w = w₁ ++ w₂ ∧ ShapeW s c w₁ (nextT w₂ n) ∧
      FitsW (s' :: ss) cs' w₂ n := by
  constructor
  · intro h
    cases h with
    | cons _ h1 h2 => exact ⟨_, _, _, _, rfl, rfl, h1, h2⟩
  · rintro ⟨_, _, _, _, rfl, rfl, h1, h2⟩; exact .cons (by simp) h1 h2

theorem FitsW.mk {s ss c cs w₁ w₂ n} (h1 : ShapeW s c w₁ (nextT w₂ n)) (h2 : FitsW ss cs w₂ n) :
    FitsW (s :: ss) (c :: cs) (w₁ ++ w₂) n := by
  cases h2 with
  | nil => rw [List.append_nil]; exact .one h1
  | one h => exact .cons (by simp) h1 (.one h)
  | cons h0 h h' => exact .cons (by simp) h1 (.cons h0 h h')

/-- The node of a rule, without positions, on lines `l`. -/
def coreBuild (r : Rule) (cs : List Tree) (l : Lines) : Tree :=
  match r.expand1, keepKids r cs with
  | true, [c] => c
  | _, ks => mkCore r.name ks l

/-- What has to be shown for a rule. -/
def RuleOK (r : Rule) : Prop := ∀ cs w n l, FitsW r.rhs cs w n → CanReduce r n →
  (metaNodes.contains r.name = true → LinesOf l w) →
  ShapeW r.lhs (coreBuild r cs l) w n ∧
    (r.expand1 = true → isMeta (coreBuild r cs l) = false)

/-! ### Positions -/

/-- lines of the first and last token -/
def wordLines (w : List Tok) : Option Lines :=
  match w.head?, w.getLast? with
  | some u, some v => some (u.line, v.endLine)
  | _, _ => .none

theorem wordLines_append {a b : List Tok} : wordLines (a ++ b) =
    match wordLines a, wordLines b with
    | some x, some y => some (x.1, y.2)
    | some x, .none => some x
    | .none, y => y := by
  unfold wordLines
  cases ha : a with
  | nil => simp
  | cons u a' =>
    cases hb : b with
    | nil =>
      simp only [List.append_nil, List.head?_cons, List.getLast?_nil, List.head?_nil]
      cases h : (u :: a').getLast? with
      | none => simp at h
      | some v => rfl
    | cons v b' =>
      simp only [List.cons_append, List.head?_cons]
      have e : (u :: (a' ++ v :: b')).getLast? = (v :: b').getLast? := by
        rw [← List.cons_append, List.getLast?_append]
        cases h : (v :: b').getLast? with
        | none => simp at h
        | some x => rfl
      rw [e]
      cases h : (v :: b').getLast? with
      | none => simp at h
      | some x =>
        cases h' : (u :: a').getLast? with
        | none => simp at h'
        | some y => rfl

theorem wordLines_linesOf {w l} (h : wordLines w = some l) : LinesOf l w := by
  unfold wordLines at h
  cases h1 : w.head? with
  | none => rw [h1] at h; simp at h
  | some u =>
    cases h2 : w.getLast? with
    | none => rw [h1, h2] at h; simp at h
    | some v =>
      rw [h1, h2] at h
      simp only [Option.some.injEq] at h
      exact ⟨u, v, h1, h2, h.symm⟩

/-- lines covered by a list of trees, as the tree builder sees them -/
def treeLines (ts : List Tree) : Option Lines :=
  match firstLines ts, firstLines ts.reverse with
  | some f, some l => some (f.1, l.2)
  | _, _ => .none

theorem firstLines_append (a b : List Tree) : firstLines (a ++ b) =
    match firstLines a with | some x => some x | .none => firstLines b := by
  induction a with
  | nil => rfl
  | cons t a ih =>
    simp only [List.cons_append, firstLines, ih]
    cases t.lines? <;> rfl

theorem treeLines_cons (t : Tree) (ts : List Tree) : treeLines (t :: ts) =
    match t.lines?, treeLines ts with
    | some x, some y => some (x.1, y.2)
    | some x, .none => some x
    | .none, y => y := by
  have hts : (firstLines ts = .none ↔ firstLines ts.reverse = .none) := by
    induction ts with
    | nil => simp
    | cons a ts ih =>
      rw [List.reverse_cons, firstLines_append]
      simp only [firstLines]
      cases a.lines? with
      | some x =>
        cases firstLines ts.reverse <;> simp
      | none =>
        simp only
        rw [ih]
        cases firstLines ts.reverse <;> simp
  unfold treeLines
  rw [List.reverse_cons, firstLines_append]
  simp only [firstLines]
  cases h1 : t.lines? with
  | some x =>
    cases h2 : firstLines ts with
    | none => rw [hts.mp h2]
    | some y =>
      cases h3 : firstLines ts.reverse with
      | none => rw [hts.mpr h3] at h2
      | some z => rfl
  | none =>
    cases h2 : firstLines ts with
    | none => rw [hts.mp h2]
    | some y =>
      cases h3 : firstLines ts.reverse with
      | none => rw [hts.mpr h3] at h2
      | some z => rfl

/-- symbols that may be represented by a bare token -/
def tokenSym (s : Nat) : Bool := s < 128 || s == N.quoted_string

/-- Rules whose node may be replaced by its only child: the child is a node, or it is all there
is. -/
theorem expand_rules : (rules.all (fun r => !r.expand1 ||
    (r.tailNones == 0 && (match r.keep with
     | (i, false, 0) :: ks => (ks.isEmpty || ks.all (fun k => k.2.1 && k.2.2 == 0)) &&
        (match r.rhs[i]? with
         | some s => !tokenSym s || (r.rhs.length == 1 && r.lhs == N.quoted_string)
         | .none => false)
     | _ => false)))) = true := by
  decide +kernel

theorem rules_nt : (rules.all (fun r => 128 ≤ r.lhs)) = true := by decide +kernel

/-- the tree of a symbol is a node, unless the symbol may be a bare token -/
def NodeOrTok (s : Nat) (t : Tree) : Prop := t ≠ .none ∧ ∀ x, t = .tok x → tokenSym s = true

theorem expand_kid {r : Rule} (hr : r ∈ rules) (hx : r.expand1 = true) {kids : List Tree} {k : Tree}
    (hk : keepKids r kids = [k]) (hf : List.Forall₂ NodeOrTok r.rhs kids) :
    k ∈ kids ∧ k ≠ .none ∧ ∀ x, k = .tok x → kids = [k] ∧ r.lhs = N.quoted_string := by
  have h := List.all_eq_true.mp expand_rules r hr
  rw [hx] at h
  simp only [Bool.not_true, Bool.false_or, Bool.and_eq_true, beq_iff_eq] at h
  obtain ⟨ht, h⟩ := h
  unfold keepKids at hk
  rw [ht] at hk
  split at h
  · rename_i i ks hkeep
    rw [hkeep] at hk
    simp only [Bool.and_eq_true] at h
    obtain ⟨hks, h⟩ := h
    split at h
    · rename_i s hs
      obtain ⟨hlt, hs'⟩ := List.getElem?_eq_some_iff.mp hs
      have hlt' : i < kids.length := by rw [← hf.length_eq]; exact hlt
      have hc : kids[i]? = some kids[i] := List.getElem?_eq_getElem hlt'
      have hno : NodeOrTok s kids[i] := by
        have := hf.get hlt hlt'
        simpa [hs'] using this
      simp only [List.flatMap_cons, List.replicate_zero, List.nil_append, List.append_nil, hc,
        Bool.false_eq_true, if_false, List.cons_append, List.cons.injEq] at hk
      obtain ⟨rfl, _⟩ := hk
      refine ⟨List.getElem_mem _, hno.1, fun x hx' => ?_⟩
      have := hno.2 x hx'
      rw [this] at h
      simp only [Bool.not_true, Bool.false_or, Bool.and_eq_true, beq_iff_eq] at h
      have hl := hf.length_eq
      rw [h.1] at hl
      refine ⟨?_, h.2⟩
      match kids, hl, hlt' with
      | [a], _, hlt' =>
        have : i = 0 := by simp at hlt'; omega
        subst this
        rfl
    · simp at h
  · simp at h

theorem firstLines_mem {ts : List Tree} (h : firstLines ts = .none) : ∀ t ∈ ts, t.lines? = .none := by
  induction ts with
  | nil => simp
  | cons a ts ih =>
    simp only [firstLines] at h
    cases ha : a.lines? with
    | some x => rw [ha] at h; simp at h
    | none =>
      rw [ha] at h
      intro t ht
      rcases List.mem_cons.mp ht with rfl | ht
      · exact ha
      · exact ih h t ht

theorem setSpan_lines {res : Tree} {kids : List Tree}
    (h : (∃ d ks, res = .node d ks .none) ∨
      (res ∈ kids ∧ res ≠ .none ∧ ∀ x, res = .tok x → kids = [res])) :
    (setSpan res kids).lines? = treeLines kids := by
  have hnone : treeLines kids = .none → ∀ t ∈ kids, t.lines? = .none := by
    intro h t ht
    unfold treeLines at h
    cases h1 : firstLines kids with
    | none => exact firstLines_mem h1 t ht
    | some x =>
      cases h2 : firstLines kids.reverse with
      | none => exact firstLines_mem h2 t (by simpa using ht)
      | some y => rw [h1, h2] at h; simp at h
  cases res with
  | none => rcases h with ⟨_, _, h⟩ | ⟨_, h, _⟩ <;> simp at h
  | tok x =>
    rcases h with ⟨_, _, h⟩ | ⟨_, _, h⟩
    · simp at h
    · rw [h x rfl]
      simp [setSpan, treeLines, firstLines, Tree.lines?]
  | node d ks sp =>
    unfold setSpan
    unfold treeLines
    cases h1 : firstLines kids with
    | some f =>
      cases h2 : firstLines kids.reverse with
      | some l =>
        simp only
        cases sp <;> rfl
      | none =>
        simp only
        rcases h with ⟨_, _, h⟩ | ⟨h, _⟩
        · cases h; rfl
        · exact firstLines_mem h2 _ (by simpa using h)
    | none =>
      simp only
      rcases h with ⟨_, _, h⟩ | ⟨h, _⟩
      · cases h; rfl
      · exact firstLines_mem h1 _ h

theorem setSpan_nodeOrTok {res kids s} (h : NodeOrTok s res) : NodeOrTok s (setSpan res kids) := by
  unfold setSpan
  cases res with
  | none => exact h
  | tok _ => exact h
  | node d ks sp =>
    simp only
    split
    · split <;> exact ⟨by simp, by simp⟩
    · exact h

theorem build_lines {r : Rule} (hr : r ∈ rules) {kids : List Tree}
    (hf : List.Forall₂ NodeOrTok r.rhs kids) :
    (buildNode r kids).lines? = treeLines kids ∧ NodeOrTok r.lhs (buildNode r kids) := by
  unfold buildNode
  simp only
  cases hx : r.expand1 with
  | false =>
    exact ⟨setSpan_lines (.inl ⟨_, _, rfl⟩), setSpan_nodeOrTok ⟨by simp, by simp⟩⟩
  | true =>
    cases hk : keepKids r kids with
    | nil => exact ⟨setSpan_lines (.inl ⟨_, _, rfl⟩), setSpan_nodeOrTok ⟨by simp, by simp⟩⟩
    | cons k ks =>
      cases ks with
      | cons _ _ => exact ⟨setSpan_lines (.inl ⟨_, _, rfl⟩), setSpan_nodeOrTok ⟨by simp, by simp⟩⟩
      | nil =>
        obtain ⟨h1, h2, h3⟩ := expand_kid hr hx hk hf
        exact ⟨setSpan_lines (.inr ⟨h1, h2, fun x hx => (h3 x hx).1⟩),
          setSpan_nodeOrTok ⟨h2, fun x hx => by rw [(h3 x hx).2]; rfl⟩⟩

/-- The lines of trees are those of their tokens. -/
theorem derL_lines {ss ts w n} (h : DerL ss ts w n) (hw : ∀ t ∈ w, t.type < tEND) :
    treeLines ts = wordLines w ∧ List.Forall₂ NodeOrTok ss ts := by
  induction h with
  | nil => exact ⟨rfl, .nil⟩
  | @tok ss ts w n t _ ih =>
    obtain ⟨ih1, ih2⟩ := ih (fun u hu => hw u (by simp [hu]))
    refine ⟨?_, .cons ⟨by simp, fun _ _ => ?_⟩ ih2⟩
    · rw [treeLines_cons, show t :: w = [t] ++ w from rfl, wordLines_append, ih1]; rfl
    · have := hw t (by simp)
      unfold tEND at this
      simp only [tokenSym, Bool.or_eq_true, decide_eq_true_eq]
      left; omega
  | @node ss ts w kids w₁ n r hr hc hk h ih1 ih2 =>
    obtain ⟨a1, a2⟩ := ih1 (fun u hu => hw u (by simp [hu]))
    obtain ⟨b1, b2⟩ := ih2 (fun u hu => hw u (by simp [hu]))
    obtain ⟨c1, c2⟩ := build_lines hr a2
    refine ⟨?_, .cons c2 b2⟩
    rw [treeLines_cons, wordLines_append, b1, c1, a1]
    rfl

/-! ### From derivations to syntax -/

theorem setSpan_mkCore {d : String} {ks kids : List Tree} {l : Lines}
    (hm : metaNodes.contains d = true → treeLines kids = some l) :
    (setSpan (.node d ks .none) kids).core = mkCore d (coreList ks) l := by
  cases hd : metaNodes.contains d with
  | true =>
    have h := hm hd
    unfold treeLines at h
    unfold setSpan
    cases h1 : firstLines kids with
    | none => rw [h1] at h; simp at h
    | some f =>
      cases h2 : firstLines kids.reverse with
      | none => rw [h1, h2] at h; simp at h
      | some g =>
        rw [h1, h2] at h
        simp only [Option.some.injEq] at h
        subst h
        simp only [Tree.core, mkCore, coreSpan, hd, if_true, ndl, Option.map_some]
  | false =>
    rw [setSpan_core_nometa _ (by simpa [isMeta] using hd)]
    simp only [mkCore, hd, Tree.core, coreSpan, nd, Bool.false_eq_true, if_false]

theorem core_build {r : Rule} {kids : List Tree} {l : Lines}
    (hm : metaNodes.contains r.name = true → treeLines kids = some l)
    (hx : r.expand1 = true → isMeta (coreBuild r (coreList kids) l) = false) :
    (buildNode r kids).core = coreBuild r (coreList kids) l := by
  unfold buildNode coreBuild at *
  rw [← core_keep] at *
  cases hr : r.expand1 with
  | false => exact setSpan_mkCore hm
  | true =>
    cases hk : keepKids r kids with
    | nil => exact setSpan_mkCore hm
    | cons k ks =>
      cases ks with
      | cons _ _ => exact setSpan_mkCore hm
      | nil =>
        have := hx hr
        rw [hr, hk] at this
        simp only [coreList] at this ⊢
        exact setSpan_core_nometa _ (by simpa using this)

/-- Trees and tokens of derivations are those of syntax, if all rules are fine and the tokens have
the texts their types allow. -/
theorem derL_shape (hp : ∀ r ∈ rules, RuleOK r) {ss ts w n} (h : DerL ss ts w n)
    (hw : ∀ t ∈ w, t.type < tEND ∧ TokText t.type t.text) : FitsW ss (coreList ts) w n := by
  induction h with
  | nil => exact .nil
  | @tok ss ts w n t _ ih =>
    simp only [coreList]
    refine FitsW.mk (w₁ := [t]) ?_ (ih (fun u hu => hw u (List.mem_cons_of_mem _ hu)))
    obtain ⟨hlt, ht⟩ := hw t (by simp)
    have h128 : t.type < 128 := by unfold tEND at hlt; omega
    unfold ShapeW
    split <;> first
      | omega
      | (rw [if_pos h128]; exact ⟨t, rfl, rfl, rfl, ht⟩)
  | @node ss ts w kids w₁ n r hr hc hk _ ih1 ih2 =>
    simp only [coreList]
    refine FitsW.mk ?_ (ih2 (fun u hu => hw u (List.mem_append_right _ hu)))
    have h1 := ih1 (fun u hu => hw u (List.mem_append_left _ hu))
    have hlines := (derL_lines hk (fun u hu => (hw u (List.mem_append_left _ hu)).1)).1
    have hex : ∃ l, metaNodes.contains r.name = true → treeLines kids = some l := by
      cases hm : metaNodes.contains r.name with
      | false => exact ⟨(0, 0), fun h => by simp at h⟩
      | true =>
        obtain ⟨u, hu⟩ := meta_kids hr hk.der hm
        obtain ⟨f, hf⟩ := lines_tok_mem hu
        obtain ⟨g, hg⟩ := lines_tok_mem (List.mem_reverse.mpr hu)
        exact ⟨(f.1, g.2), fun _ => by unfold treeLines; rw [hf, hg]⟩
    obtain ⟨l, hl⟩ := hex
    obtain ⟨k1, k2⟩ := hp r hr _ _ _ l h1 hc
      (fun hm => wordLines_linesOf (by rw [← hlines]; exact hl hm))
    rw [core_build hl k2]
    exact k1

end Pycep
