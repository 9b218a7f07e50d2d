import Verif.Proofs.SynDef
import Verif.Proofs.LRSound
/-
What the look-ahead of a reduction excludes (a kernel-checked fact about the table), and the tokens
of each terminal.
-/
set_option linter.style.nameCheck false
namespace Pycep

/-- `t` has one of the texts of `infixSigns` -/
def isInfix (t : Nat) : Bool :=
  match fixedText t with
  | some s => infixSigns.contains s
  | .none => false

/-- Reductions that the table does not contain: what ends with an operand in front of an infix
operator, an operand without `!` in front of `!`, `k: v ?` in front of something that starts a
value, a nested resource in front of a line break, and useless ones. -/
def badReduce (r : Rule) (t : Nat) : Bool :=
  (r.rhs.getLast? == some N.value_brackets && isInfix t) ||
  (r.lhs == N.value_brackets && r.rhs.getLast? != some T.BANG && t == T.BANG) ||
  (r.rhs == [N.key, T.COLON, N.value_brackets, T.QMARK] &&
    (t == T.STRING || t == T.QUOTED_INTERPOLATION)) ||
  (r.lhs == N.child_resource && t == T._CPP_COMMENT_NL) ||
  (r.rhs == [N.__function_accessor_plus_13]) ||
  (r.rhs == [] && r.lhs == N.__function_accessor_plus_13 && t == T.COMMA)

def reduceAllowed (s t : Nat) : Bool :=
  match action s t with
  | .reduce i => match rules[i]? with
    | some r => !badReduce r t
    | .none => true
  | _ => true

theorem check_reduce : (List.range numStates).all (fun s =>
    (List.range numTerms).all (fun t => reduceAllowed s t)) = true := by decide +kernel

theorem CanReduce.good {r n} (h : CanReduce r n) : badReduce r n = false := by
  obtain ⟨i, s, hr, hs, ha⟩ := h
  have hn : n < numTerms := by
    rcases Nat.lt_or_ge n numTerms with h | h
    · exact h
    · rw [action_ge h] at ha; cases ha
  have h1 := List.all_eq_true.mp check_reduce s (List.mem_range.mpr hs)
  have h2 := List.all_eq_true.mp h1 n (List.mem_range.mpr hn)
  simp only [reduceAllowed, ha, hr, Bool.not_eq_true'] at h2
  exact h2

theorem CanReduce.noInfix {r n} (h : CanReduce r n) (hl : r.rhs.getLast? = some N.value_brackets) :
    NoInfix n := by
  have h := h.good
  unfold badReduce at h
  simp only [Bool.or_eq_false_iff, hl, beq_self_eq_true, Bool.true_and] at h
  have h := h.1.1.1.1.1
  unfold isInfix at h
  intro s hs e
  rw [e] at h
  simp only [List.contains_eq_mem, decide_eq_false_iff_not] at h
  exact h hs

theorem CanReduce.noBang {r n} (h : CanReduce r n) (hl : r.lhs = N.value_brackets)
    (hr : r.rhs.getLast? ≠ some T.BANG) : NoBang n := by
  have hn : n ≠ T.BANG := by
    have h := h.good
    unfold badReduce at h
    simp only [Bool.or_eq_false_iff, hl, beq_self_eq_true, Bool.true_and] at h
    have h := h.1.1.1.1.2
    intro e
    subst e
    simp [hr] at h
  intro e
  obtain ⟨i, s, _, _, ha⟩ := h
  rcases Nat.lt_or_ge n numTerms with h | h
  · have : ∀ n < numTerms, fixedText n = some "!" → n = T.BANG := by decide
    exact hn (this n h e)
  · rw [action_ge h] at ha; cases ha

theorem CanReduce.pairOpt {r n} (h : CanReduce r n)
    (hr : r.rhs = [N.key, T.COLON, N.value_brackets, T.QMARK]) :
    n ≠ T.STRING ∧ n ≠ T.QUOTED_INTERPOLATION := by
  have h := h.good
  unfold badReduce at h
  simp only [Bool.or_eq_false_iff, hr, beq_self_eq_true, Bool.true_and] at h
  simpa using h.1.1.1.2

theorem CanReduce.childNL {r n} (h : CanReduce r n) (hr : r.lhs = N.child_resource) :
    n ≠ T._CPP_COMMENT_NL := by
  have h := h.good
  unfold badReduce at h
  simp only [Bool.or_eq_false_iff, hr, beq_self_eq_true, Bool.true_and] at h
  simpa using h.1.1.2

theorem CanReduce.loop13 {r n} (h : CanReduce r n) (hr : r.rhs = [N.__function_accessor_plus_13]) :
    False := by
  have h := h.good
  unfold badReduce at h
  simp [hr] at h

theorem CanReduce.empty13 {r n} (h : CanReduce r n) (hr : r.rhs = [])
    (hl : r.lhs = N.__function_accessor_plus_13) : n ≠ T.COMMA := by
  have h := h.good
  unfold badReduce at h
  simp only [Bool.or_eq_false_iff, hr, hl, beq_self_eq_true, Bool.true_and] at h
  simpa using h.2

/-- `keepKids` with named access to children -/
def keepKids' (r : Rule) (cs : List Tree) : List Tree :=
  (r.keep.flatMap (fun (i, inline, nones) =>
    List.replicate nones Tree.none ++
      (match cs[i]? with
       | .none => []
       | some k => if inline then kidsOf k else [k]))) ++ List.replicate r.tailNones Tree.none

theorem keepKids_eq (r : Rule) (cs : List Tree) : keepKids r cs = keepKids' r cs := by
  unfold keepKids keepKids'
  congr 1

/-- an ordinary rule -/
theorem ruleOK_node {lhs rhs name keep tail} (h : ∀ cs w n l, FitsW rhs cs w n →
    CanReduce ⟨lhs, rhs, name, false, keep, tail⟩ n →
    (metaNodes.contains name = true → LinesOf l w) →
    ShapeW lhs (mkCore name (keepKids' ⟨lhs, rhs, name, false, keep, tail⟩ cs) l) w n) :
    RuleOK ⟨lhs, rhs, name, false, keep, tail⟩ := by
  intro cs w n l hf hc hl
  refine ⟨?_, fun h => by simp at h⟩
  unfold coreBuild
  rw [keepKids_eq]
  exact h cs w n l hf hc hl

/-- a `?rule` that is replaced by its child -/
theorem ruleOK_ex {lhs rhs name keep tail} (h : ∀ cs w n, FitsW rhs cs w n →
    CanReduce ⟨lhs, rhs, name, true, keep, tail⟩ n →
    ∃ c, keepKids' ⟨lhs, rhs, name, true, keep, tail⟩ cs = [c] ∧ isMeta c = false ∧
      ShapeW lhs c w n) :
    RuleOK ⟨lhs, rhs, name, true, keep, tail⟩ := by
  intro cs w n l hf hc hl
  obtain ⟨c, h1, h2, h3⟩ := h cs w n hf hc
  unfold coreBuild
  rw [keepKids_eq, h1]
  exact ⟨h3, fun _ => h2⟩

/-- a `?rule` that is not -/
theorem ruleOK_long {lhs rhs name keep tail} (hm : metaNodes.contains name = false)
    (h : ∀ cs w n l, FitsW rhs cs w n →
    CanReduce ⟨lhs, rhs, name, true, keep, tail⟩ n →
    (keepKids' ⟨lhs, rhs, name, true, keep, tail⟩ cs).length ≠ 1 ∧
    ShapeW lhs (mkCore name (keepKids' ⟨lhs, rhs, name, true, keep, tail⟩ cs) l) w n) :
    RuleOK ⟨lhs, rhs, name, true, keep, tail⟩ := by
  intro cs w n l hf hc hl
  obtain ⟨h1, h2⟩ := h cs w n l hf hc
  have e : coreBuild ⟨lhs, rhs, name, true, keep, tail⟩ cs l =
      mkCore name (keepKids' ⟨lhs, rhs, name, true, keep, tail⟩ cs) l := by
    unfold coreBuild
    rw [keepKids_eq]
    revert h1
    generalize keepKids' _ cs = ks
    intro h1
    match ks, h1 with
    | [], _ => rfl
    | _ :: _ :: _, _ => rfl
  rw [e]
  refine ⟨h2, fun _ => ?_⟩
  unfold mkCore
  rw [hm]
  simpa [isMeta, nd] using hm

theorem shw_tok {t : Nat} {c w n} (h : t < 128) :
    ShapeW t c w n ↔ ∃ u, c = tk t u.text ∧ w = [u] ∧ u.type = t ∧ TokText t u.text := by
  unfold ShapeW
  split <;> first
    | omega
    | (rw [if_pos h])

theorem shw_kw {t : Nat} {s : String} {c w n} (h : t < 128) (hf : fixedText t = some s)
    (ht : ∀ x, TokText t x → ∃ d s, term? t = some d ∧ d.strVal = some s ∧ x = s.toList) :
    ShapeW t c w n → ∃ u, c = tk t s.toList ∧ w = [u] ∧ Kw s u := by
  rw [shw_tok h]
  rintro ⟨u, rfl, rfl, h1, h2⟩
  obtain ⟨d, s', hd, hs, hx⟩ := ht _ h2
  have : s' = s := by
    unfold fixedText at hf
    rw [hd] at hf
    simp only [Option.bind_some] at hf
    rw [hs] at hf
    simpa using hf
  subst this
  exact ⟨u, by rw [hx], rfl, by rw [h1]; exact hf, hx⟩

theorem shw_STRING {c w n} (h : ShapeW T.STRING c w n) :
    ∃ (x : Ident) (u : Tok), c = tk T.STRING x.1 ∧ w = [u] ∧ Id x u := by
  obtain ⟨u, rfl, rfl, h1, h2⟩ := (shw_tok (by decide)).mp h
  exact ⟨⟨u.text, h2⟩, u, rfl, rfl, h1, rfl⟩
theorem shw_INT {c w n} (h : ShapeW T.INT c w n) :
    ∃ (x : Digits) (u : Tok), c = tk T.INT x.1 ∧ w = [u] ∧ Num x u := by
  obtain ⟨u, rfl, rfl, h1, h2⟩ := (shw_tok (by decide)).mp h
  exact ⟨⟨u.text, h2⟩, u, rfl, rfl, h1, rfl⟩
theorem shw_LIST_FUNC_NAME {c w n} (h : ShapeW T.LIST_FUNC_NAME c w n) :
    ∃ (x : ListName) (u : Tok), c = tk T.LIST_FUNC_NAME x.1 ∧ w = [u] ∧ Method x u := by
  obtain ⟨u, rfl, rfl, h1, h2⟩ := (shw_tok (by decide)).mp h
  exact ⟨⟨u.text, h2⟩, u, rfl, rfl, h1, rfl⟩
theorem shw___ANON_2 {c w n} (h : ShapeW T.__ANON_2 c w n) :
    ∃ (x : DecoName) (u : Tok), c = tk T.__ANON_2 x.1 ∧ w = [u] ∧ DecoId x u := by
  obtain ⟨u, rfl, rfl, h1, h2⟩ := (shw_tok (by decide)).mp h
  exact ⟨⟨u.text, h2⟩, u, rfl, rfl, h1, rfl⟩
theorem shw_FUNCTION {c w n} (h : ShapeW T.FUNCTION c w n) :
    ∃ (x : FunName) (u : Tok), c = tk T.FUNCTION (x.1 ++ ['(']) ∧ w = [u] ∧ Fun x u := by
  obtain ⟨u, rfl, rfl, h1, h2⟩ := (shw_tok (by decide)).mp h
  have h3 : IsFunctionText u.text := h2
  obtain ⟨p, m, hx, hp⟩ := h3
  exact ⟨⟨p ++ m, p, m, rfl, hp⟩, u, by rw [hx], rfl, h1, hx⟩
theorem shw_QUOTED_INTERPOLATION {c w n} (h : ShapeW T.QUOTED_INTERPOLATION c w n) :
    ∃ (b : List Char) (u : Tok), c = tk T.QUOTED_INTERPOLATION (quote b) ∧ w = [u] ∧ Quoted b u := by
  obtain ⟨u, rfl, rfl, h1, b, h2⟩ := (shw_tok (by decide)).mp h
  exact ⟨b, u, by rw [h2]; rfl, rfl, h1, h2⟩
theorem shw_QUOTED_STRING {c w n} (h : ShapeW T.QUOTED_STRING c w n) :
    ∃ (b : List Char) (u : Tok), c = tk T.QUOTED_STRING (quote b) ∧ w = [u] ∧ QuotedWord b u := by
  obtain ⟨u, rfl, rfl, h1, b, h2, _⟩ := (shw_tok (by decide)).mp h
  exact ⟨b, u, by rw [h2]; rfl, rfl, h1, h2⟩
theorem shw_MULTI_LINE_STRING {c w n} (h : ShapeW T.MULTI_LINE_STRING c w n) :
    ∃ (b : List Char) (u : Tok), c = tk T.MULTI_LINE_STRING (quote3 b) ∧ w = [u] ∧ Multi b u := by
  obtain ⟨u, rfl, rfl, h1, b, h2⟩ := (shw_tok (by decide)).mp h
  exact ⟨b, u, by rw [h2]; rfl, rfl, h1, h2⟩
theorem shw___ANON_1 {c w n} (h : ShapeW T.__ANON_1 c w n) :
    ∃ u : Tok, c = tk T.__ANON_1 ['*'] ∧ w = [u] ∧ Star u := by
  obtain ⟨u, rfl, rfl, h1, h2⟩ := (shw_tok (by decide)).mp h
  have h2 : u.text = ['*'] := h2
  exact ⟨u, by rw [h2], rfl, h1, h2⟩
theorem shw__NEWLINE {c w n} (h : ShapeW T._NEWLINE c w n) :
    ∃ u : Tok, w = [u] ∧ u.type = T._NEWLINE := by
  obtain ⟨u, _, rfl, h1, _⟩ := (shw_tok (by decide)).mp h
  exact ⟨u, rfl, h1⟩
theorem shw__CPP_COMMENT_NL {c w n} (h : ShapeW T._CPP_COMMENT_NL c w n) :
    ∃ u : Tok, w = [u] ∧ u.type = T._CPP_COMMENT_NL := by
  obtain ⟨u, _, rfl, h1, _⟩ := (shw_tok (by decide)).mp h
  exact ⟨u, rfl, h1⟩
theorem shw_TARGETSCOPE {c w n} (h : ShapeW T.TARGETSCOPE c w n) :
    ∃ u : Tok, c = tk T.TARGETSCOPE "targetScope".toList ∧ w = [u] ∧ Kw "targetScope" u :=
  shw_kw (by decide) rfl (fun _ h => h) h
theorem shw_EXTENSION {c w n} (h : ShapeW T.EXTENSION c w n) :
    ∃ u : Tok, c = tk T.EXTENSION "extension".toList ∧ w = [u] ∧ Kw "extension" u :=
  shw_kw (by decide) rfl (fun _ h => h) h
theorem shw_EXISTING {c w n} (h : ShapeW T.EXISTING c w n) :
    ∃ u : Tok, c = tk T.EXISTING "existing".toList ∧ w = [u] ∧ Kw "existing" u :=
  shw_kw (by decide) rfl (fun _ h => h) h
theorem shw_METADATA {c w n} (h : ShapeW T.METADATA c w n) :
    ∃ u : Tok, c = tk T.METADATA "metadata".toList ∧ w = [u] ∧ Kw "metadata" u :=
  shw_kw (by decide) rfl (fun _ h => h) h
theorem shw_RESOURCE {c w n} (h : ShapeW T.RESOURCE c w n) :
    ∃ u : Tok, c = tk T.RESOURCE "resource".toList ∧ w = [u] ∧ Kw "resource" u :=
  shw_kw (by decide) rfl (fun _ h => h) h
theorem shw_IMPORT {c w n} (h : ShapeW T.IMPORT c w n) :
    ∃ u : Tok, c = tk T.IMPORT "import".toList ∧ w = [u] ∧ Kw "import" u :=
  shw_kw (by decide) rfl (fun _ h => h) h
theorem shw_MODULE {c w n} (h : ShapeW T.MODULE c w n) :
    ∃ u : Tok, c = tk T.MODULE "module".toList ∧ w = [u] ∧ Kw "module" u :=
  shw_kw (by decide) rfl (fun _ h => h) h
theorem shw_OUTPUT {c w n} (h : ShapeW T.OUTPUT c w n) :
    ∃ u : Tok, c = tk T.OUTPUT "output".toList ∧ w = [u] ∧ Kw "output" u :=
  shw_kw (by decide) rfl (fun _ h => h) h
theorem shw_FALSE {c w n} (h : ShapeW T.FALSE c w n) :
    ∃ u : Tok, c = tk T.FALSE "false".toList ∧ w = [u] ∧ Kw "false" u :=
  shw_kw (by decide) rfl (fun _ h => h) h
theorem shw_ITEMS {c w n} (h : ShapeW T.ITEMS c w n) :
    ∃ u : Tok, c = tk T.ITEMS "items".toList ∧ w = [u] ∧ Kw "items" u :=
  shw_kw (by decide) rfl (fun _ h => h) h
theorem shw_PARAM {c w n} (h : ShapeW T.PARAM c w n) :
    ∃ u : Tok, c = tk T.PARAM "param".toList ∧ w = [u] ∧ Kw "param" u :=
  shw_kw (by decide) rfl (fun _ h => h) h
theorem shw_FROM {c w n} (h : ShapeW T.FROM c w n) :
    ∃ u : Tok, c = tk T.FROM "from".toList ∧ w = [u] ∧ Kw "from" u :=
  shw_kw (by decide) rfl (fun _ h => h) h
theorem shw_FUNC {c w n} (h : ShapeW T.FUNC c w n) :
    ∃ u : Tok, c = tk T.FUNC "func".toList ∧ w = [u] ∧ Kw "func" u :=
  shw_kw (by decide) rfl (fun _ h => h) h
theorem shw_NULL {c w n} (h : ShapeW T.NULL c w n) :
    ∃ u : Tok, c = tk T.NULL "null".toList ∧ w = [u] ∧ Kw "null" u :=
  shw_kw (by decide) rfl (fun _ h => h) h
theorem shw_TRUE {c w n} (h : ShapeW T.TRUE c w n) :
    ∃ u : Tok, c = tk T.TRUE "true".toList ∧ w = [u] ∧ Kw "true" u :=
  shw_kw (by decide) rfl (fun _ h => h) h
theorem shw_TYPE {c w n} (h : ShapeW T.TYPE c w n) :
    ∃ u : Tok, c = tk T.TYPE "type".toList ∧ w = [u] ∧ Kw "type" u :=
  shw_kw (by decide) rfl (fun _ h => h) h
theorem shw_WITH {c w n} (h : ShapeW T.WITH c w n) :
    ∃ u : Tok, c = tk T.WITH "with".toList ∧ w = [u] ∧ Kw "with" u :=
  shw_kw (by decide) rfl (fun _ h => h) h
theorem shw_FOR {c w n} (h : ShapeW T.FOR c w n) :
    ∃ u : Tok, c = tk T.FOR "for".toList ∧ w = [u] ∧ Kw "for" u :=
  shw_kw (by decide) rfl (fun _ h => h) h
theorem shw_VAR {c w n} (h : ShapeW T.VAR c w n) :
    ∃ u : Tok, c = tk T.VAR "var".toList ∧ w = [u] ∧ Kw "var" u :=
  shw_kw (by decide) rfl (fun _ h => h) h
theorem shw_AS {c w n} (h : ShapeW T.AS c w n) :
    ∃ u : Tok, c = tk T.AS "as".toList ∧ w = [u] ∧ Kw "as" u :=
  shw_kw (by decide) rfl (fun _ h => h) h
theorem shw_IF {c w n} (h : ShapeW T.IF c w n) :
    ∃ u : Tok, c = tk T.IF "if".toList ∧ w = [u] ∧ Kw "if" u :=
  shw_kw (by decide) rfl (fun _ h => h) h
theorem shw_IN {c w n} (h : ShapeW T.IN c w n) :
    ∃ u : Tok, c = tk T.IN "in".toList ∧ w = [u] ∧ Kw "in" u :=
  shw_kw (by decide) rfl (fun _ h => h) h
theorem shw___ANON_0 {c w n} (h : ShapeW T.__ANON_0 c w n) :
    ∃ u : Tok, c = tk T.__ANON_0 "=>".toList ∧ w = [u] ∧ Kw "=>" u :=
  shw_kw (by decide) rfl (fun _ h => h) h
theorem shw___ANON_10 {c w n} (h : ShapeW T.__ANON_10 c w n) :
    ∃ u : Tok, c = tk T.__ANON_10 "||".toList ∧ w = [u] ∧ Kw "||" u :=
  shw_kw (by decide) rfl (fun _ h => h) h
theorem shw___ANON_11 {c w n} (h : ShapeW T.__ANON_11 c w n) :
    ∃ u : Tok, c = tk T.__ANON_11 "??".toList ∧ w = [u] ∧ Kw "??" u :=
  shw_kw (by decide) rfl (fun _ h => h) h
theorem shw___ANON_12 {c w n} (h : ShapeW T.__ANON_12 c w n) :
    ∃ u : Tok, c = tk T.__ANON_12 "::".toList ∧ w = [u] ∧ Kw "::" u :=
  shw_kw (by decide) rfl (fun _ h => h) h
theorem shw___ANON_3 {c w n} (h : ShapeW T.__ANON_3 c w n) :
    ∃ u : Tok, c = tk T.__ANON_3 ">=".toList ∧ w = [u] ∧ Kw ">=" u :=
  shw_kw (by decide) rfl (fun _ h => h) h
theorem shw___ANON_4 {c w n} (h : ShapeW T.__ANON_4 c w n) :
    ∃ u : Tok, c = tk T.__ANON_4 "<=".toList ∧ w = [u] ∧ Kw "<=" u :=
  shw_kw (by decide) rfl (fun _ h => h) h
theorem shw___ANON_5 {c w n} (h : ShapeW T.__ANON_5 c w n) :
    ∃ u : Tok, c = tk T.__ANON_5 "==".toList ∧ w = [u] ∧ Kw "==" u :=
  shw_kw (by decide) rfl (fun _ h => h) h
theorem shw___ANON_6 {c w n} (h : ShapeW T.__ANON_6 c w n) :
    ∃ u : Tok, c = tk T.__ANON_6 "!=".toList ∧ w = [u] ∧ Kw "!=" u :=
  shw_kw (by decide) rfl (fun _ h => h) h
theorem shw___ANON_7 {c w n} (h : ShapeW T.__ANON_7 c w n) :
    ∃ u : Tok, c = tk T.__ANON_7 "=~".toList ∧ w = [u] ∧ Kw "=~" u :=
  shw_kw (by decide) rfl (fun _ h => h) h
theorem shw___ANON_8 {c w n} (h : ShapeW T.__ANON_8 c w n) :
    ∃ u : Tok, c = tk T.__ANON_8 "!~".toList ∧ w = [u] ∧ Kw "!~" u :=
  shw_kw (by decide) rfl (fun _ h => h) h
theorem shw___ANON_9 {c w n} (h : ShapeW T.__ANON_9 c w n) :
    ∃ u : Tok, c = tk T.__ANON_9 "&&".toList ∧ w = [u] ∧ Kw "&&" u :=
  shw_kw (by decide) rfl (fun _ h => h) h
theorem shw_AT {c w n} (h : ShapeW T.AT c w n) :
    ∃ u : Tok, c = tk T.AT "@".toList ∧ w = [u] ∧ Kw "@" u :=
  shw_kw (by decide) rfl (fun _ h => h) h
theorem shw_BANG {c w n} (h : ShapeW T.BANG c w n) :
    ∃ u : Tok, c = tk T.BANG "!".toList ∧ w = [u] ∧ Kw "!" u :=
  shw_kw (by decide) rfl (fun _ h => h) h
theorem shw_COLON {c w n} (h : ShapeW T.COLON c w n) :
    ∃ u : Tok, c = tk T.COLON ":".toList ∧ w = [u] ∧ Kw ":" u :=
  shw_kw (by decide) rfl (fun _ h => h) h
theorem shw_COMMA {c w n} (h : ShapeW T.COMMA c w n) :
    ∃ u : Tok, c = tk T.COMMA ",".toList ∧ w = [u] ∧ Kw "," u :=
  shw_kw (by decide) rfl (fun _ h => h) h
theorem shw_DOT {c w n} (h : ShapeW T.DOT c w n) :
    ∃ u : Tok, c = tk T.DOT ".".toList ∧ w = [u] ∧ Kw "." u :=
  shw_kw (by decide) rfl (fun _ h => h) h
theorem shw_EQUAL {c w n} (h : ShapeW T.EQUAL c w n) :
    ∃ u : Tok, c = tk T.EQUAL "=".toList ∧ w = [u] ∧ Kw "=" u :=
  shw_kw (by decide) rfl (fun _ h => h) h
theorem shw_LBRACE {c w n} (h : ShapeW T.LBRACE c w n) :
    ∃ u : Tok, c = tk T.LBRACE "{".toList ∧ w = [u] ∧ Kw "{" u :=
  shw_kw (by decide) rfl (fun _ h => h) h
theorem shw_LESSTHAN {c w n} (h : ShapeW T.LESSTHAN c w n) :
    ∃ u : Tok, c = tk T.LESSTHAN "<".toList ∧ w = [u] ∧ Kw "<" u :=
  shw_kw (by decide) rfl (fun _ h => h) h
theorem shw_LPAR {c w n} (h : ShapeW T.LPAR c w n) :
    ∃ u : Tok, c = tk T.LPAR "(".toList ∧ w = [u] ∧ Kw "(" u :=
  shw_kw (by decide) rfl (fun _ h => h) h
theorem shw_LSQB {c w n} (h : ShapeW T.LSQB c w n) :
    ∃ u : Tok, c = tk T.LSQB "[".toList ∧ w = [u] ∧ Kw "[" u :=
  shw_kw (by decide) rfl (fun _ h => h) h
theorem shw_MINUS {c w n} (h : ShapeW T.MINUS c w n) :
    ∃ u : Tok, c = tk T.MINUS "-".toList ∧ w = [u] ∧ Kw "-" u :=
  shw_kw (by decide) rfl (fun _ h => h) h
theorem shw_MORETHAN {c w n} (h : ShapeW T.MORETHAN c w n) :
    ∃ u : Tok, c = tk T.MORETHAN ">".toList ∧ w = [u] ∧ Kw ">" u :=
  shw_kw (by decide) rfl (fun _ h => h) h
theorem shw_PERCENT {c w n} (h : ShapeW T.PERCENT c w n) :
    ∃ u : Tok, c = tk T.PERCENT "%".toList ∧ w = [u] ∧ Kw "%" u :=
  shw_kw (by decide) rfl (fun _ h => h) h
theorem shw_PLUS {c w n} (h : ShapeW T.PLUS c w n) :
    ∃ u : Tok, c = tk T.PLUS "+".toList ∧ w = [u] ∧ Kw "+" u :=
  shw_kw (by decide) rfl (fun _ h => h) h
theorem shw_QMARK {c w n} (h : ShapeW T.QMARK c w n) :
    ∃ u : Tok, c = tk T.QMARK "?".toList ∧ w = [u] ∧ Kw "?" u :=
  shw_kw (by decide) rfl (fun _ h => h) h
theorem shw_RBRACE {c w n} (h : ShapeW T.RBRACE c w n) :
    ∃ u : Tok, c = tk T.RBRACE "}".toList ∧ w = [u] ∧ Kw "}" u :=
  shw_kw (by decide) rfl (fun _ h => h) h
theorem shw_RPAR {c w n} (h : ShapeW T.RPAR c w n) :
    ∃ u : Tok, c = tk T.RPAR ")".toList ∧ w = [u] ∧ Kw ")" u :=
  shw_kw (by decide) rfl (fun _ h => h) h
theorem shw_RSQB {c w n} (h : ShapeW T.RSQB c w n) :
    ∃ u : Tok, c = tk T.RSQB "]".toList ∧ w = [u] ∧ Kw "]" u :=
  shw_kw (by decide) rfl (fun _ h => h) h
theorem shw_SLASH {c w n} (h : ShapeW T.SLASH c w n) :
    ∃ u : Tok, c = tk T.SLASH "/".toList ∧ w = [u] ∧ Kw "/" u :=
  shw_kw (by decide) rfl (fun _ h => h) h
theorem shw_STAR {c w n} (h : ShapeW T.STAR c w n) :
    ∃ u : Tok, c = tk T.STAR "*".toList ∧ w = [u] ∧ Kw "*" u :=
  shw_kw (by decide) rfl (fun _ h => h) h
theorem shw_VBAR {c w n} (h : ShapeW T.VBAR c w n) :
    ∃ u : Tok, c = tk T.VBAR "|".toList ∧ w = [u] ∧ Kw "|" u :=
  shw_kw (by decide) rfl (fun _ h => h) h

theorem kw_type {u : Tok} {s : String} (h : Kw s u) (s' : String) (t : Nat) (e : s = s')
    (ht : ∀ i < terminals.length, fixedText i = some s' → i = t) : u.type = t := by
  subst e
  refine ht _ ?_ h.1
  have h := h.1
  unfold fixedText term? at h
  rcases Nat.lt_or_ge u.type terminals.length with hl | hl
  · exact hl
  · rw [List.getElem?_eq_none_iff.mpr hl] at h; simp at h

theorem noInfix_break {u : Tok} (h : u.type = T._CPP_COMMENT_NL) : NoInfix u.type := by
  rw [h]; unfold NoInfix; decide

theorem noInfix_breaks {w : List Tok} {n : Nat} (h : Breaks w) (hn : w ≠ []) : NoInfix (nextT w n) := by
  cases w with
  | nil => exact absurd rfl hn
  | cons u w => exact noInfix_break (h u (by simp))

theorem breaks_nil : Breaks [] := by intro u h; simp at h
theorem breaks_cons {u w} (h : u.type = T._CPP_COMMENT_NL) (hw : Breaks w) : Breaks (u :: w) := by
  intro v hv
  rcases List.mem_cons.mp hv with rfl | hv
  · exact h
  · exact hw v hv
theorem breaks_append {a b} (ha : Breaks a) (hb : Breaks b) : Breaks (a ++ b) := by
  intro v hv
  rcases List.mem_append.mp hv with h | h
  · exact ha v h
  · exact hb v h
theorem optBreak_none : OptBreak [] := .inl rfl
theorem optBreak_some {u} (h : u.type = T._CPP_COMMENT_NL) : OptBreak [u] := .inr ⟨u, rfl, h⟩
theorem optNewline_none : OptNewline [] := .inl rfl
theorem optNewline_some {u} (h : u.type = T._NEWLINE) : OptNewline [u] := .inr ⟨u, rfl, h⟩
theorem optMark_none : OptMark [] := .inl rfl
theorem optMark_some {u} (h : Kw "?" u) : OptMark [u] := .inr ⟨u, rfl, h⟩

theorem w_exprs_append (a b : List Expr) : Expr.trees (a ++ b) = Expr.trees a ++ Expr.trees b := by
  induction a with
  | nil => rfl
  | cons x a ih => simp [Expr.trees, ih]
theorem w_opts_append (a b : List (Option Expr)) :
    Expr.optTrees (a ++ b) = Expr.optTrees a ++ Expr.optTrees b := by
  induction a with
  | nil => rfl
  | cons x a ih => simp [Expr.optTrees, ih]
theorem w_items_append (a b : List Item) : Item.trees (a ++ b) = Item.trees a ++ Item.trees b := by
  induction a with
  | nil => rfl
  | cons x a ih => simp [Item.trees, ih]
theorem w_dts_append (a b : List DataType) :
    DataType.trees (a ++ b) = DataType.trees a ++ DataType.trees b := by
  induction a with
  | nil => rfl
  | cons x a ih => simp [DataType.trees, ih]
theorem w_params_append (a b : List (Ident × DataType)) :
    paramTrees (a ++ b) = paramTrees a ++ paramTrees b := by
  induction a with
  | nil => rfl
  | cons x a ih => simp [paramTrees, ih]

theorem w_kids_mkCore (d : String) (cs : List Tree) (ln : Lines) : kidsOf (mkCore d cs ln) = cs := by
  unfold mkCore; split <;> rfl

theorem w_expr_nometa (e : Expr) : isMeta e.tree = false := by
  cases e <;> rfl
theorem w_loop_nometa (l : Loop) : isMeta l.tree = false := by
  cases l; simp [Loop.tree, nd, isMeta, metaNodes]
theorem w_config_nometa (g : Config) : isMeta g.tree = false := by
  cases g <;> first | exact w_loop_nometa _ | (simp [Config.tree, nd, isMeta, metaNodes])
theorem w_op_nometa {c : Tree} {e : Expr} (h : nd "operator" [c] = e.tree) : isMeta c = false := by
  cases e <;> simp [Expr.tree, nd] at h <;> rw [h] <;> simp [isMeta, metaNodes]
  rename_i op _ _
  cases op <;> simp [BinOp.node]

theorem DecosSyn.cons {d ds w1 w2} (h : DecoSyn d w1) (hs : DecosSyn ds w2) :
    DecosSyn (d :: ds) (w1 ++ w2) := by
  induction hs with
  | nil => simpa using DecosSyn.snoc .nil h
  | @snoc ds e w3 w4 _ h' ih => rw [← List.append_assoc, ← List.cons_append]; exact .snoc ih h'

end Pycep
