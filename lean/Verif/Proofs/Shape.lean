import Verif.Proofs.LexComplete
import Verif.Proofs.EndToEnd
import Verif.Proofs.Core
import Verif.Parser
/-
Texts with the same tokens in a different layout: the parser goes through the same states and builds
trees of the same shape.
-/
namespace Pycep

/-! ### Shapes -/

/-- a token without its place, a line break without its text -/
def Tok.shape (u : Tok) : Tok := ⟨u.type, if isBreak u.type then [] else u.text, 0, 0⟩

theorem SameTok.shape {u v : Tok} (h : SameTok u v) : u.shape = v.shape := by
  obtain ⟨h1, h2⟩ := h
  unfold Tok.shape
  rw [← h1]
  cases hb : isBreak u.type with
  | true => rfl
  | false => rw [h2 hb]

mutual
/-- a tree without places and without the text of line breaks -/
def Tree.shape : Tree → Tree
  | .tok u => .tok u.shape
  | .none => .none
  | .node d ks _ => .node d (Tree.shapes ks) .none
/-- `Tree.shape` of a list -/
def Tree.shapes : List Tree → List Tree
  | [] => []
  | t :: ts => t.shape :: Tree.shapes ts
end

theorem shapes_eq (ts : List Tree) : Tree.shapes ts = ts.map Tree.shape := by
  induction ts with
  | nil => simp [Tree.shapes]
  | cons t ts ih => simp [Tree.shapes, ih]

theorem shape_keep (r : Rule) (kids : List Tree) :
    (keepKids r kids).map Tree.shape = keepKids r (kids.map Tree.shape) := by
  unfold keepKids
  rw [List.map_append, List.map_replicate, Tree.shape]
  congr 1
  rw [List.map_flatMap]
  congr 1
  funext k
  obtain ⟨i, inl, n⟩ := k
  simp only [List.map_append, List.map_replicate, Tree.shape, List.getElem?_map]
  congr 1
  cases kids[i]? with
  | none => simp
  | some t =>
    simp only [Option.map_some]
    split
    · cases t <;> simp [Tree.shape, shapes_eq]
    · simp

theorem shape_setSpan (t : Tree) (kids : List Tree) : (setSpan t kids).shape = t.shape := by
  unfold setSpan
  cases t with
  | tok t => rfl
  | none => rfl
  | node d ks sp =>
    simp only
    split
    · split <;> simp [Tree.shape]
    · rfl

/-- the shape of a new node depends only on the shapes of the children -/
theorem shape_build (r : Rule) {kids kids' : List Tree} (h : kids.map Tree.shape = kids'.map Tree.shape) :
    (buildNode r kids).shape = (buildNode r kids').shape := by
  unfold buildNode
  simp only [shape_setSpan]
  have hk : (keepKids r kids).map Tree.shape = (keepKids r kids').map Tree.shape := by
    rw [shape_keep, shape_keep, h]
  generalize keepKids r kids = a at hk
  generalize keepKids r kids' = b at hk
  have hn : (Tree.node r.name a .none).shape = (Tree.node r.name b .none).shape := by
    simp only [Tree.shape, shapes_eq, hk]
  cases r.expand1 with
  | false => exact hn
  | true =>
    match a, b, hk with
    | [], [], _ => exact hn
    | [x], [y], hk => simpa using hk
    | x :: x' :: a, y :: y' :: b, _ => exact hn
    | [], _ :: _, hk => simp at hk
    | _ :: _, [], hk => simp at hk
    | [_], _ :: _ :: _, hk => simp at hk
    | _ :: _ :: _, [_], hk => simp at hk

/-! ### Runs -/

/-- stacks with the same states and trees of the same shape -/
def SameStack (a b : Stack) : Prop := a.map (fun e => (e.1, e.2.shape)) = b.map (fun e => (e.1, e.2.shape))

theorem SameStack.top {a b : Stack} (h : SameStack a b) : topState a = topState b := by
  unfold SameStack at h
  match a, b, h with
  | [], [], _ => rfl
  | (s, v) :: a, (s', v') :: b, h =>
    simp only [List.map_cons, List.cons.injEq, Prod.mk.injEq] at h
    exact h.1.1

theorem SameStack.length {a b : Stack} (h : SameStack a b) : a.length = b.length := by
  have := congrArg List.length h
  simpa using this

theorem SameStack.drop {a b : Stack} (h : SameStack a b) (n : Nat) : SameStack (a.drop n) (b.drop n) := by
  unfold SameStack at h ⊢
  rw [List.map_drop, List.map_drop, h]

theorem SameStack.kids {a b : Stack} (h : SameStack a b) (n : Nat) :
    ((a.take n).reverse.map Prod.snd).map Tree.shape = ((b.take n).reverse.map Prod.snd).map Tree.shape := by
  unfold SameStack at h
  have h := congrArg (fun l => ((l.take n).reverse.map Prod.snd)) h
  simp only [← List.map_take, ← List.map_reverse, List.map_map] at h ⊢
  exact h

theorem SameStack.cons {a b : Stack} (h : SameStack a b) {s : Nat} {t t' : Tree} (ht : t.shape = t'.shape) :
    SameStack ((s, t) :: a) ((s, t') :: b) := by
  unfold SameStack at h ⊢
  simp only [List.map_cons, h, ht]

theorem Red.same {n : Nat} {a a' : Stack} (h : Red n a a') : ∀ {b : Stack}, SameStack a b →
    ∃ b', Red n b b' ∧ SameStack a' b' := by
  induction h with
  | refl => intro b hb; exact ⟨b, .refl, hb⟩
  | @step stk stk' i rule s h1 h2 h3 h4 h5 _ ih =>
    intro b hb
    obtain ⟨b', hr, hs⟩ := ih (b := (s, buildNode rule ((b.take rule.rhs.length).reverse.map Prod.snd)) ::
      b.drop rule.rhs.length) ((hb.drop _).cons (shape_build rule (hb.kids _)))
    refine ⟨b', .step ?_ h2 ?_ ?_ h5 hr, hs⟩
    · rw [← hb.top]; exact h1
    · rw [← hb.length]; exact h3
    · rw [← (hb.drop _).top]; exact h4

theorem Run.same {n : Nat} {a a' : Stack} {w : List Tok} (h : Run a w n a') : ∀ {b : Stack} {w' : List Tok},
    SameStack a b → List.Forall₂ SameTok w w' → ∃ b', Run b w' n b' ∧ SameStack a' b' := by
  induction h with
  | done h =>
    intro b w' hb hw
    cases hw
    obtain ⟨b', h1, h2⟩ := h.same hb
    exact ⟨b', .done h1, h2⟩
  | @shift stk stk1 stk' u s w n h1 h2 h3 _ ih =>
    intro b w' hb hw
    cases hw with
    | @cons _ v _ w' hu hw =>
      obtain ⟨b1, g1, g2⟩ := h1.same hb
      obtain ⟨b', g3, g4⟩ := ih (b := (s, .tok v) :: b1) (g2.cons (by simp only [Tree.shape, hu.shape])) hw
      refine ⟨b', .shift ?_ ?_ ?_ g3, g4⟩
      · rw [← hu.1]; exact g1
      · rw [← hu.1, ← g2.top]; exact h2
      · rw [← hu.1]; exact h3

/-- the last reduction, at the end of the text -/
def Finish (stk : Stack) (t : Tree) : Prop :=
  ∃ i r, action (topState stk) tEND = .reduce i ∧ rules[i]? = some r ∧ r.rhs.length ≤ stk.length ∧
    goto (topState (stk.drop r.rhs.length)) r.lhs = some endState ∧
    t = buildNode r ((stk.take r.rhs.length).reverse.map Prod.snd)

theorem Finish.same {a b : Stack} {t : Tree} (h : Finish a t) (hs : SameStack a b) :
    ∃ t', Finish b t' ∧ t.shape = t'.shape := by
  obtain ⟨i, r, h1, h2, h3, h4, rfl⟩ := h
  refine ⟨_, ⟨i, r, ?_, h2, ?_, ?_, rfl⟩, shape_build r (hs.kids _)⟩
  · rw [← hs.top]; exact h1
  · rw [← hs.length]; exact h3
  · rw [← (hs.drop _).top]; exact h4

/-- what feeding a token does, as reductions and a shift or the last reduction -/
theorem feed_run (n : Nat) : ∀ (stk : Stack) (u : Tok),
    (∀ stk', feed n stk u = .shifted stk' → ∃ stk1 s, Red u.type stk stk1 ∧
      action (topState stk1) u.type = .shift s ∧ u.type ≠ tEND ∧ stk' = (s, .tok u) :: stk1) ∧
    (∀ t, feed n stk u = .accept t → u.type = tEND → ∃ stk1, Red tEND stk stk1 ∧ Finish stk1 t) := by
  induction n with
  | zero => intro stk u; simp [feed]
  | succ n ih =>
    intro stk u
    unfold feed
    cases ha : action (topState stk) u.type with
    | error => simp
    | shift s =>
      by_cases he : u.type = tEND
      · simp [he]
      · simp only [if_neg he]
        refine ⟨?_, by simp⟩
        rintro stk' h
        cases h
        exact ⟨stk, s, .refl, ha, he, rfl⟩
    | reduce i =>
      cases hr : rules[i]? with
      | none => simp [hr]
      | some rule =>
        simp only [hr]
        by_cases hl : stk.length < rule.rhs.length
        · simp [hl]
        · rw [if_neg hl]
          cases hg : goto (topState (stk.drop rule.rhs.length)) rule.lhs with
          | none => simp
          | some s =>
            simp only
            by_cases he : u.type = tEND ∧ s = endState
            · rw [if_pos he]
              refine ⟨by simp, ?_⟩
              rintro t h _
              cases h
              refine ⟨stk, .refl, i, rule, ?_, hr, by omega, ?_, rfl⟩
              · rw [← he.1]; exact ha
              · rw [← he.2]; exact hg
            · rw [if_neg he]
              obtain ⟨i1, i2⟩ := ih ((s, buildNode rule ((stk.take rule.rhs.length).reverse.map Prod.snd)) ::
                stk.drop rule.rhs.length) u
              refine ⟨fun stk' h => ?_, fun t h hu => ?_⟩
              · obtain ⟨stk1, s', h1, h2, h3, h4⟩ := i1 stk' h
                exact ⟨stk1, s', .step ha hr (by omega) hg he h1, h2, h3, h4⟩
              · obtain ⟨stk1, h1, h2⟩ := i2 t h hu
                refine ⟨stk1, .step ?_ hr (by omega) hg ?_ h1, h2⟩
                · rw [← hu]; exact ha
                · rintro ⟨_, h⟩; exact he ⟨hu, h⟩

/-- an accepted text is cut into tokens on which the parser runs to the end -/
theorem parseLoop_run (n : Nat) : ∀ (stk : Stack) (s : List Char) (l : Nat) (t : Tree),
    parseLoop n stk s l = .ok t → ∃ w stk', Tiling l s w ∧ Run stk w tEND stk' ∧ Finish stk' t := by
  induction n with
  | zero => intro stk s l t h; simp [parseLoop] at h
  | succ n ih =>
    intro stk s l t h
    unfold parseLoop at h
    have hns := nextTok_sound (acc := accepts (topState stk)) (fun t => accepts_lt) s.length s l
    cases hn : nextTok (accepts (topState stk)) s.length s l with
    | fail => rw [hn] at h; cases h
    | eof =>
      rw [hn] at h
      simp only at h
      cases hf : feed (feedFuel stk) stk ⟨tEND, [], l, l⟩ with
      | accept t' =>
        rw [hf] at h
        cases h
        obtain ⟨stk1, h1, h2⟩ := (feed_run _ _ _).2 _ hf rfl
        refine ⟨[], stk1, ?_, .done h1, h2⟩
        have := Tiling.skips (hns.1 hn) (l := l) (.nil)
        simpa using this
      | _ => rw [hf] at h; cases h
    | tok u rest =>
      rw [hn] at h
      simp only at h
      obtain ⟨p, x, hs, hp, htext, hlt, htk⟩ := hns.2 u rest hn
      cases hf : feed (feedFuel stk) stk u with
      | shifted stk' =>
        rw [hf] at h
        obtain ⟨w, stk2, h1, h2, h3⟩ := ih _ _ _ _ h
        obtain ⟨stk1, s', g1, g2, g3, rfl⟩ := (feed_run _ _ _).1 _ hf
        refine ⟨u :: w, stk2, ?_, .shift g1 g2 g3 h2, h3⟩
        rw [hs, List.append_assoc]
        refine Tiling.skips hp ?_
        rw [htk] at h1 ⊢
        exact .tok htext hlt h1
      | _ => rw [hf] at h; cases h

theorem larkParse_run {text : String} {t : Tree} (h : larkParse text = .ok t) :
    ∃ w stk, Tiling 1 text.toList w ∧ Run [] w tEND stk ∧ Finish stk t :=
  parseLoop_run _ _ _ _ _ h

/-- A run is found if the lexer delivers its tokens. -/
theorem loop_run {stk w stk'} (h : Run stk w tEND stk') {t : Tree} (hfin : Finish stk' t) :
    ∀ {p s l n w0}, prevOf (topState stk) = p → Feeds p s l w → (∀ m, Inv stk w0 m) →
    s.length < n → parseLoop n stk s l = .ok t := by
  generalize hm : tEND = m at h
  induction h with
  | @done stk stk' m hred =>
    subst hm
    intro p s l n w0 hp hf hinv hn
    obtain ⟨i, r, ha, hr, hlen, hg, rfl⟩ := hfin
    cases hf with
    | eof hf =>
      obtain ⟨n, rfl⟩ : ∃ k, n = k + 1 := ⟨n - 1, by omega⟩
      have hne := hred.action_ne (by rw [ha]; simp)
      unfold parseLoop
      rw [hf _ (hinv 0).top_lt hp hne]
      simp only
      obtain ⟨k, hk⟩ := feed_red (tk := ⟨tEND, [], l, l⟩) hred
      have : feed (1 + k) stk ⟨tEND, [], l, l⟩ =
          .accept (buildNode r ((stk'.take r.rhs.length).reverse.map Prod.snd)) := by
        rw [hk 1]
        unfold feed
        simp only [ha, hr]
        rw [if_neg (by omega)]
        simp [hg]
      rw [feed_eq (hinv _) (by simp) this]
  | @shift stk stk1 stk' u st w m hred hact hne hrun ih =>
    subst hm
    intro p s l n w0 hp hf hinv hn
    cases hf with
    | @tok _ _ _ _ rest _ hlt hrest hf hfw =>
      obtain ⟨n, rfl⟩ : ∃ k, n = k + 1 := ⟨n - 1, by omega⟩
      have hne' := hred.action_ne (by rw [hact]; simp)
      unfold parseLoop
      rw [hf _ (hinv 0).top_lt hp hne']
      simp only
      obtain ⟨k, hk⟩ := feed_red (tk := u) hred
      have : feed (1 + k) stk u = .shifted ((st, .tok u) :: stk1) := by
        rw [hk 1]
        unfold feed
        simp only [hact]
        rw [if_neg hne]
      have he := feed_eq (hinv _) (by simp) this
      rw [he]
      simp only
      have hinv' := ((feed_spec _ _ _ _ (hinv _)).1 _ he).1
      exact ih hfin rfl (prevOf_shift (hinv' 0).tail_lt hlt hact) hfw hinv' (by omega)

/-- An accepted text has tokens such that every clear layout of the same tokens is accepted, with a
tree of the same shape. -/
theorem larkParse_relayout {text : String} {t : Tree} (h : larkParse text = .ok t) :
    ∃ w, Tiling 1 text.toList w ∧ ∀ text' w', Layout tEND text'.toList 1 w' → List.Forall₂ SameTok w w' →
      ∃ t', larkParse text' = .ok t' ∧ t.shape = t'.shape := by
  obtain ⟨w, stk, h1, h2, h3⟩ := larkParse_run h
  refine ⟨w, h1, fun text' w' hl hw => ?_⟩
  obtain ⟨stk', g1, g2⟩ := h2.same (b := []) rfl hw
  obtain ⟨t', g3, g4⟩ := h3.same g2
  exact ⟨t', loop_run g1 g3 prevOf_zero (hl.feeds (Nat.le_refl _)) Inv.init (by omega), g4⟩

/-! ### What is read off a tree without line numbers depends on its shape only -/

/-- a method that does not look at the place of its node unless line numbers are wanted -/
def PlaceFree (p : String × Callback) : Prop := ∀ sp args st, p.2 false .none args st = p.2 false sp args st

theorem placeFree_plain (d : String) (f) : PlaceFree (d, plain f) := fun _ _ _ => rfl

theorem addLines_false (sp : Option Span) (a) : addLines false sp a = .ok a := rfl

theorem placeFree_withMeta (d : String) (f) (hf : ∀ sp args, f false .none args = f false sp args) :
    PlaceFree (d, withMeta f) := by
  intro sp args st
  show (f false .none args).map _ = (f false sp args).map _
  rw [hf]

theorem placeFree_all : ∀ p ∈ callbacks, PlaceFree p := by
  simp only [callbacks, List.forall_mem_cons, placeFree_plain, true_and]
  refine ⟨fun _ _ _ => rfl, ?_, ?_, ?_, ?_, ?_, ?_, ?_, ?_, ?_, ?_, ?_, ?_, fun _ h => nomatch h⟩
  · refine placeFree_withMeta _ _ fun sp args => ?_
    simp only [cb_scope, addLines_false]
  · intro sp args st
    show cb_custom_import _ _ _ _ = cb_custom_import _ _ _ _
    have h : ∀ fp, importEntry false .none fp = importEntry false sp fp := by
      intro fp; funext na; simp only [importEntry, addLines_false]
    unfold cb_custom_import
    simp only [h]
  · refine placeFree_withMeta _ _ fun sp args => ?_
    unfold cb_extension; simp only [addLines_false]
  · refine placeFree_withMeta _ _ fun sp args => ?_
    unfold cb_metadata; simp only [addLines_false]
  · refine placeFree_withMeta _ _ fun sp args => ?_
    unfold cb_param; simp only [addLines_false]
  · refine placeFree_withMeta _ _ fun sp args => ?_
    unfold cb_var; simp only [addLines_false]
  · refine placeFree_withMeta _ _ fun sp args => ?_
    unfold cb_output; simp only [addLines_false]
  · intro sp args st
    show cb_resource _ _ _ _ = cb_resource _ _ _ _
    unfold cb_resource; simp only [addLines_false]
  · refine placeFree_withMeta _ _ fun sp args => ?_
    unfold cb_child_resource; simp only [addLines_false]
  · refine placeFree_withMeta _ _ fun sp args => ?_
    unfold cb_module; simp only [addLines_false]
  · refine placeFree_withMeta _ _ fun sp args => ?_
    unfold cb_custom_type; simp only [addLines_false]
  · refine placeFree_withMeta _ _ fun sp args => ?_
    unfold cb_custom_func; simp only [addLines_false]

mutual
/-- a tree without line breaks -/
def Tree.noBreaks : Tree → Bool
  | .tok u => !isBreak u.type
  | .none => true
  | .node _ ks _ => Tree.noBreaksL ks
/-- `Tree.noBreaks` of a list -/
def Tree.noBreaksL : List Tree → Bool
  | [] => true
  | t :: ts => t.noBreaks && Tree.noBreaksL ts
end

mutual
theorem noBreaks_core : (t : Tree) → t.core.noBreaks = t.noBreaks
  | .tok u => by simp [Tree.core, Tree.noBreaks]
  | .none => by simp [Tree.core]
  | .node d ks sp => by simp [Tree.core, Tree.noBreaks, noBreaks_coreL ks]
theorem noBreaks_coreL : (ts : List Tree) → Tree.noBreaksL (coreList ts) = Tree.noBreaksL ts
  | [] => by simp [coreList]
  | t :: ts => by simp [coreList, Tree.noBreaksL, noBreaks_core t, noBreaks_coreL ts]
end

mutual
theorem transform_shape : ∀ (t : Tree) (st : TState), t.noBreaks = true →
    transform false t.shape st = transform false t st
  | .tok u, st, h => by
    simp only [Tree.noBreaks, Bool.not_eq_true'] at h
    simp [Tree.shape, transform, Tok.shape, h]
  | .none, st, _ => by simp [Tree.shape]
  | .node d ks sp, st, h => by
    rw [Tree.noBreaks] at h
    simp only [Tree.shape, transform, transformList_shape ks st h]
    cases transformList false ks st with
    | error e => rfl
    | ok r =>
      obtain ⟨args, st'⟩ := r
      simp only [bind, Except.bind]
      cases h : callbacks.lookup d with
      | none => rfl
      | some f =>
        have := placeFree_all _ (lookup_mem h) sp args st'
        simp only at this
        simp only [this]
theorem transformList_shape : ∀ (ts : List Tree) (st : TState), Tree.noBreaksL ts = true →
    transformList false (Tree.shapes ts) st = transformList false ts st
  | [], st, _ => by simp [Tree.shapes]
  | t :: ts, st, h => by
    rw [Tree.noBreaksL, Bool.and_eq_true] at h
    simp only [Tree.shapes, transformList, transform_shape t st h.1]
    cases transform false t st with
    | error e => rfl
    | ok r =>
      simp only [bind, Except.bind, transformList_shape ts _ h.2]
end

theorem bicepToJson_shape {t : Tree} (h : t.noBreaks = true) : bicepToJson false t.shape = bicepToJson false t := by
  simp [bicepToJson, transform_shape t _ h]

mutual
theorem pretty_shape : ∀ (t : Tree) (n : Nat), t.noBreaks = true → t.shape.prettyAux n = t.prettyAux n
  | .tok u, n, h => by
    simp only [Tree.noBreaks, Bool.not_eq_true'] at h
    simp [Tree.shape, Tree.prettyAux, Tok.shape, h]
  | .none, n, _ => by simp [Tree.shape]
  | .node d ks sp, n, h => by
    rw [Tree.noBreaks] at h
    have hk := pretty_shapes ks (n + 1) h
    rw [Tree.shape]
    match ks, h, hk with
    | [], _, _ => simp only [Tree.shapes, Tree.prettyAux]
    | [.tok u], h, _ =>
      simp only [Tree.noBreaksL, Tree.noBreaks, Bool.and_true, Bool.not_eq_true'] at h
      simp only [Tree.shapes, Tree.shape, Tree.prettyAux, Tok.shape, h, Bool.false_eq_true, if_false]
    | [.none], _, _ => simp only [Tree.shapes, Tree.shape, Tree.prettyAux]
    | [.node _ _ _], _, hk =>
      simp only [Tree.shapes, Tree.shape, Tree.prettyAux] at hk ⊢
      rw [hk]
    | x :: _ :: _, _, hk =>
      cases x <;> (simp only [Tree.shapes, Tree.shape, Tree.prettyAux] at hk ⊢; rw [hk])
theorem pretty_shapes : ∀ (ts : List Tree) (n : Nat), Tree.noBreaksL ts = true →
    Tree.prettyKids n (Tree.shapes ts) = Tree.prettyKids n ts
  | [], n, _ => by simp [Tree.shapes]
  | t :: ts, n, h => by
    rw [Tree.noBreaksL, Bool.and_eq_true] at h
    simp only [Tree.shapes, Tree.prettyKids, pretty_shape t n h.1, pretty_shapes ts n h.2]
end

/-! ### Trees of programs contain no line breaks -/

theorem nb_nd (d : String) (ks : List Tree) : (nd d ks).noBreaks = Tree.noBreaksL ks := by simp [nd, Tree.noBreaks]
theorem nb_ndl (d : String) (ks : List Tree) (l : Lines) : (ndl d ks l).noBreaks = Tree.noBreaksL ks := by
  simp [ndl, Tree.noBreaks]
theorem nb_tk (t : Nat) (x : List Char) : (tk t x).noBreaks = !isBreak t := by
  simp [tk, Tree.noBreaks]
theorem nb_toks : isBreak T.RESOURCE = false ∧ isBreak T.STRING = false ∧ isBreak T.QUOTED_STRING = false ∧
    isBreak T.QUOTED_INTERPOLATION = false ∧ isBreak T.EXISTING = false ∧ isBreak T.INT = false ∧
    isBreak T.MULTI_LINE_STRING = false ∧ isBreak T.FUNCTION = false ∧ isBreak T.LIST_FUNC_NAME = false ∧
    isBreak T.__ANON_2 = false ∧ isBreak T.__ANON_1 = false := by decide
theorem nb_nil : Tree.noBreaksL [] = true := by simp [Tree.noBreaksL]
theorem nb_none : Tree.none.noBreaks = true := by simp [Tree.noBreaks]
theorem nb_cons (t : Tree) (ts : List Tree) : Tree.noBreaksL (t :: ts) = (t.noBreaks && Tree.noBreaksL ts) := by
  simp [Tree.noBreaksL]

theorem nb_append (a b : List Tree) : Tree.noBreaksL (a ++ b) = (Tree.noBreaksL a && Tree.noBreaksL b) := by
  induction a with
  | nil => simp [nb_nil]
  | cons t a ih => simp [nb_cons, ih, Bool.and_assoc]

theorem nb_all {ts : List Tree} (h : ∀ t ∈ ts, t.noBreaks = true) : Tree.noBreaksL ts = true := by
  induction ts with
  | nil => exact nb_nil
  | cons t a ih => rw [nb_cons, h t (by simp), ih (fun u hu => h u (by simp [hu]))]; rfl

theorem nb_key (k : Key) : k.tree.noBreaks = true := by
  match k with
  | .resource => simp [Key.tree, nb_nd, nb_cons, nb_nil, nb_tk, nb_toks]
  | .ident x => simp [Key.tree, nb_nd, nb_cons, nb_nil, nb_tk, nb_toks]
  | .quoted true b => simp [Key.tree, nb_nd, nb_cons, nb_nil, nb_tk, nb_toks]
  | .quoted false b => simp [Key.tree, nb_nd, nb_cons, nb_nil, nb_tk, nb_toks]

theorem nb_existing (b : Bool) : (existingTree b).noBreaks = true := by
  cases b <;> simp [existingTree, nb_none, nb_tk, nb_toks]

mutual
theorem nb_expr : (e : Expr) → e.tree.noBreaks = true
  | .null | .tru | .fls => by simp [Expr.tree, nb_nd, nb_nil]
  | .int _ | .ident _ | .str _ | .multi _ => by simp [Expr.tree, nb_nd, nb_cons, nb_nil, nb_tk, nb_toks]
  | .array es => by simp [Expr.tree, nb_nd, nb_exprs es]
  | .object is => by simp [Expr.tree, nb_nd, nb_items is]
  | .call f es => by simp [Expr.tree, nb_nd, nb_cons, nb_tk, nb_toks, nb_exprs es]
  | .bin op a b => by simp [Expr.tree, nb_nd, nb_cons, nb_nil, nb_expr a, nb_expr b]
  | .not a => by simp [Expr.tree, nb_nd, nb_cons, nb_nil, nb_expr a]
  | .minus a => by simp [Expr.tree, nb_nd, nb_cons, nb_nil, nb_expr a]
  | .cond c t f => by simp [Expr.tree, nb_nd, nb_cons, nb_nil, nb_expr c, nb_expr t, nb_expr f]
  | .method a f args => by
    simp [Expr.tree, nb_nd, nb_cons, nb_nil, nb_expr a, nb_tk, nb_toks, nb_optExprs args]
  | .lambda v e => by simp [Expr.tree, nb_nd, nb_cons, nb_nil, nb_expr v, nb_expr e]
  | .lambdaN v1 v2 v3 vs e => by
    simp [Expr.tree, nb_nd, nb_cons, nb_nil, nb_append, nb_expr v1, nb_expr v2, nb_expr v3, nb_expr e, nb_exprs vs]
theorem nb_exprs : (es : List Expr) → Tree.noBreaksL (Expr.trees es) = true
  | [] => by simp [Expr.trees, nb_nil]
  | e :: es => by simp [Expr.trees, nb_cons, nb_expr e, nb_exprs es]
theorem nb_optExpr : (o : Option Expr) → (Expr.optTree o).noBreaks = true
  | .none => by simp [Expr.optTree, nb_none]
  | some e => by simp [Expr.optTree, nb_expr e]
theorem nb_optExprs : (os : List (Option Expr)) → Tree.noBreaksL (Expr.optTrees os) = true
  | [] => by simp [Expr.optTrees, nb_nil]
  | o :: os => by simp [Expr.optTrees, nb_cons, nb_optExpr o, nb_optExprs os]
theorem nb_item : (i : Item) → i.tree.noBreaks = true
  | .pair k v => by simp [Item.tree, nb_nd, nb_cons, nb_nil, nb_key, nb_expr v]
  | .pairLoop k l => by simp [Item.tree, nb_nd, nb_cons, nb_nil, nb_key, nb_loop l]
  | .child ln x t ex c => by
    simp [Item.tree, nb_ndl, nb_cons, nb_nil, nb_tk, nb_toks, nb_existing, nb_config c]
theorem nb_items : (is : List Item) → Tree.noBreaksL (Item.trees is) = true
  | [] => by simp [Item.trees, nb_nil]
  | i :: is => by simp [Item.trees, nb_cons, nb_item i, nb_items is]
theorem nb_loop : (l : Loop) → l.tree.noBreaks = true
  | .mk h c b => by simp [Loop.tree, nb_nd, nb_cons, nb_nil, nb_head h, nb_optExpr c, nb_expr b]
theorem nb_head : (h : LoopHead) → h.tree.noBreaks = true
  | .arr x e => by simp [LoopHead.tree, nb_nd, nb_cons, nb_nil, nb_tk, nb_toks, nb_expr e]
  | .arrIdx x i e => by simp [LoopHead.tree, nb_nd, nb_cons, nb_nil, nb_tk, nb_toks, nb_expr e]
  | .obj x e => by simp [LoopHead.tree, nb_nd, nb_cons, nb_nil, nb_tk, nb_toks, nb_expr e]
theorem nb_config : (c : Config) → c.tree.noBreaks = true
  | .obj is => by simp [Config.tree, nb_nd, nb_items is]
  | .loop l => by simp [Config.tree, nb_loop l]
  | .cond c e => by simp [Config.tree, nb_nd, nb_cons, nb_nil, nb_expr c, nb_expr e]
end

mutual
theorem nb_type : (d : DataType) → d.tree.noBreaks = true
  | .mk b n => by
    rw [DataType.tree, nb_nd, nb_cons, nb_base b, nb_all]
    · rfl
    · intro t ht
      rw [List.eq_of_mem_replicate ht, nb_nd, nb_nil]
theorem nb_base : (b : BaseType) → b.tree.noBreaks = true
  | .name x => by simp [BaseType.tree, nb_nd, nb_cons, nb_nil, nb_tk, nb_toks]
  | .union d1 d2 ds => by simp [BaseType.tree, nb_nd, nb_cons, nb_nil, nb_type d1, nb_type d2, nb_types ds]
theorem nb_types : (ds : List DataType) → Tree.noBreaksL (DataType.trees ds) = true
  | [] => by simp [DataType.trees, nb_nil]
  | d :: ds => by simp [DataType.trees, nb_cons, nb_type d, nb_types ds]
end

theorem nb_decos (ds : List Deco) : (decosTree ds).noBreaks = true := by
  unfold decosTree
  split
  · exact nb_none
  · rw [nb_nd]
    refine nb_all fun t ht => ?_
    obtain ⟨d, _, rfl⟩ := List.mem_map.mp ht
    unfold Deco.tree
    cases d.arg with
    | none => simp [nb_nd, nb_cons, nb_nil, nb_tk, nb_toks]
    | some e => simp [nb_nd, nb_cons, nb_nil, nb_tk, nb_toks, nb_expr]

theorem nb_value (v : LoopOrExpr) : v.tree.noBreaks = true := by
  cases v with
  | expr e => exact nb_expr e
  | loop l => exact nb_loop l

theorem nb_alias (o : Option Ident) : (optIdentTree o).noBreaks = true := by
  cases o <;> simp [optIdentTree, nb_none, nb_tk, nb_toks]

theorem nb_import (i : ImportItem) : i.tree.noBreaks = true := by
  unfold ImportItem.tree
  rw [nb_nd, nb_cons, nb_cons, nb_alias, nb_nil]
  cases i.name <;> simp [nb_tk, nb_toks]

theorem nb_params (ps : List (Ident × DataType)) : Tree.noBreaksL (paramTrees ps) = true := by
  induction ps with
  | nil => exact nb_nil
  | cons p ps ih =>
    obtain ⟨x, d⟩ := p
    simp [paramTrees, nb_cons, nb_tk, nb_toks, nb_type, ih]

theorem nb_decl (l : Lines) (d : Decl) : (d.tree l).noBreaks = true := by
  cases d with
  | scope b => simp [Decl.tree, nb_ndl, nb_cons, nb_nil, nb_tk, nb_toks]
  | importNs b => simp [Decl.tree, nb_ndl, nb_cons, nb_nil, nb_tk, nb_toks]
  | importFrom i is b =>
    rw [Decl.tree, nb_ndl, nb_cons, nb_append, nb_import, nb_all (ts := is.map ImportItem.tree)]
    · simp [nb_cons, nb_nil, nb_tk, nb_toks]
    · intro t ht
      obtain ⟨j, _, rfl⟩ := List.mem_map.mp ht
      exact nb_import j
  | extension x c al => cases c <;> simp [Decl.tree, nb_ndl, nb_nd, nb_cons, nb_nil, nb_tk, nb_toks, nb_alias, nb_none, nb_items]
  | metadata x b => simp [Decl.tree, nb_ndl, nb_nd, nb_cons, nb_nil, nb_tk, nb_toks]
  | param ds x t o => simp [Decl.tree, nb_ndl, nb_cons, nb_nil, nb_tk, nb_toks, nb_decos, nb_type, nb_optExpr]
  | var ds x t v => cases t <;> simp [Decl.tree, nb_ndl, nb_cons, nb_nil, nb_tk, nb_toks, nb_decos, nb_type, nb_value, nb_none]
  | output ds x t v => simp [Decl.tree, nb_ndl, nb_cons, nb_nil, nb_tk, nb_toks, nb_decos, nb_type, nb_value]
  | resource ds x b ex c =>
    simp [Decl.tree, nb_ndl, nb_nd, nb_cons, nb_nil, nb_tk, nb_toks, nb_decos, nb_existing, nb_config]
  | module ds x b c => simp [Decl.tree, nb_ndl, nb_nd, nb_cons, nb_nil, nb_tk, nb_toks, nb_decos, nb_config]
  | typ ds x e es =>
    rw [Decl.tree, typeValueTree]
    split <;> simp [nb_ndl, nb_nd, nb_cons, nb_nil, nb_tk, nb_toks, nb_decos, nb_expr, nb_exprs]
  | func ds x ps t e =>
    simp [Decl.tree, nb_ndl, nb_cons, nb_nil, nb_append, nb_tk, nb_toks, nb_decos, nb_params, nb_type, nb_expr]

theorem nb_program (p : Program) : p.tree.noBreaks = true := by
  rw [Program.tree, nb_nd]
  refine nb_all fun t ht => ?_
  obtain ⟨d, _, rfl⟩ := List.mem_map.mp ht
  exact nb_decl _ _

/-- no tree that the parser returns contains line breaks -/
theorem larkParse_noBreaks {text : String} {t : Tree} (h : larkParse text = .ok t) : t.noBreaks = true := by
  obtain ⟨p, _, hp⟩ := larkParse_program h
  rw [← noBreaks_core, hp, nb_program]

end Pycep
