import Verif.Proofs.Words
import Verif.Proofs.Work
import Verif.Proofs.CoreTree
import Verif.Spec.Render
import Verif.Spec.Place
/-
The parser never reads `null`, `true` and `false` as identifiers of expressions.
-/
namespace Pycep

/-! ### The tables -/

/-- no reduction to a node `string` in state `s` -/
def plainState (s : Nat) : Bool :=
  (List.range numTerms).all fun t => match action s t with
    | .reduce r => match rules[r]? with
      | some rule => rule.name != "string"
      | .none => true
    | _ => true

/-- An identifier read in state `s` that does not accept the keyword `k`: it is not read in a state that
accepts `k` after a reduction, and does not become a node `string`. -/
def litStep (k s : Nat) : Bool :=
  match action s T.STRING with
  | .error => true
  | .shift s' => acts s k || plainState s'
  | .reduce r => acts s k || match rules[r]? with
    | .none => true
    | some rule => (List.range numStates).all fun q => match goto q rule.lhs with
      | .none => true
      | some s' => !acts s' T.STRING || !acts s' k

theorem check_lits : literals.all (fun k => (List.range numStates).all fun s => litStep k s) = true := by
  decide +kernel

/-- nodes `string` hold the last symbol of their rule -/
theorem check_string : rules.all (fun r => r.name != "string" ||
    (!r.expand1 && r.rhs.length != 0 && r.keep == [(r.rhs.length - 1, false, 0)] && r.tailNones == 0)) = true := by
  decide +kernel

theorem acts_iff {s t : Nat} : acts s t = false ↔ action s t = .error := by simp [acts]

theorem lit_shift {k s s' : Nat} (hk : k ∈ literals) (hs : s < numStates) (h : acts s k = false)
    (ha : action s T.STRING = .shift s') : plainState s' = true := by
  have := List.all_eq_true.mp (List.all_eq_true.mp check_lits k hk) s (List.mem_range.mpr hs)
  simpa [litStep, ha, h] using this

theorem lit_reduce {k s r q s' : Nat} {rule : Rule} (hk : k ∈ literals) (hs : s < numStates) (h : acts s k = false)
    (ha : action s T.STRING = .reduce r) (hr : rules[r]? = some rule) (hq : q < numStates)
    (hg : goto q rule.lhs = some s') : acts s' T.STRING = false ∨ acts s' k = false := by
  have := List.all_eq_true.mp (List.all_eq_true.mp check_lits k hk) s (List.mem_range.mpr hs)
  simp only [litStep, ha, h, hr, Bool.false_or] at this
  have := List.all_eq_true.mp this q (List.mem_range.mpr hq)
  simpa [hg] using this

theorem plain_reduce {s t r : Nat} {rule : Rule} (h : plainState s = true) (ha : action s t = .reduce r)
    (hr : rules[r]? = some rule) : rule.name ≠ "string" := by
  have ht : t < numTerms := by
    rcases Nat.lt_or_ge t numTerms with h | h
    · exact h
    · rw [action_ge h] at ha; cases ha
  have := List.all_eq_true.mp h t (List.mem_range.mpr ht)
  simpa [ha, hr] using this

/-- states with a reduction to a node `string` are entered by tokens -/
theorem check_entry : (List.range numStates).all (fun s => plainState s ||
    match past s with | y :: _ => decide (y < 128) | [] => false) = true := by decide +kernel

theorem goto_plain {y ys s ss} (h : Lk (y :: ys) (s :: ss)) (hy : 128 ≤ y) : plainState s = true := by
  have h1 := List.all_eq_true.mp check_entry s (List.mem_range.mpr h.lt)
  obtain ⟨zs, h2⟩ := h.past
  simp only [topOf] at h2
  cases hp : past s with
  | nil => simpa [hp] using h1
  | cons z zs' =>
    rw [hp] at h2
    simp only [List.cons_append, List.cons.injEq] at h2
    rw [← h2.1] at hy
    simp only [hp, Bool.or_eq_true, decide_eq_true_eq] at h1
    rcases h1 with h1 | h1
    · exact h1
    · omega

/-! ### Trees -/

/-- an identifier with the text of one of the three literals -/
def IsLit (t : Tree) : Prop := ∃ tk k, t = .tok tk ∧ tk.type = T.STRING ∧ k ∈ literals ∧ tk.text = fixedChars k

/-- no node `string` of the tree holds one of the three literals -/
inductive NoLit : Tree → Prop where
  | tok {t} : NoLit (.tok t)
  | none : NoLit .none
  | node {d ks sp} : (∀ k ∈ ks, NoLit k) → (d = "string" → ∀ k ∈ ks, ¬ IsLit k) → NoLit (.node d ks sp)

theorem NoLit.setSpan {t : Tree} (h : NoLit t) (kids : List Tree) : NoLit (setSpan t kids) := by
  unfold Pycep.setSpan
  cases h with
  | tok => exact .tok
  | none => exact .none
  | node h1 h2 =>
    simp only
    split
    · split <;> exact .node h1 h2
    · exact .node h1 h2

theorem NoLit.keep {r : Rule} {kids : List Tree} (h : ∀ k ∈ kids, NoLit k) : ∀ k ∈ keepKids r kids, NoLit k := by
  intro k hk
  unfold keepKids at hk
  rcases List.mem_append.mp hk with hk | hk
  · obtain ⟨⟨i, inl, n⟩, _, hk⟩ := List.mem_flatMap.mp hk
    rcases List.mem_append.mp hk with hk | hk
    · rw [List.eq_of_mem_replicate hk]; exact .none
    · cases hi : kids[i]? with
      | none => simp [hi] at hk
      | some c =>
        simp only [hi] at hk
        have hc := h c (List.mem_of_getElem? hi)
        cases inl with
        | false => simp only [Bool.false_eq_true, if_false, List.mem_singleton] at hk; rw [hk]; exact hc
        | true =>
          simp only [if_true] at hk
          cases hc with
          | tok => simp at hk
          | none => simp at hk
          | node h1 _ => exact h1 k hk
  · rw [List.eq_of_mem_replicate hk]; exact .none

theorem NoLit.build {r : Rule} (hr : r ∈ rules) {kids : List Tree} (hl : kids.length = r.rhs.length)
    (h : ∀ k ∈ kids, NoLit k) (hs : r.name = "string" → ∀ k, kids.getLast? = some k → ¬ IsLit k) :
    NoLit (buildNode r kids) := by
  unfold buildNode
  apply NoLit.setSpan
  have hk := NoLit.keep (r := r) h
  have hn : NoLit (.node r.name (keepKids r kids) .none) := by
    refine .node hk fun hn k hk' => ?_
    have hc := List.all_eq_true.mp check_string r hr
    simp only [hn, bne_self_eq_false, Bool.false_or, Bool.and_eq_true, Bool.not_eq_true', beq_iff_eq] at hc
    unfold keepKids at hk'
    simp only [hc.1.2, hc.2, List.replicate_zero, List.append_nil, List.nil_append, List.flatMap_cons, List.flatMap_nil,
      Bool.false_eq_true, if_false] at hk'
    apply hs hn k
    rw [List.getLast?_eq_getElem?, hl]
    cases hi : kids[r.rhs.length - 1]? with
    | none => simp [hi] at hk'
    | some c => simp only [hi, List.mem_singleton] at hk'; rw [hk']
  cases he : r.expand1 with
  | false => simpa using hn
  | true =>
    match hks : keepKids r kids with
    | [k] => simp only; exact hk k (by simp [hks])
    | [] => rw [hks] at hn; simpa using hn
    | _ :: _ :: _ => rw [hks] at hn; simpa using hn

/-! ### The stack -/

/-- no literal is or becomes a node `string` -/
def Fine (stk : Stack) : Prop := ∀ e ∈ stk, NoLit e.2 ∧ (IsLit e.2 → plainState e.1 = true)

theorem feed_nolit (n : Nat) : ∀ (stk : Stack) (w : List Tok) (tk : Tok), Inv stk w tk.type → Fine stk →
    (∀ k ∈ literals, tk.type = T.STRING → tk.text = fixedChars k →
      acts (topState stk) T.STRING = false ∨ acts (topState stk) k = false) →
    (∀ stk', feed n stk tk = .shifted stk' → Fine stk') ∧ (∀ t, feed n stk tk = .accept t → NoLit t) := by
  induction n with
  | zero => intro stk w tk _ _ _; simp [feed]
  | succ n ih =>
    intro stk w tk hinv hf hk
    have htop := hinv.top_lt
    unfold feed
    cases ha : action (topState stk) tk.type with
    | error => simp
    | shift s =>
      by_cases he : tk.type = tEND
      · simp [he]
      · simp only [he, if_false, FeedRes.shifted.injEq, reduceCtorEq, false_implies, implies_true, and_true]
        rintro stk' rfl e hm
        rcases List.mem_cons.mp hm with rfl | hm
        · refine ⟨.tok, ?_⟩
          rintro ⟨t, k, ht, h1, h2, h3⟩
          cases ht
          rw [h1] at ha
          rcases hk k h2 h1 h3 with h | h
          · rw [acts_iff] at h; rw [h] at ha; cases ha
          · exact lit_shift h2 htop h ha
        · exact hf e hm
    | reduce r =>
      obtain ⟨rule, s, hr, hmem, hle, hg, ys', hl', hd'⟩ := hinv.reduce_step ha
      simp only [hr]
      rw [if_neg (by omega)]
      simp only [hg]
      have hb : NoLit (buildNode rule ((stk.take rule.rhs.length).reverse.map Prod.snd)) := by
        refine .build hmem (by simp; omega) ?_ ?_
        · intro k hk
          obtain ⟨e, he, rfl⟩ := List.mem_map.mp hk
          exact (hf e (List.mem_of_mem_take (List.mem_reverse.mp he))).1
        · intro hn k hlast hlit
          have hc := List.all_eq_true.mp check_string rule hmem
          simp only [hn, bne_self_eq_false, Bool.false_or, Bool.and_eq_true, bne_iff_ne, ne_eq] at hc
          cases stk with
          | nil => simp at hlast
          | cons e stk =>
            obtain ⟨m, hm⟩ : ∃ m, rule.rhs.length = m + 1 := ⟨rule.rhs.length - 1, by omega⟩
            rw [hm] at hlast
            simp only [List.take_succ_cons, List.reverse_cons, List.map_append, List.map_cons, List.map_nil,
              List.getLast?_append, List.getLast?_singleton, Option.some_or, Option.some.injEq] at hlast
            rw [← hlast] at hlit
            exact plain_reduce ((hf e (by simp)).2 hlit) ha hr hn
      by_cases hend : tk.type = tEND ∧ s = endState
      · simp only [hend, and_self, if_true]
        refine ⟨by simp, ?_⟩
        intro t ht
        simp only [FeedRes.accept.injEq] at ht
        rw [← ht]; exact hb
      · rw [if_neg hend]
        have hinv' : Inv ((s, buildNode rule ((stk.take rule.rhs.length).reverse.map Prod.snd)) ::
            stk.drop rule.rhs.length) w tk.type :=
          ⟨_, hl', by simpa [topState] using hinv.reduce_next ha hr hg (by simpa using hl') hend, hd'⟩
        refine ih _ w tk hinv' ?_ ?_
        · intro e he
          rcases List.mem_cons.mp he with rfl | he
          · refine ⟨hb, fun _ => goto_plain (by simpa using hl') (rule_spec hmem).1⟩
          · exact hf e (List.mem_of_mem_drop he)
        · intro k hkl h1 h3
          rcases hk k hkl h1 h3 with h | h
          · rw [h1, acts_iff.mp h] at ha; cases ha
          · rw [h1] at ha
            have hq : topState (stk.drop rule.rhs.length) < numStates := by
              have hlk : Lk ys' ((stk.drop rule.rhs.length).map Prod.fst) := by
                cases hl' with | cons h _ => exact h
              rw [topState_eq]; exact hlk.lt
            exact lit_reduce hkl htop h ha hr hq hg

/-! ### The lexer -/

theorem literal_facts : ∀ k ∈ literals, k ∈ keywordIds ∧ k ≠ T.STRING := by decide +kernel

/-- an identifier with the text of a keyword is read only where the keyword is not accepted -/
theorem nextTok_lit {st k : Nat} (hk : k ∈ keywordIds) : ∀ (n : Nat) (s : List Char) (l : Nat) {tk rest},
    nextTok (accepts st) n s l = .tok tk rest → tk.type = T.STRING → tk.text = fixedChars k → acts st k = false := by
  intro n
  induction n with
  | zero => intro s l tk rest h; cases s <;> simp [nextTok] at h
  | succ n ih =>
    intro s l tk rest h
    cases s with
    | nil => simp [nextTok] at h
    | cons c s =>
      unfold nextTok at h
      simp only at h
      split at h
      · simp at h
      · rename_i t r _
        split at h
        · split at h
          · exact ih _ _ h
          · cases h
            intro h1 h2
            simp only at h1 h2
            have ht := retype_plain h1 (by decide +kernel) (by decide)
            cases ha : acts st k with
            | false => rfl
            | true =>
              exfalso
              have hlt : k < tEND := (keyword_facts k hk).1
              have := (retype_word (acc := accepts st) (ht ▸ unless_string)).1 k hk (mem_accepts.mpr ⟨hlt, .inl ha⟩) h2
              rw [h1] at this
              subst this
              revert hk; decide +kernel
        · simp at h

theorem parseLoop_nolit (n : Nat) : ∀ (stk : Stack) (w : List Tok) (s : List Char) (l : Nat),
    (∀ m, Inv stk w m) → Fine stk → ∀ t, parseLoop n stk s l = .ok t → NoLit t := by
  induction n with
  | zero => intro stk w s l _ _ t h; simp [parseLoop] at h
  | succ n ih =>
    intro stk w s l hinv hf t h
    unfold parseLoop at h
    cases hn : nextTok (accepts (topState stk)) s.length s l with
    | fail => simp [hn] at h
    | eof =>
      simp only [hn] at h
      have := feed_nolit (feedFuel stk) stk w ⟨tEND, [], l, l⟩ (hinv _) hf (fun k _ e => by cases e)
      cases hfd : feed (feedFuel stk) stk ⟨tEND, [], l, l⟩ <;> simp only [hfd, reduceCtorEq, ParseRes.ok.injEq] at h
      rw [← h]
      exact this.2 _ hfd
    | tok tk rest =>
      simp only [hn] at h
      have := feed_nolit (feedFuel stk) stk w tk (hinv _) hf
        (fun k hk e1 e2 => .inr (nextTok_lit (literal_facts k hk).1 _ _ _ hn e1 e2))
      cases hfd : feed (feedFuel stk) stk tk <;> simp only [hfd, reduceCtorEq] at h
      exact ih _ (w ++ [tk]) rest tk.endLine (((feed_spec _ stk w tk (hinv _)).1 _ hfd).1) (this.1 _ hfd) t h

theorem larkParse_nolit {text : String} {t : Tree} (h : larkParse text = .ok t) : NoLit t :=
  parseLoop_nolit _ [] [] _ 1 Inv.init (by intro e he; cases he) t h

/-! ### Programs -/

theorem NoLit.core {t : Tree} (h : NoLit t) : NoLit t.core := by
  induction h with
  | tok => simp [Tree.core]; exact .tok
  | none => simp [Tree.core]; exact .none
  | @node d ks sp _ h2 ih =>
    simp only [Tree.core, coreList_eq]
    refine .node ?_ ?_
    · intro k hk
      obtain ⟨c, hc, rfl⟩ := List.mem_map.mp hk
      exact ih c hc
    · intro hd k hk
      obtain ⟨c, hc, rfl⟩ := List.mem_map.mp hk
      rintro ⟨tk, k, h3, h4, h5, h6⟩
      cases c with
      | tok u =>
        simp only [Tree.core, Tree.tok.injEq] at h3
        subst h3
        exact h2 hd _ hc ⟨u, k, rfl, h4, h5, h6⟩
      | none => simp [Tree.core] at h3
      | node _ _ _ => simp [Tree.core] at h3

theorem NoLit.kids {d ks sp} (h : NoLit (.node d ks sp)) : ∀ k ∈ ks, NoLit k := by cases h with | node h _ => exact h

/-- the tree of a piece -/
def Node.tree : Node → Tree
  | .expr e => e.tree
  | .loop l => l.tree
  | .head h => h.tree
  | .config c => c.tree
  | .type d => d.tree
  | .deco d => d.tree

theorem exprTrees_eq : ∀ es : List Expr, Expr.trees es = es.map Expr.tree
  | [] => by simp [Expr.trees]
  | e :: es => by simp [Expr.trees, exprTrees_eq es]
theorem optTrees_eq : ∀ es : List (Option Expr), Expr.optTrees es = es.map Expr.optTree
  | [] => by simp [Expr.optTrees]
  | e :: es => by simp [Expr.optTrees, optTrees_eq es]
theorem itemTrees_eq : ∀ is : List Item, Item.trees is = is.map Item.tree
  | [] => by simp [Item.trees]
  | e :: es => by simp [Item.trees, itemTrees_eq es]

theorem NoLit.item {i : Item} (h : NoLit i.tree) : NoLit i.node.tree := by
  cases i <;> simp only [Item.tree, nd, ndl] at h <;> exact h.kids _ (by simp [Item.node, Node.tree])

theorem NoLit.part1 {n m : Node} (h : Part1 n m) (hn : NoLit n.tree) : NoLit m.tree := by
  cases h with
  | elem he =>
    simp only [Node.tree, Expr.tree, nd, exprTrees_eq] at hn
    exact hn.kids _ (List.mem_map.mpr ⟨_, he, rfl⟩)
  | arg he =>
    simp only [Node.tree, Expr.tree, nd, exprTrees_eq] at hn
    exact hn.kids _ (List.mem_cons_of_mem _ (List.mem_map.mpr ⟨_, he, rfl⟩))
  | member hi | configMember hi =>
    simp only [Node.tree, Expr.tree, Config.tree, nd, itemTrees_eq] at hn
    exact NoLit.item (hn.kids _ (List.mem_map.mpr ⟨_, hi, rfl⟩))
  | left | right | not | minus | cond | condT | condF | method =>
    simp only [Node.tree, Expr.tree, nd] at hn
    exact (hn.kids _ (List.mem_singleton.mpr rfl)).kids _ (by simp [Node.tree])
  | methodArg ha =>
    simp only [Node.tree, Expr.tree, nd, optTrees_eq] at hn
    exact (hn.kids _ (List.mem_singleton.mpr rfl)).kids _ (by simp only [List.mem_cons, List.mem_map]; exact .inr (.inr ⟨_, ha, rfl⟩))
  | lambdaV | lambdaB | loopHead | loopCond | loopBody | headArr | headIdx | headObj | configCond | configBody =>
    simp only [Node.tree, Expr.tree, Loop.tree, LoopHead.tree, Config.tree, nd] at hn
    exact hn.kids _ (by simp [Node.tree, Expr.optTree])
  | configLoop => simpa only [Node.tree, Config.tree] using hn
  | lambdaNV hv =>
    simp only [Node.tree, Expr.tree, nd, exprTrees_eq] at hn
    refine hn.kids _ ?_
    simp only [List.mem_cons] at hv
    simp only [Node.tree, List.mem_cons, List.mem_append, List.mem_map]
    rcases hv with rfl | rfl | rfl | hv
    · exact .inl rfl
    · exact .inr (.inl rfl)
    · exact .inr (.inr (.inl rfl))
    · exact .inr (.inr (.inr (.inl ⟨_, hv, rfl⟩)))
  | lambdaNB =>
    simp only [Node.tree, Expr.tree, nd] at hn
    exact hn.kids _ (by simp [Node.tree])
  | decoArg hd =>
    simp only [Node.tree, Deco.tree, nd, hd] at hn
    exact hn.kids _ (by simp [Node.tree])

theorem NoLit.part {n m : Node} (h : Part n m) (hn : NoLit n.tree) : NoLit m.tree := by
  induction h with
  | refl => exact hn
  | step _ h1 ih => exact NoLit.part1 h1 ih

theorem NoLit.decos {ds : List Deco} (h : NoLit (decosTree ds)) {d} (hd : d ∈ ds) : NoLit d.tree := by
  unfold decosTree at h
  rw [if_neg (by cases ds <;> simp at hd ⊢)] at h
  exact NoLit.kids h _ (List.mem_map.mpr ⟨_, hd, rfl⟩)

theorem NoLit.declPart1 {ln : Lines} {d : Decl} {m : Node} (h : DeclPart1 d m) (hd : NoLit (d.tree ln)) :
    NoLit m.tree := by
  cases h with
  | extension hi =>
    simp only [Decl.tree, ndl, nd, itemTrees_eq] at hd
    exact NoLit.item ((hd.kids (.node "object" _ .none) (by simp)).kids _ (List.mem_map.mpr ⟨_, hi, rfl⟩))
  | paramDeco hm | varDeco hm | outDeco hm | resDeco hm | modDeco hm | typDeco hm | funcDeco hm =>
    simp only [Decl.tree, ndl] at hd
    exact NoLit.decos (hd.kids _ (List.mem_cons_self ..)) hm
  | paramDefault | varExpr | varLoop | outExpr | outLoop | resConfig | modConfig | funcBody =>
    simp only [Decl.tree, ndl] at hd
    exact hd.kids _ (by simp [Node.tree, LoopOrExpr.tree, Expr.optTree])
  | @typExpr ds x e es a ha =>
    simp only [Decl.tree, ndl] at hd
    have := hd.kids (typeValueTree e es) (by simp)
    unfold typeValueTree at this
    split at this
    · rename_i he
      rw [List.isEmpty_iff] at he; subst he
      simp only [List.mem_singleton] at ha; subst ha
      exact this
    · rw [exprTrees_eq] at this
      refine NoLit.kids this _ ?_
      rcases List.mem_cons.mp ha with rfl | ha
      · simp [Node.tree]
      · simp only [Node.tree, List.mem_cons, List.mem_map]
        exact .inr ⟨_, ha, rfl⟩

theorem NoLit.has {p : Program} {n : Node} (hp : NoLit p.tree) (h : p.Has n) : NoLit n.tree := by
  obtain ⟨l, d, m, hd, hm, hn⟩ := h
  refine NoLit.part hn (NoLit.declPart1 (ln := l) hm ?_)
  unfold Program.tree nd at hp
  exact hp.kids _ (List.mem_map.mpr ⟨_, hd, rfl⟩)

theorem NoLit.ident {x : Ident} (h : NoLit (Node.expr (.ident x)).tree) : x.Other literals := by
  simp only [Node.tree, Expr.tree, nd] at h
  cases h with
  | node _ h2 =>
    intro k hk he
    exact h2 rfl _ (List.mem_singleton.mpr rfl) ⟨_, k, rfl, rfl, hk, he⟩

end Pycep
