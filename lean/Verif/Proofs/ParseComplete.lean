import Verif.Proofs.LRComplete
import Verif.Proofs.LexerSound
/-
Completeness of the parser, given that the lexer delivers the tokens in every state that has a use
for them.
-/
namespace Pycep

/-- The symbol on top of the stack in a state; `$END` in the initial state. -/
def prevOf (st : Nat) : Nat :=
  match past st with
  | [] => tEND
  | p :: _ => p

theorem prevOf_zero : prevOf 0 = tEND := by decide +kernel

theorem check_prevOf : (List.range numStates).all (fun p => (List.range tEND).all (fun y =>
    match action p y with
    | .shift s => prevOf s == y
    | _ => true)) = true := by decide +kernel

/-- A token just shifted is on top of the stack. -/
theorem prevOf_shift {p y s : Nat} (hp : p < numStates) (hy : y < tEND)
    (h : action p y = .shift s) : prevOf s = y := by
  have h1 := check_prevOf
  rw [List.all_eq_true] at h1
  have h1 := h1 p (List.mem_range.mpr hp)
  rw [List.all_eq_true] at h1
  have h1 := h1 y (List.mem_range.mpr hy)
  rw [h] at h1
  simpa using h1

theorem Inv.tail_lt {s v stk w n} (h : Inv ((s, v) :: stk) w n) : topState stk < numStates := by
  obtain ⟨ys, hl, _⟩ := h
  cases hl with
  | cons h' _ => rw [topState_eq]; exact h'.lt

/-- `Feeds p s l w`: in text `s`, starting on line `l` behind a token of type `p` (`$END` at the
start of the text), the lexer finds the tokens `w`, each of them in every parser state that may be
entered with the previous token and has an action for it, and then the end. -/
inductive Feeds : Nat → List Char → Nat → List Tok → Prop where
  | eof {p s l} : (∀ st < numStates, prevOf st = p → action st tEND ≠ .error →
      nextTok (accepts st) s.length s l = .eof) → Feeds p s l []
  | tok {p s l u rest w} : u.type < tEND → rest.length < s.length →
      (∀ st < numStates, prevOf st = p → action st u.type ≠ .error →
        nextTok (accepts st) s.length s l = .tok u rest) →
      Feeds u.type rest u.endLine w → Feeds p s l (u :: w)

theorem Feeds.lt {p s l w} (h : Feeds p s l w) : ∀ u ∈ w, u.type < tEND := by
  induction h with
  | eof => simp
  | tok h _ _ _ ih =>
    intro u hu
    rcases List.mem_cons.mp hu with rfl | hu
    · exact h
    · exact ih u hu

/-- more fuel does not change the outcome -/
theorem feed_mono {n stk tk} (h : feed n stk tk ≠ .fuel) : ∀ {m}, n ≤ m → feed m stk tk = feed n stk tk := by
  induction n generalizing stk with
  | zero => simp [feed] at h
  | succ n ih =>
    intro m hm
    cases m with
    | zero => omega
    | succ m =>
      unfold feed at h ⊢
      cases ha : action (topState stk) tk.type with
      | error => rfl
      | shift s => rfl
      | reduce r =>
        cases hr : rules[r]? with
        | none => simp only [hr]
        | some rule =>
          simp only [ha, hr] at h ⊢
          split
          · rfl
          · rename_i hlen
            rw [if_neg hlen] at h
            cases hg : goto (topState (stk.drop rule.rhs.length)) rule.lhs with
            | none => rfl
            | some s =>
              simp only [hg] at h ⊢
              split
              · rfl
              · rename_i hend
                rw [if_neg hend] at h
                exact ih h (by omega)

theorem feed_red {tk : Tok} {stk stk' : Stack} (h : Red tk.type stk stk') :
    ∃ k, ∀ n, feed (n + k) stk tk = feed n stk' tk := by
  induction h with
  | refl => exact ⟨0, fun _ => rfl⟩
  | @step stk stk' i rule s h1 h2 h3 h4 h5 _ ih =>
    obtain ⟨k, ih⟩ := ih
    refine ⟨k + 1, fun n => ?_⟩
    rw [← Nat.add_assoc]
    conv => lhs; unfold feed
    simp only [h1, h2]
    rw [if_neg (by omega)]
    simp only [h4]
    rw [if_neg h5]
    exact ih n

theorem feed_eq {tk : Tok} {stk : Stack} {w} (hinv : Inv stk w tk.type) {r : FeedRes} (hr : r ≠ .fuel)
    {k} (h : feed k stk tk = r) : feed (feedFuel stk) stk tk = r := by
  have h1 := Inv.feedFuel_ok tk hinv
  rcases Nat.le_total k (feedFuel stk) with hk | hk
  · rw [feed_mono (by rw [h]; exact hr) hk, h]
  · rw [← feed_mono h1 hk, h]

theorem Red.action_ne {a stk stk'} (h : Red a stk stk') (ha : action (topState stk') a ≠ .error) :
    action (topState stk) a ≠ .error := by
  cases h with
  | refl => exact ha
  | step h1 => rw [h1]; simp

theorem Inv.top_lt {stk w n} (h : Inv stk w n) : topState stk < numStates := by
  obtain ⟨ys, hl, _⟩ := h
  rw [topState_eq]; exact hl.lt

theorem loop_complete {stk w stk'} (h : Run stk w tEND stk') {i r}
    (ha : action (topState stk') tEND = .reduce i) (hr : rules[i]? = some r) (hl : r.lhs = N.start)
    (hlen : stk'.length = r.rhs.length) : ∀ {p s l n w0}, prevOf (topState stk) = p → Feeds p s l w →
    (∀ m, Inv stk w0 m) →
    s.length < n → parseLoop n stk s l =
      .ok (buildNode r ((stk'.take r.rhs.length).reverse.map Prod.snd)) := by
  generalize hm : tEND = m at h
  induction h with
  | @done stk stk' m hred =>
    subst hm
    intro p s l n w0 hp hf hinv hn
    cases hf with
    | eof hf =>
      obtain ⟨n, rfl⟩ : ∃ k, n = k + 1 := ⟨n - 1, by omega⟩
      have hne := hred.action_ne (by rw [ha]; simp)
      unfold parseLoop
      rw [hf _ (hinv 0).top_lt hp hne]
      simp only
      obtain ⟨k, hk⟩ := feed_red (tk := ⟨tEND, [], l, l⟩) hred
      have : feed (1 + k) stk ⟨tEND, [], l, l⟩ =
          .accept (buildNode r ((stk'.take r.rhs.length).reverse.map Prod.snd)) := by
        rw [hk 1]
        unfold feed
        simp only [ha, hr]
        rw [if_neg (by omega)]
        have hd : stk'.drop r.rhs.length = [] := by rw [← hlen]; simp
        rw [hd, hl]
        simp only [topState, goto_start]
        simp
      rw [feed_eq (hinv _) (by simp) this]
  | @shift stk stk1 stk' u st w m hred hact hne hrun ih =>
    subst hm
    intro p s l n w0 hp hf hinv hn
    cases hf with
    | @tok _ _ _ _ rest _ hlt hrest hf hfw =>
      obtain ⟨n, rfl⟩ : ∃ k, n = k + 1 := ⟨n - 1, by omega⟩
      have hne' := hred.action_ne (by rw [hact]; simp)
      unfold parseLoop
      rw [hf _ (hinv 0).top_lt hp hne']
      simp only
      obtain ⟨k, hk⟩ := feed_red (tk := u) hred
      have : feed (1 + k) stk u = .shifted ((st, .tok u) :: stk1) := by
        rw [hk 1]
        unfold feed
        simp only [hact]
        rw [if_neg hne]
      have he := feed_eq (hinv _) (by simp) this
      rw [he]
      simp only
      have hinv' := ((feed_spec _ _ _ _ (hinv _)).1 _ he).1
      exact ih ha hlen rfl (prevOf_shift (hinv' 0).tail_lt hlt hact) hfw hinv' (by omega)

/-- Every derivation of the tokens that respects the look-ahead conditions is found. -/
theorem larkParse_complete {text : String} {t w} (hf : Feeds tEND text.toList 1 w)
    (hd : DerB [N.start] [t] w tEND) : larkParse text = .ok t := by
  obtain ⟨stk, i, r, hrun, ha, hr, hl, hlen, rfl⟩ := run_start hd hf.lt
  unfold larkParse
  exact loop_complete hrun ha hr hl hlen prevOf_zero hf Inv.init (by omega)

end Pycep
