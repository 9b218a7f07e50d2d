import Verif.Proofs.Work
import Verif.Props.Api
/-
C77: the work of the parser is linear in the number of tokens.
-/
namespace Pycep

/-- **C77.** For every text, accepted or not: the parser shifts at most as many tokens as the text has
characters, looks into its table at most seven times per token (and twice more), and the tree it returns
has at most five nodes per token (and one more).  (`Works` counts what `parseLoop` and `feed` do;
`C77_counted` says that the counts are determined by the text.) -/
theorem C77_linear (text : String) : ∃ k n, Works [] text.toList 1 k n (larkParse text) ∧
    k ≤ text.length ∧ n ≤ 7 * k + 2 ∧ ∀ t, larkParse text = .ok t → t.nodes ≤ 5 * k + 1 := by
  obtain ⟨k, n, h1, h2, h3, h4⟩ := parseLoop_works (text.toList.length + 1) [] [] text.toList 1 []
    Inv.init (by simpa using Lk.nil) (by omega)
  refine ⟨k, n, h1, by rwa [String.length_toList] at h2, by simpa [weightL] using h3, fun t ht => ?_⟩
  obtain ⟨w, hw, hd⟩ := h4 t ht
  have := start_nodes (by simpa using hd)
  omega

/-- The counts and the outcome are determined by the text. -/
theorem C77_counted {text : String} {k n k' n' r r'} (h : Works [] text.toList 1 k n r)
    (h' : Works [] text.toList 1 k' n' r') : k = k' ∧ n = n' ∧ r = r' ∧ r = larkParse text := by
  obtain ⟨h1, h2, h3⟩ := h.unique h'
  obtain ⟨_, _, hw, _⟩ := C77_linear text
  exact ⟨h1, h2, h3, (h.unique hw).2.2⟩

/-- For the public methods: a text that `parse` or `create_tree` hands to the parser is parsed with this
work, and the tree given to the transformer has at most five nodes per character and one more. -/
theorem C77_parse (P : Parser) {text path v} (h : P.parse text path = .ok v) :
    ∃ t tr k n, chosenText text path = .ok t ∧ Works [] t.toList 1 k n (.ok tr) ∧
      bicepToJson P.addLineNumbers tr = .ok v ∧ k ≤ t.length ∧ n ≤ 7 * k + 2 ∧ tr.nodes ≤ 5 * k + 1 := by
  rw [parse_eq] at h
  rcases createTree'_cases text path with ⟨e, h1, h2⟩ | ⟨t, m, h1, h2, h3, h4⟩ | ⟨t, h1, h2, _, h3⟩ |
    ⟨t, tree, p, h1, h2, hp, h3, h4, h5⟩
  · rw [h2] at h; cases h
  · rw [h3] at h; cases h
  · rw [h3] at h; cases h
  · rw [h5] at h
    obtain ⟨k, n, hw, hk, hn, ht⟩ := C77_linear t
    rw [hp] at hw
    refine ⟨t, tree, k, n, h1, hw, ?_, hk, hn, ht tree hp⟩
    simp only [Except.bind, liftV] at h
    split at h <;> simp_all

/-! ### Cases with numbers -/

/-- counting along -/
def countFeed (stk : Stack) (tk : Tok) : Nat → Nat → Option (Nat × FeedRes)
  | 0, _ => .none
  | f + 1, n => match feed n stk tk with
    | .fuel => countFeed stk tk f (n + 1)
    | r => some (n, r)

theorem countFeed_spec {stk tk} : ∀ {f n m r}, countFeed stk tk f n = some (m, r) →
    (∀ i < n, feed i stk tk = .fuel) → FeedsIn m stk tk r
  | 0, _, _, _, h, _ => by cases h
  | f + 1, n, m, r, h, hn => by
    unfold countFeed at h
    cases hf : feed n stk tk with
    | fuel =>
      simp only [hf] at h
      refine countFeed_spec h (fun i hi => ?_)
      rcases Nat.lt_succ_iff_lt_or_eq.mp hi with h1 | rfl
      · exact hn i h1
      · exact hf
    | shifted _ | accept _ | unexpected | stuck =>
      simp only [hf, Option.some.injEq, Prod.mk.injEq] at h
      obtain ⟨rfl, rfl⟩ := h
      exact ⟨hf, by simp, hn⟩

/-- the counts of `Works` -/
def countWork : Nat → Stack → List Char → Nat → Option (Nat × Nat)
  | 0, _, _, _ => .none
  | f + 1, stk, s, l => match nextTok (accepts (topState stk)) s.length s l with
    | .fail => some (0, 0)
    | .eof => match countFeed stk ⟨tEND, [], l, l⟩ 50 0 with
      | some (n, .accept _) => some (0, n)
      | some (n, .unexpected) => some (0, n)
      | _ => .none
    | .tok tk rest => match countFeed stk tk 50 0 with
      | some (n, .unexpected) => some (0, n)
      | some (n, .shifted stk') => match countWork f stk' rest tk.endLine with
        | some (k, m) => some (k + 1, n + m)
        | .none => .none
      | _ => .none

theorem countWork_spec : ∀ {f stk s l k n}, countWork f stk s l = some (k, n) → ∃ r, Works stk s l k n r
  | 0, _, _, _, _, _, h => by cases h
  | f + 1, stk, s, l, k, n, h => by
    unfold countWork at h
    have h0 : ∀ tk, ∀ i < 0, feed i stk tk = .fuel := by intro _ i hi; omega
    cases hn : nextTok (accepts (topState stk)) s.length s l with
    | fail => simp only [hn, Option.some.injEq, Prod.mk.injEq] at h; obtain ⟨rfl, rfl⟩ := h; exact ⟨_, .noToken hn⟩
    | eof =>
      simp only [hn] at h
      split at h
      · rename_i h'; cases h; exact ⟨_, .done hn (countFeed_spec h' (h0 _))⟩
      · rename_i h'; cases h; exact ⟨_, .early hn (countFeed_spec h' (h0 _))⟩
      · cases h
    | tok tk rest =>
      simp only [hn] at h
      split at h
      · rename_i h'; cases h; exact ⟨_, .refused hn (countFeed_spec h' (h0 _))⟩
      · rename_i h'
        split at h
        · rename_i h2
          cases h
          obtain ⟨r, hr⟩ := countWork_spec h2
          exact ⟨r, .shift hn (countFeed_spec h' (h0 _)) hr⟩
        · cases h
      · cases h

/-- Four tokens, ten look-ups. -/
example : ∃ r, Works [] "var a = b".toList 1 4 10 r :=
  countWork_spec (f := 20) (by decide +kernel)

/-- A text that is refused: three tokens are shifted, then no terminal matches. -/
example : ∃ r, Works [] "var a = = 1".toList 1 3 3 r :=
  countWork_spec (f := 20) (by decide +kernel)

/-- Calls, operators and brackets. -/
example : ∃ r, Works [] "var a = f(x, 1) + (b.c ? 2 : [1])".toList 1 20 59 r :=
  countWork_spec (f := 50) (by decide +kernel)

end Pycep
