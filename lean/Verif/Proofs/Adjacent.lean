import Verif.Proofs.SynErr
import Verif.Proofs.EndToEnd
/-
Which tokens can follow each other in an accepted text.
-/
namespace Pycep

/-- some state entered by a token of type `p` has a use for a token of type `t` -/
def Follows (p t : Nat) : Prop := ∃ st, st < numStates ∧ prevOf st = p ∧ acts st t = true

/-- every token can follow the one before it -/
inductive Adjacent : Nat → List Tok → Prop where
  | nil {p} : Adjacent p []
  | cons {p u w} : Follows p u.type → Adjacent u.type w → Adjacent p (u :: w)

theorem feed_acts {n : Nat} {stk stk' : Stack} {tk : Tok} (h : feed n stk tk = .shifted stk') :
    acts (topState stk) tk.type = true := by
  cases n with
  | zero => simp [feed] at h
  | succ n =>
    unfold feed at h
    unfold acts
    cases ha : action (topState stk) tk.type with
    | error => simp [ha] at h
    | _ => rfl

theorem parseLoop_adjacent (n : Nat) : ∀ (stk : Stack) (w : List Tok) (s : List Char) (l : Nat),
    Fed w stk → s.length < n → ∀ t, parseLoop n stk s l = .ok t →
    ∃ w', ExactTiling l s w' ∧ Adjacent (prevType w) w' ∧ DerL [N.start] [t] (w ++ w') tEND := by
  induction n with
  | zero => intro stk w s l _ h; omega
  | succ n ih =>
    intro stk w s l hfed hlen
    unfold parseLoop
    have hst := (hfed.inv tEND).top_lt
    have hns := nextTok_exact hst s.length s l
    cases hn : nextTok (accepts (topState stk)) s.length s l with
    | fail => simp
    | eof =>
      simp only
      obtain ⟨f1, f2, f3⟩ := feed_spec (feedFuel stk) stk w ⟨tEND, [], l, l⟩ (hfed.inv _)
      have f4 := Inv.feedFuel_ok ⟨tEND, [], l, l⟩ (hfed.inv _)
      cases hf : feed (feedFuel stk) stk ⟨tEND, [], l, l⟩ with
      | shifted stk' => have := (f1 stk' hf).2; simp at this
      | accept t =>
        intro t' ht
        simp only [ParseRes.ok.injEq] at ht
        subst ht
        refine ⟨[], ?_, .nil, by simpa using (f2 t hf).1⟩
        have := ExactTiling.skips (hns.1 hn) (l := l) (.nil)
        simpa using this
      | unexpected => simp
      | stuck => exact absurd hf f3
      | fuel => exact absurd hf f4
    | tok tk rest =>
      simp only
      obtain ⟨p, x, hs, hp, htext, hlt, hwh, hen, htk⟩ := hns.2 tk rest hn
      cases hf : feed (feedFuel stk) stk tk with
      | shifted stk' =>
        simp only
        have hx := htext.ne_nil hlt
        have hl : rest.length < n := by
          rw [hs] at hlen
          have := List.length_pos_iff.mpr hx
          simp at hlen; omega
        intro t ht
        obtain ⟨w', hw, hd, hder⟩ := ih stk' (w ++ [tk]) rest tk.endLine (.snoc hfed hf) hl t ht
        refine ⟨tk :: w', ?_, .cons ⟨topState stk, hst, hfed.prev, feed_acts hf⟩ (by simpa [prevType] using hd),
          by simpa using hder⟩
        rw [hs, List.append_assoc]
        refine ExactTiling.skips hp ?_
        rw [htk] at hw ⊢
        exact .tok htext hlt hwh hen hw
      | accept t => simp
      | unexpected => simp
      | stuck => simp
      | fuel => simp

theorem larkParse_adjacent_syn {text : String} {t : Tree} (h : larkParse text = .ok t) :
    ∃ p w, ExactTiling 1 text.toList w ∧ Adjacent tEND w ∧ ProgSyn p w tEND ∧ t.core = p.tree ∧ Spells text p := by
  obtain ⟨w, hw, ha, hd⟩ := parseLoop_adjacent (text.toList.length + 1) [] [] text.toList 1 .nil (by omega) t
    (by simpa [larkParse] using h)
  rw [List.nil_append] at hd
  obtain ⟨p, hp, hs⟩ := derL_program hd hw.tiling.tokText
  exact ⟨p, w, hw, ha, hs, hp, spells_of h hp hw hs⟩

theorem larkParse_adjacent {text : String} {t : Tree} (h : larkParse text = .ok t) :
    ∃ w, ExactTiling 1 text.toList w ∧ Adjacent tEND w := by
  obtain ⟨_, w, hw, ha, _⟩ := larkParse_adjacent_syn h
  exact ⟨w, hw, ha⟩

/-! ### Tokens read before an error follow each other properly -/

theorem Adjacent.snoc {p u} : ∀ {w}, Adjacent p w → Follows ((w.getLast?.map Tok.type).getD p) u.type →
    Adjacent p (w ++ [u])
  | [], _, h => .cons h .nil
  | v :: w, .cons h1 h2, h => by
    refine .cons h1 (h2.snoc ?_)
    rw [List.getLast?_cons] at h
    cases hw : w.getLast? with
    | none => rw [hw] at h; exact h
    | some _ => rw [hw] at h; exact h

theorem Fed.adjacent {w stk} (h : Fed w stk) : Adjacent tEND w := by
  induction h with
  | nil => exact .nil
  | snoc h hf ih => exact ih.snoc ⟨_, (h.inv tEND).top_lt, h.prev, feed_acts hf⟩

theorem runLoop_adjacent (n : Nat) : ∀ (stk : Stack) (s : List Char) (c last : Ctr) (w : List Tok) (pre : List Char),
    Fed w stk → s.length < n → c.At pre → Tiling 1 pre w →
    ∀ e, runLoop n stk s c last = .err e → ∃ w', Adjacent tEND w' ∧
      (Tiling 1 (pre ++ s) w' ∨ ∃ a r, pre ++ s = a ++ r ∧ Tiling 1 a w' ∧ e.pos = a.length) := by
  induction n with
  | zero => intro stk s c last w pre _ h; omega
  | succ n ih =>
    intro stk s c last w pre hfed hn hc hpre e
    have hacc : ∀ t ∈ accepts (topState stk), t < tEND := fun t => accepts_lt
    have hs := nextTokAt_spec hacc s.length s c pre (Nat.le_refl _) hc
    unfold runLoop
    cases hl : nextTokAt (accepts (topState stk)) s.length s c with
    | eof =>
      rw [hl] at hs
      simp only at hs
      intro _
      exact ⟨w, hfed.adjacent, .inl (by simpa using hpre.cat hs.tiling)⟩
    | fail s' c' =>
      rw [hl] at hs
      obtain ⟨p, rfl, hp, hc', hne, hscan⟩ := hs
      simp only
      obtain ⟨tok, ht, _, _⟩ := secondTry_spec (c := c') hne hscan
      rw [ht]
      intro h
      simp only [RunRes.err.injEq] at h
      refine ⟨w, hfed.adjacent, .inr ⟨pre ++ p, s', by simp, by simpa using hpre.cat hp.tiling, ?_⟩⟩
      rw [← h]; exact hc'.pos
    | tok tk c' rest c'' =>
      rw [hl] at hs
      obtain ⟨p, t, rfl, hp, hc', hc'', htext, htlt, htk, hscan, hmem, hi⟩ := hs
      simp only
      have hline : c'.line = 1 + countNL (pre ++ p) := by rw [hc'.line]; rfl
      have htil : Tiling 1 (pre ++ p) w := by simpa using hpre.cat hp.tiling
      cases hf : feed (feedFuel stk) stk tk with
      | accept t => simp
      | stuck => simp
      | fuel => simp
      | shifted stk' =>
        simp only
        have htil' : Tiling 1 (pre ++ p ++ tk.text) (w ++ [tk]) := by
          refine htil.cat ?_
          rw [← hline]
          have : Tiling c'.line (tk.text ++ []) [⟨tk.type, tk.text, c'.line, c'.line + countNL tk.text⟩] :=
            .tok htext htlt .nil
          rw [List.append_nil] at this
          have e : tk = ⟨tk.type, tk.text, c'.line, c'.line + countNL tk.text⟩ := by
            conv_lhs => rw [htk]
            conv_rhs => rw [htk]
          rw [e]; exact this
        have hpos := List.length_pos_iff.mpr (htext.ne_nil htlt)
        intro h
        simpa using ih stk' rest c'' c' (w ++ [tk]) (pre ++ p ++ tk.text) (.snoc hfed hf)
          (by simp at hn; omega) hc'' htil' e h
      | unexpected =>
        simp only
        intro h
        simp only [RunRes.err.injEq] at h
        refine ⟨w, hfed.adjacent, .inr ⟨pre ++ p, tk.text ++ rest, by simp, htil, ?_⟩⟩
        rw [← h]; exact hc'.pos

theorem larkRun_adjacent {text : String} {e} (h : larkRun text = .err e) : ∃ w, Adjacent tEND w ∧
    (Tiling 1 text.toList w ∨ ∃ a r, text.toList = a ++ r ∧ Tiling 1 a w ∧ e.pos = a.length) := by
  have := runLoop_adjacent (text.toList.length + 1) [] text.toList .init .init [] [] .nil (by omega) .init .nil e
    (by simpa [larkRun] using h)
  simpa using this

/-! ### No comment out of operators -/

/-- behind `/`, no `*` can follow -/
theorem check_slash_star : (List.range numStates).all (fun st =>
    prevOf st != T.SLASH || (!acts st T.STAR && !acts st T.__ANON_1)) = true := by decide +kernel

theorem slash_star {t : Nat} (h : Follows T.SLASH t) : t ≠ T.STAR ∧ t ≠ T.__ANON_1 := by
  obtain ⟨st, h1, h2, h3⟩ := h
  have := List.all_eq_true.mp check_slash_star st (List.mem_range.mpr h1)
  simp only [h2, bne_self_eq_false, Bool.false_or, Bool.and_eq_true, Bool.not_eq_true'] at this
  constructor
  · rintro rfl; rw [h3] at this; cases this.1
  · rintro rfl; rw [h3] at this; cases this.2

end Pycep
