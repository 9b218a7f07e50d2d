import Verif.Spec.Extents
import Verif.Proofs.Words
/-
String literals, comments and line ends extend as far as they should.
-/
namespace Pycep

/-! ### Quoted strings -/

/-- what a loop consumes, for any predicate closed under repetition -/
theorem starLoop_closed {m : Matcher} {L P : List Char → Prop} (hm : Sound m L) (h0 : P [])
    (hs : ∀ x y, L x → P y → P (x ++ y)) (n : Nat) : Sound (starLoop m n) P := by
  induction n with
  | zero => intro s k out h; exact ⟨[], s, rfl, h0, h⟩
  | succ n ih =>
    intro s k out h
    unfold starLoop at h
    rcases orElse_some h with h | ⟨_, h⟩
    · obtain ⟨pre, suf, rfl, hp, hk⟩ := hm _ _ _ h
      split at hk
      · obtain ⟨pre', suf', rfl, hp', hk'⟩ := ih _ _ _ hk
        exact ⟨pre ++ pre', suf', by simp, hs _ _ hp hp', hk'⟩
      · exact ⟨pre, suf, rfl, by simpa using hs _ _ hp h0, hk⟩
    · exact ⟨[], s, rfl, h0, h⟩

/-- a part of an interpolation -/
def HolePart (x : List Char) : Prop := ∀ h, ShutHole h → ShutHole (x ++ h)

theorem hole_sound {rec : Matcher} (hr : Sound rec HolePart) : Sound (holeUnit.run rec) HolePart := by
  intro s k out h
  rw [run_alt] at h
  rcases orElse_some h with h | ⟨_, h⟩
  · have hset : Sound ((Re.set (fun c => c != '}' && c != '\'' && c != '{')).run rec) HolePart := by
      intro s k out h
      cases s with
      | nil => simp [Re.run] at h
      | cons c s =>
        rw [run_set] at h
        split at h
        · rename_i hc
          simp only [Bool.and_eq_true, bne_iff_ne] at hc
          exact ⟨[c], s, rfl, fun y hy => .chr hc.1.2 hc.2 hc.1.1 hy, h⟩
        · simp at h
    rw [Re.plus, run_seq] at h
    obtain ⟨x, y, rfl, hx, h⟩ := hset _ _ _ h
    rw [run_star] at h
    obtain ⟨x', y', rfl, hx', h⟩ := starLoop_closed hset (P := HolePart) (fun _ h => h)
      (fun a b ha hb z hz => by rw [List.append_assoc]; exact ha _ (hb _ hz)) _ _ _ _ h
    exact ⟨x ++ x', y', by simp, fun z hz => by rw [List.append_assoc]; exact hx _ (hx' _ hz), h⟩
  · exact hr _ _ _ h

/-- a part of a quoted string -/
def BodyPart (x : List Char) : Prop := ∀ b, ShutBody b → ShutBody (x ++ b)

theorem unit_sound {rec : Matcher} (hr : Sound rec HolePart) :
    Sound (Terminals.quotedUnit.run rec) BodyPart := by
  intro s k out h
  rw [Terminals.quotedUnit, run_alt, run_alt] at h
  rcases orElse_some h with h | ⟨_, h⟩
  · rw [run_seq] at h
    cases s with
    | nil => simp [chr_run_nil] at h
    | cons c s =>
      by_cases hc : c = '$'
      · subst hc
        rw [chr_run, run_seq] at h
        cases s with
        | nil => simp [chr_run_nil] at h
        | cons d s =>
          by_cases hd : d = '{'
          · subst hd
            rw [chr_run, run_seq] at h
            have h' : (match starLoop (holeUnit.run rec) s.length s some with
              | some s' => (Re.chr '}').run rec s' k
              | .none => .none) = some out := h
            cases hl : starLoop (holeUnit.run rec) s.length s some with
            | none => rw [hl] at h'; simp at h'
            | some r =>
              rw [hl] at h'
              obtain ⟨x, y, rfl, hx, hy⟩ := starLoop_closed (hole_sound hr) (P := ShutHole) .nil
                (fun a b ha hb => ha _ hb) _ _ _ _ hl
              cases hy
              cases r with
              | nil => simp [chr_run_nil] at h'
              | cons e r =>
                by_cases he : e = '}'
                · subst he
                  simp only [chr_run] at h'
                  refine ⟨'$' :: '{' :: x ++ ['}'], r, by simp, fun b hb => ?_, h'⟩
                  simpa using ShutBody.hole hx hb
                · simp [chr_run_ne he] at h'
          · simp [chr_run_ne hd] at h
      · simp [chr_run_ne hc] at h
  · rcases orElse_some h with h | ⟨_, h⟩
    · rw [run_seq] at h
      cases s with
      | nil => simp [chr_run_nil] at h
      | cons c s =>
        by_cases hc : c = '\\'
        · subst hc
          rw [chr_run] at h
          cases s with
          | nil => simp [chr_run_nil] at h
          | cons d s =>
            by_cases hd : d = '\''
            · subst hd
              rw [chr_run] at h
              exact ⟨['\\', '\''], s, rfl, fun b hb => .esc hb, h⟩
            · simp [chr_run_ne hd] at h
        · simp [chr_run_ne hc] at h
    · cases s with
      | nil => simp [Re.run] at h
      | cons c s =>
        rw [run_set] at h
        split at h
        · rename_i hc
          exact ⟨[c], s, rfl, fun b hb => .chr (by simpa using hc) hb, h⟩
        · simp at h

theorem nlook_triple {rec : Matcher} {s out : List Char} {k : Cont}
    (h : (Re.nlook (.seq (.star Re.dot) (Re.lit ['\'', '\'', '\'']))).run rec s k = some out) :
    NoTriple s ∧ k s = some out := by
  unfold Re.run at h
  split at h
  · simp at h
  · rename_i hn
    refine ⟨fun hi => hn ?_, h⟩
    obtain ⟨a, b, e⟩ := hi
    have hs : s = a ++ (['\'', '\'', '\''] ++ (b ++ s.dropWhile (· != '\n'))) := by
      have := List.takeWhile_append_dropWhile (p := (· != '\n')) (l := s)
      rw [← e] at this
      exact this.symm.trans (by simp)
    have ha : ∀ c ∈ a, (c != '\n') = true := fun c hc =>
      mem_takeWhile (p := (· != '\n')) (s := s) (by rw [← e]; simp [hc])
    rw [run_seq, run_star]
    have hlen : a.length ≤ s.length := by rw [hs]; simp
    have := starLoop_set_isSome (rec := rec) (p := (· != '\n'))
      (k := fun s' => (Re.lit ['\'', '\'', '\'']).run rec s' some) a
      (['\'', '\'', '\''] ++ (b ++ s.dropWhile (· != '\n'))) s.length hlen ha
      (by simp only [lit_run]; rfl)
    rw [← hs] at this
    exact this

theorem quoted_sound {rec : Matcher} (hr : Sound rec HolePart) {s out : List Char} {k : Cont}
    (h : Terminals.QUOTED_INTERPOLATION.run rec s k = some out) :
    NoTriple s ∧ ∃ b r, s = '\'' :: b ++ '\'' :: r ∧ ShutBody b ∧ k r = some out := by
  rw [Terminals.QUOTED_INTERPOLATION, run_seq] at h
  obtain ⟨ht, h⟩ := nlook_triple h
  refine ⟨ht, ?_⟩
  rw [run_seq] at h
  cases s with
  | nil => simp [chr_run_nil] at h
  | cons c s =>
    by_cases hc : c = '\''
    · subst hc
      rw [chr_run, run_seq, run_star] at h
      obtain ⟨x, y, rfl, hx, h⟩ := starLoop_closed (unit_sound hr) (P := ShutBody) .nil
        (fun a b ha hb => ha _ hb) _ _ _ _ h
      cases y with
      | nil => simp [chr_run_nil] at h
      | cons d y =>
        by_cases hd : d = '\''
        · subst hd
          rw [chr_run] at h
          exact ⟨x, y, by simp, hx, h⟩
        · simp [chr_run_ne hd] at h
    · simp [chr_run_ne hc] at h

theorem scanRe_part {rec : Matcher} (hr : Sound rec HolePart) : ∀ {ids : List Nat},
    (∀ t ∈ ids, t < tEND) → Sound ((scanRe ids).run rec) HolePart
  | [], _ => by
    intro s k out h
    have h : Option.none = some out := h
    simp at h
  | i :: ids, hlt => by
    intro s k out h
    have h : (Re.alt (termRe i) (scanRe ids)).run rec s k = some out := h
    rw [run_alt] at h
    rcases orElse_some h with h | ⟨_, h⟩
    · by_cases hi : i = T.QUOTED_INTERPOLATION
      · subst hi
        obtain ⟨_, b, r, rfl, hb, hk⟩ := quoted_sound hr (show Terminals.QUOTED_INTERPOLATION.run _ _ _ = _ from h)
        refine ⟨'\'' :: b ++ ['\''], r, by simp, fun y hy => ?_, hk⟩
        simpa using ShutHole.str hb hy
      · have hr' : Sound rec (fun _ => True) := fun s k out h => by
          obtain ⟨x, y, e, _, hk⟩ := hr s k out h
          exact ⟨x, y, e, trivial, hk⟩
        obtain ⟨x, y, e, hl, hk⟩ := Re.run_sound hr' _ _ _ _ h
        refine ⟨x, y, e, fun z hz => ?_, hk⟩
        have hlt' := hlt i (by simp)
        have := termRe_sound hlt' hl
        split at this
        · exact .skip this hz
        · exact .tok hlt' hi this hz
    · exact scanRe_part hr (fun t ht => hlt t (by simp [ht])) _ _ _ h

theorem recMatcher_part {ids : List Nat} (hlt : ∀ t ∈ ids, t < tEND) (n : Nat) :
    Sound (recMatcher (scanRe ids) n) HolePart := by
  induction n with
  | zero => intro s k out h; simp [recMatcher] at h
  | succ n ih => exact scanRe_part ih hlt

/-! ### The first end -/

theorem first_end {m : List Char} (hm : m ≠ []) : ∀ {s : List Char}, m <:+: s →
    ∃ a r, s = a ++ m ++ r ∧ ¬ m <:+: a ++ m.dropLast
  | s, h => by
    by_cases hp : m <+: s
    · obtain ⟨r, rfl⟩ := hp
      refine ⟨[], r, by simp, fun h => ?_⟩
      have := h.length_le
      have := List.length_pos_iff.mpr hm
      simp at *
      omega
    · cases s with
      | nil => exact absurd (List.infix_nil.mp h) hm
      | cons c s =>
        have hs : m <:+: s := by
          rcases List.infix_cons_iff.mp h with h | h
          · exact absurd h hp
          · exact h
        obtain ⟨a, r, rfl, hn⟩ := first_end hm hs
        refine ⟨c :: a, r, by simp, fun h' => ?_⟩
        rw [List.cons_append] at h'
        rcases List.infix_cons_iff.mp h' with h' | h'
        · refine hp (h'.trans ⟨[m.getLast hm] ++ r, ?_⟩)
          have := List.dropLast_append_getLast hm
          rw [List.cons_append, List.append_assoc, ← List.append_assoc m.dropLast, this]
          simp
        · exact hn h'

theorem multi_ends {top : Re} {x rest : List Char} (hx : TokText T.MULTI_LINE_STRING x)
    (h : Re.matchIn top (termRe T.MULTI_LINE_STRING) (x ++ rest) = some rest) :
    ∃ b, x = '\'' :: '\'' :: '\'' :: b ++ ['\'', '\'', '\''] ∧ ¬ ['\'', '\'', '\''] <:+: b ++ ['\'', '\''] := by
  obtain ⟨b, rfl⟩ := hx
  refine ⟨b, rfl, ?_⟩
  obtain ⟨a, r, e, hn⟩ := first_end (m := ['\'', '\'', '\'']) (by simp)
    (s := b ++ ['\'', '\'', '\''] ++ rest) ⟨b, rest, rfl⟩
  have e' : '\'' :: '\'' :: '\'' :: b ++ ['\'', '\'', '\''] ++ rest =
      '\'' :: '\'' :: '\'' :: a ++ ['\'', '\'', '\''] ++ r := by
    simpa using e
  rw [e', multi_match hn] at h
  cases h
  rw [List.append_left_inj, List.append_left_inj] at e
  rw [e]
  exact hn

theorem comment_match {top : Re} {x s : List Char} (hx : ¬ ['*', '/'] <:+: x ++ ['*']) :
    Re.matchIn top (termRe T.C_COMMENT) ('/' :: '*' :: x ++ ['*', '/'] ++ s) = some s := by
  show Terminals.C_COMMENT.run _ _ some = some s
  rw [Terminals.C_COMMENT, run_seq]
  have e : '/' :: '*' :: x ++ ['*', '/'] ++ s = ['/', '*'] ++ (x ++ ('*' :: '/' :: s)) := by simp
  rw [e, lit_run, run_seq]
  exact lazy_comment x _ (by simp) hx

theorem hash_match {top : Re} {x s : List Char} (hx : ∀ c ∈ x, c ≠ '\n')
    (hs : Stops (· != '\n') s) : Re.matchIn top (termRe T.SH_COMMENT) ('#' :: x ++ s) = some s := by
  show Terminals.SH_COMMENT.run _ ('#' :: x ++ s) some = some s
  rw [Terminals.SH_COMMENT, run_seq, List.cons_append, chr_run]
  exact star_set hs (fun c hc => by simpa using hx c hc) rfl

/-- Everything skipped extends as far as it should. -/
theorem skipped_of_match {top : Re} {t : Nat} {x rest : List Char} (ht : t ∈ ignoreIds)
    (hl : Lang (termRe t) x) (h : Re.matchIn top (termRe t) (x ++ rest) = some rest) : Skipped x rest := by
  have ht : t = T.C_COMMENT ∨ t = T.WS_INLINE ∨ t = T.SH_COMMENT := by
    have : ∀ t ∈ ignoreIds, t = T.C_COMMENT ∨ t = T.WS_INLINE ∨ t = T.SH_COMMENT := by decide
    exact this t ht
  rcases ht with rfl | rfl | rfl
  · obtain ⟨p, q, rfl, hp, hq⟩ := Lang.seq_inv (show Lang Terminals.C_COMMENT x from hl)
    obtain ⟨b, e, rfl, hb, he⟩ := hq.seq_inv
    obtain rfl := hp.lit_inv
    obtain rfl := he.lit_inv
    obtain ⟨a, r, e, hn⟩ := first_end (m := ['*', '/']) (by simp)
      (s := b ++ ['*', '/'] ++ rest) ⟨b, rest, rfl⟩
    have e' : ['/', '*'] ++ (b ++ ['*', '/']) ++ rest = '/' :: '*' :: a ++ ['*', '/'] ++ r := by
      simpa using e
    rw [e', comment_match hn] at h
    cases h
    rw [List.append_left_inj, List.append_left_inj] at e
    subst e
    have := Skipped.comment (s := rest) hn
    simpa using this
  · have := lang_ws hl
    have hb : x ≠ [] ∧ ∀ c ∈ x, c = ' ' ∨ c = '\t' := by
      obtain ⟨a, b, rfl, ha, hb⟩ := Lang.plus_inv (show Lang Terminals.WS_INLINE x from hl)
      have hone : ∀ a, Lang (.alt (Re.chr '\t') (Re.chr ' ')) a → a = ['\t'] ∨ a = [' '] := by
        intro a ha
        rcases ha.alt_inv with ha | ha
        · exact .inl ha.chr_inv
        · exact .inr ha.chr_inv
      have hb' : ∀ c ∈ b, c = ' ' ∨ c = '\t' := by
        refine Lang.star_ind (P := fun b => ∀ c ∈ b, c = ' ' ∨ c = '\t') (by simp) ?_ hb
        intro x y hx hy c hc
        rcases List.mem_append.mp hc with h | h
        · rcases hone x hx with rfl | rfl <;> simp at h <;> simp [h]
        · exact hy c h
      rcases hone a ha with rfl | rfl
      · exact ⟨by simp, by simpa using hb'⟩
      · exact ⟨by simp, by simpa using hb'⟩
    have hstop : Stops isBlank rest := by
      have e := List.takeWhile_append_dropWhile (p := isBlank) (l := rest)
      have hall : ∀ c ∈ x ++ rest.takeWhile isBlank, isBlank c = true := by
        intro c hc
        rcases List.mem_append.mp hc with hc | hc
        · rcases hb.2 c hc with rfl | rfl <;> decide
        · exact mem_takeWhile hc
      have := ws_match (top := top) (by simp [hb.1]) hall (stops_drop isBlank rest)
      rw [List.append_assoc, e, h] at this
      rw [Option.some.injEq] at this
      rw [this]
      exact stops_drop _ _
    refine .blanks hb.1 hb.2 (fun hh => ?_) (fun hh => ?_)
    · cases rest with
      | nil => simp at hh
      | cons c r =>
        simp only [List.head?_cons, Option.some.injEq] at hh
        subst hh
        have := hstop _ _ rfl
        revert this; decide
    · cases rest with
      | nil => simp at hh
      | cons c r =>
        simp only [List.head?_cons, Option.some.injEq] at hh
        subst hh
        have := hstop _ _ rfl
        revert this; decide
  · obtain ⟨p, q, rfl, hp, hq⟩ := Lang.seq_inv (show Lang Terminals.SH_COMMENT x from hl)
    obtain rfl := hp.chr_inv
    have hq' : ∀ c ∈ q, c ≠ '\n' := fun c hc => by simpa using hq.starSet_inv c hc
    refine .hash hq' ?_
    have e := List.takeWhile_append_dropWhile (p := (· != '\n')) (l := rest)
    have := hash_match (top := top) (x := q ++ rest.takeWhile (· != '\n')) (s := rest.dropWhile (· != '\n'))
      (fun c hc => by
        rcases List.mem_append.mp hc with hc | hc
        · exact hq' c hc
        · simpa using mem_takeWhile hc) (stops_drop _ _)
    rw [List.cons_append, List.append_assoc, e] at this
    rw [show ['#'] ++ q ++ rest = '#' :: (q ++ rest) by simp] at h
    rw [h, Option.some.injEq] at this
    cases rest with
    | nil => exact .inl rfl
    | cons c r =>
      right
      have hst := stops_drop (· != '\n') (c :: r)
      rw [← this] at hst
      have := hst c r rfl
      simpa using this

theorem IsNewlines.cat {x y} (hx : IsNewlines x) (hy : IsNewlines y) : IsNewlines (x ++ y) := by
  induction hx with
  | lf => exact .consLf hy
  | crlf => exact .consCrlf hy
  | consLf _ ih => exact .consLf ih
  | consCrlf _ ih => exact .consCrlf ih

theorem cppnl_ends {top : Re} {x rest : List Char} (hx : IsCommentNewlines x)
    (h : Re.matchIn top (termRe T._CPP_COMMENT_NL) (x ++ rest) = some rest) : NoBreak rest := by
  rcases split_breaks rest with ⟨a, r, rfl, ha, hr⟩ | h'
  · have hxa : IsCommentNewlines (x ++ a) := by
      rcases hx with hx | ⟨c, n, rfl, hc, hn⟩
      · exact .inl (hx.cat ha)
      · exact .inr ⟨c, n ++ a, by simp, hc, hn.cat ha⟩
    have := cppnl_match (top := top) hxa hr
    rw [List.append_assoc, h, Option.some.injEq] at this
    have hl := congrArg List.length this
    have := List.length_pos_iff.mpr ha.ne_nil
    rw [List.length_append] at hl
    omega
  · exact h'

/-! ### Tokens -/

theorem retype_keep {acc : List Nat} {t : Nat} {x : List Char} (h : retype acc t x ∈ reIds) :
    retype acc t x = t := by
  rcases retype_cases acc t x with h' | ⟨_, h'⟩
  · exact h'
  · exact absurd h (unlessIds_str h').2

theorem ends_of_scan {st t : Nat} {x rest : List Char}
    (h : scanWith (scanRe (scanIds (accepts st))) (scanIds (accepts st)) (x ++ rest) = some (t, rest))
    (hx : TokText (retype (accepts st) t x) x) : EndsWell (retype (accepts st) t x) x rest := by
  obtain ⟨hmem, hm, _⟩ := scan_inv (scanIds_pairwise st) h
  have hltE : ∀ t ∈ scanIds (accepts st), t < tEND := fun t h => (acts_of_scan h).1
  refine ⟨fun e => ?_, fun e => ?_, fun e => ?_⟩
  · have ht := retype_keep (by rw [e]; decide : retype (accepts st) t x ∈ reIds)
    rw [e] at ht
    subst ht
    obtain ⟨h1, b, r, e, hb, hk⟩ := quoted_sound (recMatcher_part hltE _)
      (show Terminals.QUOTED_INTERPOLATION.run _ _ _ = _ from hm)
    refine ⟨⟨b, ?_, hb⟩, h1⟩
    cases hk
    have e : x ++ rest = ('\'' :: b ++ ['\'']) ++ rest := by rw [e]; simp
    exact List.append_cancel_right e
  · have ht := retype_keep (by rw [e]; decide : retype (accepts st) t x ∈ reIds)
    rw [e] at ht hx
    subst ht
    exact multi_ends hx hm
  · have ht := retype_keep (by rw [e]; decide : retype (accepts st) t x ∈ reIds)
    rw [e] at ht hx
    subst ht
    exact cppnl_ends hx hm

/-- a run of skipped parts in front of `s` -/
inductive Skippeds : List Char → List Char → Prop where
  | nil {s} : Skippeds [] s
  | cons {x y s} : Skipped x (y ++ s) → Skippeds y s → Skippeds (x ++ y) s

theorem nextTok_exact {st : Nat} (hst : st < numStates) : ∀ (n : Nat) (s : List Char) (l : Nat),
    (nextTok (accepts st) n s l = .eof → Skippeds s []) ∧
    (∀ tk rest, nextTok (accepts st) n s l = .tok tk rest → ∃ p x, s = p ++ x ++ rest ∧
      Skippeds p (x ++ rest) ∧ TokText tk.type x ∧ tk.type < tEND ∧ Whole tk.type rest ∧
      EndsWell tk.type x rest ∧ tk = ⟨tk.type, x, l + countNL p, l + countNL p + countNL x⟩) := by
  intro n
  induction n with
  | zero =>
    intro s l
    cases s with
    | nil => exact ⟨fun _ => .nil, by intro tk rest h; simp [nextTok] at h⟩
    | cons c s => exact ⟨by simp [nextTok], by intro tk rest h; simp [nextTok] at h⟩
  | succ n ih =>
    intro s l
    cases s with
    | nil => exact ⟨fun _ => .nil, by intro tk rest h; simp [nextTok] at h⟩
    | cons c s =>
      unfold nextTok
      simp only
      cases hs : scanWith (scanRe (scanIds (accepts st))) (scanIds (accepts st)) (c :: s) with
      | none => exact ⟨by simp, by simp⟩
      | some p =>
        obtain ⟨t, rest⟩ := p
        simp only
        obtain ⟨hmem, x, hx, hlang⟩ := scanWith_sound hs
        have ht : t < tEND := accepts_lt (List.mem_filter.mp hmem).1
        have hxt : (c :: s).take ((c :: s).length - rest.length) = x := by
          rw [hx]; simp
        have hsound := termRe_sound ht hlang
        rw [hx] at hs
        split
        · rw [hxt]
          cases hi : ignoreIds.contains t with
          | true =>
            have hsk := skipped_of_match (by simpa using hi) hlang (scan_inv (scanIds_pairwise st) hs).2.1
            simp only [if_true]
            obtain ⟨ih1, ih2⟩ := ih rest (l + countNL x)
            refine ⟨fun h => ?_, fun tk r h => ?_⟩
            · rw [hx]; exact .cons (by simpa using hsk) (ih1 h)
            · obtain ⟨p, y, e, hp, h1, h2, h3, h4, h5⟩ := ih2 tk r h
              refine ⟨x ++ p, y, by rw [hx, e]; simp, .cons ?_ hp, h1, h2, h3, h4, ?_⟩
              · rw [← List.append_assoc, ← e]; exact hsk
              · rw [h5]; simp [countNL, Nat.add_assoc]
          | false =>
            rw [if_neg (by simpa using hi)] at hsound
            refine ⟨by simp, fun tk r h => ?_⟩
            simp only [Bool.false_eq_true, if_false, LexRes.tok.injEq] at h
            obtain ⟨rfl, rfl⟩ := h
            obtain ⟨h1, h2⟩ := retype_sound (acc := accepts st) ht hsound
            exact ⟨[], x, by simpa using hx, .nil, h1, h2, whole_of_scan hst hs h1, ends_of_scan hs h1,
              by simp [countNL]⟩
        · exact ⟨by simp, by simp⟩

/-! ### Whole texts -/

theorem ExactTiling.skips {x s} (h : Skippeds x s) : ∀ {l w}, ExactTiling (l + countNL x) s w →
    ExactTiling l (x ++ s) w := by
  induction h with
  | nil => intro l w h; simpa [countNL] using h
  | @cons x y s hx _ ih =>
    intro l w h
    rw [List.append_assoc]
    refine .skip hx (ih ?_)
    simpa [countNL, Nat.add_assoc] using h

theorem Skipped.trivia {x s} (h : Skipped x s) : Trivia x := by
  cases h with
  | blanks h1 h2 => exact .ws h1 h2
  | hash h1 => exact .sh h1
  | comment => exact .c _

theorem ExactTiling.words {l s w} (h : ExactTiling l s w) : WordTiling l s w := by
  induction h with
  | nil => exact .nil
  | skip h _ ih => exact .skip h.trivia ih
  | tok h1 h2 h3 _ _ ih => exact .tok h1 h2 h3 ih

theorem ExactTiling.tiling {l s w} (h : ExactTiling l s w) : Tiling l s w := h.words.tiling

theorem parseLoop_exact (n : Nat) : ∀ (stk : Stack) (w : List Tok) (s : List Char) (l : Nat),
    (∀ m, Inv stk w m) → s.length < n →
    ∀ t, parseLoop n stk s l = .ok t → ∃ w', ExactTiling l s w' ∧ DerL [N.start] [t] (w ++ w') tEND := by
  induction n with
  | zero => intro stk w s l _ h; omega
  | succ n ih =>
    intro stk w s l hinv hlen
    unfold parseLoop
    have hns := nextTok_exact (hinv tEND).top_lt s.length s l
    cases hn : nextTok (accepts (topState stk)) s.length s l with
    | fail => simp
    | eof =>
      simp only
      obtain ⟨f1, f2, f3⟩ := feed_spec (feedFuel stk) stk w ⟨tEND, [], l, l⟩ (hinv _)
      have f4 := Inv.feedFuel_ok ⟨tEND, [], l, l⟩ (hinv _)
      cases hf : feed (feedFuel stk) stk ⟨tEND, [], l, l⟩ with
      | shifted stk' => have := (f1 stk' hf).2; simp at this
      | accept t =>
        intro t' ht
        simp only [ParseRes.ok.injEq] at ht
        subst ht
        refine ⟨[], ?_, by simpa using (f2 t hf).1⟩
        have := ExactTiling.skips (hns.1 hn) (l := l) (.nil)
        simpa using this
      | unexpected => simp
      | stuck => exact absurd hf f3
      | fuel => exact absurd hf f4
    | tok tk rest =>
      simp only
      obtain ⟨p, x, hs, hp, htext, hlt, hwh, hen, htk⟩ := hns.2 tk rest hn
      obtain ⟨f1, f2, f3⟩ := feed_spec (feedFuel stk) stk w tk (hinv _)
      cases hf : feed (feedFuel stk) stk tk with
      | shifted stk' =>
        simp only
        have hx := htext.ne_nil hlt
        have hl : rest.length < n := by
          rw [hs] at hlen
          have := List.length_pos_iff.mpr hx
          simp at hlen; omega
        intro t ht
        obtain ⟨w', hw, hd⟩ := ih stk' (w ++ [tk]) rest tk.endLine (f1 stk' hf).1 hl t ht
        refine ⟨tk :: w', ?_, by simpa using hd⟩
        rw [hs, List.append_assoc]
        refine ExactTiling.skips hp ?_
        rw [htk] at hw ⊢
        exact .tok htext hlt hwh hen hw
      | accept t => simp
      | unexpected => simp
      | stuck => exact absurd hf f3
      | fuel => simp

/-! ### Quoted strings and multi-line strings on one line -/

theorem ExactTiling.line_le {l s w} (h : ExactTiling l s w) : ∀ u ∈ w, l ≤ u.line := by
  induction h with
  | nil => simp
  | skip _ _ ih => intro u hu; have := ih u hu; omega
  | tok _ _ _ _ _ ih =>
    intro u hu
    rcases List.mem_cons.mp hu with rfl | hu
    · exact Nat.le_refl _
    · have := ih u hu; omega

/-- where a token stands in the text -/
theorem ExactTiling.at {l s w} (h : ExactTiling l s w) : ∀ {u a c}, w = a ++ u :: c →
    ∃ p r, s = p ++ (u.text ++ r) ∧ u.line = l + countNL p ∧ TokText u.type u.text ∧ EndsWell u.type u.text r ∧
      ExactTiling u.endLine r c ∧ u.endLine = u.line + countNL u.text := by
  induction h with
  | nil => intro u a c h; simp at h
  | @skip l x s w hx _ ih =>
    intro u a c h
    obtain ⟨p, r, rfl, h1, h2⟩ := ih h
    exact ⟨x ++ p, r, by simp, by rw [h1]; simp [countNL, Nat.add_assoc], h2⟩
  | @tok l t x s w h1 h2 h3 h4 hw ih =>
    intro u a c h
    cases a with
    | nil =>
      simp only [List.nil_append, List.cons.injEq] at h
      obtain ⟨rfl, rfl⟩ := h
      exact ⟨[], s, rfl, by simp [countNL], h1, h4, hw, rfl⟩
    | cons b a =>
      simp only [List.cons_append, List.cons.injEq] at h
      obtain ⟨p, r, rfl, h1, h2⟩ := ih h.2
      exact ⟨x ++ p, r, by simp, by rw [h1]; simp [countNL, Nat.add_assoc], h2⟩

theorem takeWhile_front {p : Char → Bool} {x y : List Char} (h : ∀ c ∈ x, p c = true) :
    (x ++ y).takeWhile p = x ++ y.takeWhile p := List.takeWhile_append_of_pos h

theorem countNL_zero {x : List Char} (h : countNL x = 0) : ∀ c ∈ x, (c != '\n') = true := by
  intro c hc
  simp only [bne_iff_ne]
  rintro rfl
  exact List.count_eq_zero.mp h hc

/-- A multi-line string that follows a quoted string begins on a later line. -/
theorem ExactTiling.apart {l s w} (h : ExactTiling l s w) {a b c u v} (e : w = a ++ u :: (b ++ v :: c))
    (hu : u.type = T.QUOTED_INTERPOLATION) (hv : v.type = T.MULTI_LINE_STRING) : u.line < v.line := by
  obtain ⟨p, r, _, hl, _, hen, hr, hend⟩ := h.at e
  obtain ⟨q, r', rfl, hl', htx, _⟩ := hr.at rfl
  rw [hl', hend]
  have hnt := (hen.1 hu).2
  rw [hv] at htx
  obtain ⟨m, hm⟩ := htx
  rcases Nat.eq_zero_or_pos (countNL u.text + countNL q) with h0 | h0
  · exfalso
    refine hnt ?_
    have h1 : ∀ c ∈ u.text ++ (q ++ ['\'', '\'', '\'']), (c != '\n') = true := by
      intro c hc
      simp only [List.mem_append] at hc
      rcases hc with hc | hc | hc
      · exact countNL_zero (by omega) c hc
      · exact countNL_zero (by omega) c hc
      · revert c; decide
    have e : u.text ++ (q ++ (v.text ++ r')) = (u.text ++ (q ++ ['\'', '\'', '\''])) ++
        (m ++ ['\'', '\'', '\''] ++ r') := by rw [hm]; simp
    rw [e, takeWhile_front h1]
    exact ⟨u.text ++ q, (m ++ ['\'', '\'', '\''] ++ r').takeWhile (· != '\n'), by simp⟩
  · omega

end Pycep
