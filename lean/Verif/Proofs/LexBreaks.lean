import Verif.Proofs.LexMarks
/-
The lexer finds line ends and skips blanks and comments.
-/
namespace Pycep

/-! ### Line ends -/

/-- one line end -/
abbrev nlUnit : Re := .seq (Re.opt (Re.chr '\r')) (Re.chr '\n')

theorem nlUnit_lf {rec r k} : nlUnit.run rec ('\n' :: r) k = k r := by
  rw [run_seq, Re.opt, run_alt, chr_run_ne (by decide), orElse_none]
  show (Re.chr '\n').run rec ('\n' :: r) k = k r
  exact chr_run

theorem nlUnit_crlf {rec r k} (hk : (k r).isSome = true) :
    nlUnit.run rec ('\r' :: '\n' :: r) k = k r := by
  rw [run_seq, Re.opt, run_alt, chr_run, chr_run, orElse_left hk]

theorem nlUnit_none {rec s k} (h : NoBreak s) : nlUnit.run rec s k = .none := by
  rw [run_seq, Re.opt, run_alt]
  cases s with
  | nil => rfl
  | cons c s =>
    have hn : c ≠ '\n' := by
      rintro rfl
      exact h.1 ⟨s, rfl⟩
    have h2 : (Re.eps).run rec (c :: s) (fun s' => (Re.chr '\n').run rec s' k) = .none := by
      show (Re.chr '\n').run rec (c :: s) k = .none
      exact chr_run_ne hn
    rw [h2]
    by_cases hr : c = '\r'
    · subst hr
      rw [chr_run]
      cases s with
      | nil => rfl
      | cons d s =>
        rw [chr_run_ne, orElse_none]
        rintro rfl
        exact h.2 ⟨s, rfl⟩
    · rw [chr_run_ne hr, orElse_none]

theorem nlLoop {rec s k} (hs : NoBreak s) (hk : (k s).isSome = true) :
    (∀ n, starLoop (nlUnit.run rec) n s k = k s) ∧
    (∀ {x}, IsNewlines x → ∀ n, x.length ≤ n → starLoop (nlUnit.run rec) n (x ++ s) k = k s) := by
  have h0 : ∀ n, starLoop (nlUnit.run rec) n s k = k s := by
    intro n
    cases n with
    | zero => rfl
    | succ n => unfold starLoop; rw [nlUnit_none hs, orElse_none]
  refine ⟨h0, ?_⟩
  intro x hx
  induction hx with
  | lf =>
    intro n hn
    cases n with
    | zero => simp at hn
    | succ n =>
      unfold starLoop
      rw [List.cons_append, nlUnit_lf, if_pos (by simp), List.nil_append, h0, orElse_left hk]
  | crlf =>
    intro n hn
    cases n with
    | zero => simp at hn
    | succ n =>
      unfold starLoop
      have : (if ([] ++ s).length < (['\r', '\n'] ++ s).length then
          starLoop (nlUnit.run rec) n ([] ++ s) k else k ([] ++ s)) = k s := by
        rw [if_pos (by simp; omega), List.nil_append, h0]
      rw [List.cons_append, List.cons_append, nlUnit_crlf]
      · show orElse (if ([] ++ s).length < (['\r', '\n'] ++ s).length then
          starLoop (nlUnit.run rec) n ([] ++ s) k else k ([] ++ s)) _ = _
        rw [this, orElse_left hk]
      · show (if ([] ++ s).length < (['\r', '\n'] ++ s).length then
          starLoop (nlUnit.run rec) n ([] ++ s) k else k ([] ++ s)).isSome = true
        rw [this]; exact hk
  | @consLf x _ ih =>
    intro n hn
    cases n with
    | zero => simp at hn
    | succ n =>
      unfold starLoop
      rw [List.cons_append, nlUnit_lf, if_pos (by simp), ih n (by simpa using hn), orElse_left hk]
  | @consCrlf x _ ih =>
    intro n hn
    cases n with
    | zero => simp at hn
    | succ n =>
      unfold starLoop
      have : (if (x ++ s).length < ('\r' :: '\n' :: x ++ s).length then
          starLoop (nlUnit.run rec) n (x ++ s) k else k (x ++ s)) = k s := by
        rw [if_pos (by simp; omega), ih n (by simp at hn; omega)]
      rw [List.cons_append, List.cons_append, nlUnit_crlf]
      · show orElse (if (x ++ s).length < ('\r' :: '\n' :: x ++ s).length then
          starLoop (nlUnit.run rec) n (x ++ s) k else k (x ++ s)) _ = _
        rw [this, orElse_left hk]
      · show (if (x ++ s).length < ('\r' :: '\n' :: x ++ s).length then
          starLoop (nlUnit.run rec) n (x ++ s) k else k (x ++ s)).isSome = true
        rw [this]; exact hk

theorem newline_run {rec x s k} (hx : IsNewlines x) (hs : NoBreak s) (hk : (k s).isSome = true) :
    Terminals.NEWLINE.run rec (x ++ s) k = k s := by
  show (Re.seq nlUnit (.star nlUnit)).run rec _ k = _
  rw [run_seq]
  have hl := @nlLoop rec s k hs hk
  cases hx with
  | lf => rw [List.cons_append, nlUnit_lf, run_star]; exact hl.1 _
  | crlf =>
    rw [List.cons_append, List.cons_append, nlUnit_crlf, run_star]
    · exact hl.1 _
    · rw [run_star]; rw [List.nil_append, hl.1]; exact hk
  | @consLf x h => rw [List.cons_append, nlUnit_lf, run_star]; exact hl.2 h _ (by simp)
  | @consCrlf x h =>
    rw [List.cons_append, List.cons_append, nlUnit_crlf, run_star]
    · exact hl.2 h _ (by simp)
    · rw [run_star, hl.2 h _ (by simp)]; exact hk

theorem check_nl : ∀ k < T.INT, k ≠ T._CPP_COMMENT_NL → k ≠ T._NEWLINE →
    (termRe k).refuses (some '\n') = true ∧ (termRe k).refuses (some '\r') = true := by
  decide +kernel

theorem nl_refuse {top : Re} {x s : List Char} {k : Nat} (hx : IsNewlines x) (h1 : k < T.INT)
    (h2 : k ≠ T._CPP_COMMENT_NL) (h3 : k ≠ T._NEWLINE) :
    Re.matchIn top (termRe k) (x ++ s) = .none := by
  obtain ⟨ha, hb⟩ := check_nl k h1 h2 h3
  cases hx with
  | lf => exact refuse ha
  | crlf => exact refuse hb
  | consLf _ => exact refuse ha
  | consCrlf _ => exact refuse hb

theorem check_slash : ∀ k < T._CPP_COMMENT_NL, (termRe k).refuses (some '/') = true := by
  decide +kernel

theorem cppnl_match {top : Re} {x s : List Char} (hx : IsCommentNewlines x) (hs : NoBreak s) :
    Re.matchIn top (termRe T._CPP_COMMENT_NL) (x ++ s) = some s := by
  show Terminals._CPP_COMMENT_NL.run _ (x ++ s) some = some s
  unfold Terminals._CPP_COMMENT_NL
  generalize (x ++ s).length = d
  rw [run_seq, Re.opt, run_alt]
  rcases hx with hx | ⟨c, n, rfl, hc, hn⟩
  · have : Terminals.CPP_COMMENT.run (recMatcher top d) (x ++ s)
        (fun s' => Terminals.NEWLINE.run (recMatcher top d) s' some) = .none := by
      rw [Terminals.CPP_COMMENT, run_seq]
      refine lit_run_none _ ?_
      cases hx <;> simp
    rw [this, orElse_none]
    exact newline_run hx hs rfl
  · have key : ∃ c' n', c ++ n = c' ++ n' ∧ (∀ d ∈ c', d ≠ '\n') ∧ IsNewlines n' ∧
        n'.head? = some '\n' := by
      cases hn with
      | lf => exact ⟨c, _, rfl, hc, .lf, rfl⟩
      | consLf h => exact ⟨c, _, rfl, hc, .consLf h, rfl⟩
      | crlf =>
        refine ⟨c ++ ['\r'], ['\n'], by simp, ?_, .lf, rfl⟩
        intro d hd
        rcases List.mem_append.mp hd with h | h
        · exact hc d h
        · simp at h; rw [h]; decide
      | @consCrlf y h =>
        refine ⟨c ++ ['\r'], '\n' :: y, by simp, ?_, .consLf h, rfl⟩
        intro d hd
        rcases List.mem_append.mp hd with h | h
        · exact hc d h
        · simp at h; rw [h]; decide
    obtain ⟨c', n', e, hc', hn', hh⟩ := key
    have e' : '/' :: '/' :: c ++ n ++ s = ['/', '/'] ++ (c' ++ (n' ++ s)) := by
      simp only [List.cons_append, List.nil_append, List.append_assoc]
      rw [← List.append_assoc, e, List.append_assoc]
    have : Terminals.CPP_COMMENT.run (recMatcher top d) ('/' :: '/' :: c ++ n ++ s)
        (fun s' => Terminals.NEWLINE.run (recMatcher top d) s' some) = some s := by
      rw [Terminals.CPP_COMMENT, e', run_seq, lit_run, star_set]
      · exact newline_run hn' hs rfl
      · intro a as h
        cases n' with
        | nil => simp at hh
        | cons b n' =>
          simp at hh h
          rw [← h.1, hh]; decide
      · intro d hd; simpa using hc' d hd
      · rw [newline_run hn' hs rfl]; rfl
    rw [this]
    rfl

theorem IsCommentNewlines.ne_nil {x} (h : IsCommentNewlines x) : x ≠ [] := by
  rcases h with h | ⟨c, n, rfl, _⟩
  · exact h.ne_nil
  · simp

theorem finds_lineEnd {st : Nat} {x s : List Char} (ha : acts st T._CPP_COMMENT_NL = true)
    (hx : IsCommentNewlines x) (hs : NoBreak s) : Finds st T._CPP_COMMENT_NL x s := by
  intro l
  rw [nextTok_first (t := T._CPP_COMMENT_NL) hx.ne_nil
    (scan_mem (by decide) (.inl ha) (by decide) (by decide)) ?_ (cppnl_match hx hs)]
  · rw [not_ignored (by decide), if_neg (by simp), retype_other (by decide) (by decide) (by decide)]
  · intro k hk hlt
    rcases hx with hx | ⟨c, n, rfl, _⟩
    · have : ∀ k < T._CPP_COMMENT_NL, k < T.INT ∧ k ≠ T._CPP_COMMENT_NL ∧ k ≠ T._NEWLINE := by decide
      obtain ⟨h1, h2, h3⟩ := this k hlt
      exact nl_refuse hx h1 h2 h3
    · exact refuse (check_slash k hlt)

theorem finds_lineBreak {p st : Nat} (ok : stateOK p st = true) {x s : List Char}
    (hp : p ∈ openEnds) (ha : acts st T._NEWLINE = true) (hx : IsNewlines x) (hs : NoBreak s) :
    Finds st T._NEWLINE x s := by
  intro l
  rw [nextTok_first (t := T._NEWLINE) hx.ne_nil
    (scan_mem (by decide) (.inl ha) (by decide) (by decide)) ?_ ?_]
  · rw [not_ignored (by decide), if_neg (by simp), retype_other (by decide) (by decide) (by decide)]
  · intro k hk hlt
    have : ∀ k < T._NEWLINE, k < T.INT ∧ k ≠ T._NEWLINE := by decide
    obtain ⟨h1, h2⟩ := this k hlt
    by_cases h3 : k = T._CPP_COMMENT_NL
    · subst h3
      exact (no_act hk (StateOK.breaks ok hp ha) (by decide)).elim
    · exact nl_refuse hx h1 h3 h2
  · show Terminals.NEWLINE.run _ (x ++ s) some = some s
    exact newline_run hx hs rfl

/-! ### Blanks -/

/-- the statement of the lemmas about skipped text -/
def Skips (st : Nat) (x s : List Char) : Prop :=
  ∀ l, nextTok (accepts st) (x ++ s).length (x ++ s) l =
    nextTok (accepts st) s.length s (l + countNL x)

theorem skips_first {st t : Nat} {x s : List Char} (hx : x ≠ []) (ht : t ∈ ignoreIds)
    (hlow : ∀ k ∈ scanIds (accepts st), k < t →
      Re.matchIn (scanRe (scanIds (accepts st))) (termRe k) (x ++ s) = .none)
    (hm : Re.matchIn (scanRe (scanIds (accepts st))) (termRe t) (x ++ s) = some s) :
    Skips st x s := by
  intro l
  have : ∀ t ∈ ignoreIds, t < tEND ∧ t ∉ keywordIds ∧ t ≠ T.STAR := by decide
  obtain ⟨h1, h2, h3⟩ := this t ht
  rw [nextTok_first (t := t) hx (scan_mem h1 (.inr ht) h2 h3) hlow hm]
  rw [if_pos (by simpa using ht)]

/-- blanks and tabs -/
def isBlank (c : Char) : Bool := c == ' ' || c == '\t'

theorem check_blank : ∀ k < T.WS_INLINE, (termRe k).refuses (some ' ') = true ∧
    (termRe k).refuses (some '\t') = true := by decide +kernel

abbrev wsUnit : Re := .alt (Re.chr '\t') (Re.chr ' ')

theorem wsUnit_blank {rec c r k} (hc : isBlank c = true) (hk : (k r).isSome = true) :
    wsUnit.run rec (c :: r) k = k r := by
  rw [run_alt]
  simp only [isBlank, Bool.or_eq_true, beq_iff_eq] at hc
  rcases hc with rfl | rfl
  · rw [chr_run_ne (by decide), orElse_none, chr_run]
  · rw [chr_run, orElse_left hk]

theorem wsUnit_none {rec s k} (hs : Stops isBlank s) : wsUnit.run rec s k = .none := by
  rw [run_alt]
  cases s with
  | nil => rfl
  | cons c s =>
    have := hs c s rfl
    simp only [isBlank, Bool.or_eq_false_iff, beq_eq_false_iff_ne] at this
    rw [chr_run_ne this.2, chr_run_ne this.1]
    rfl

theorem wsLoop {rec s} (hs : Stops isBlank s) : ∀ (x : List Char) (n : Nat), x.length ≤ n →
    (∀ c ∈ x, isBlank c = true) → starLoop (wsUnit.run rec) n (x ++ s) some = some s := by
  intro x
  induction x with
  | nil =>
    intro n _ _
    cases n with
    | zero => rfl
    | succ n => unfold starLoop; rw [List.nil_append, wsUnit_none hs, orElse_none]
  | cons c x ih =>
    intro n hn hx
    cases n with
    | zero => simp at hn
    | succ n =>
      have hi := ih n (by simpa using hn) (fun d hd => hx d (by simp [hd]))
      unfold starLoop
      rw [List.cons_append, wsUnit_blank (hx c (by simp))]
      · rw [if_pos (by simp), hi]; rfl
      · rw [if_pos (by simp), hi]; rfl

theorem ws_match {top : Re} {x s : List Char} (hne : x ≠ []) (hx : ∀ c ∈ x, isBlank c = true)
    (hs : Stops isBlank s) : Re.matchIn top (termRe T.WS_INLINE) (x ++ s) = some s := by
  show (Re.seq wsUnit (.star wsUnit)).run _ (x ++ s) some = some s
  rw [run_seq]
  cases x with
  | nil => simp at hne
  | cons c x =>
    have : ∀ rec, (Re.star wsUnit).run rec (x ++ s) some = some s := fun rec => by
      rw [run_star]; exact wsLoop hs x _ (by simp) (fun d hd => hx d (by simp [hd]))
    rw [List.cons_append, wsUnit_blank (hx c (by simp)) (by rw [this]; rfl), this]

theorem skips_run {st : Nat} {x s : List Char} (hx : ∀ c ∈ x, isBlank c = true)
    (hs : Stops isBlank s) : Skips st x s := by
  by_cases hne : x = []
  · subst hne; intro l; simp [countNL]
  · refine skips_first hne (t := T.WS_INLINE) (by decide) ?_ (ws_match hne hx hs)
    intro k _ hlt
    cases x with
    | nil => simp at hne
    | cons c x =>
      have hc := hx c (by simp)
      simp only [isBlank, Bool.or_eq_true, beq_iff_eq] at hc
      rcases hc with rfl | rfl
      · exact refuse (check_blank k hlt).1
      · exact refuse (check_blank k hlt).2

theorem countNL_blank {x : List Char} (hx : ∀ c ∈ x, isBlank c = true) : countNL x = 0 := by
  unfold countNL
  rw [List.count_eq_zero]
  intro h
  exact absurd (hx _ h) (by decide)

theorem skips_blank {st : Nat} {c : Char} {s : List Char} (hc : isBlank c = true) :
    Skips st [c] s := by
  intro l
  have hall : ∀ d ∈ s.takeWhile isBlank, isBlank d = true := fun d hd =>
    List.all_eq_true.mp List.all_takeWhile d hd
  have hstop : Stops isBlank (s.dropWhile isBlank) := by
    intro d ds e
    have := List.head?_dropWhile_not isBlank s
    rw [e] at this
    simpa using this
  have hall' : ∀ d ∈ c :: s.takeWhile isBlank, isBlank d = true := by
    intro d hd
    rcases List.mem_cons.mp hd with rfl | h
    · exact hc
    · exact hall d h
  have h1 := skips_run (st := st) hall hstop l
  have h2 := skips_run (st := st) hall' hstop l
  rw [List.cons_append, List.takeWhile_append_dropWhile, countNL_blank hall'] at h2
  rw [List.takeWhile_append_dropWhile, countNL_blank hall] at h1
  have hcn : countNL [c] = 0 := countNL_blank (by simpa using hc)
  rw [hcn]
  exact h2.trans h1.symm

/-! ### Comments -/

theorem check_hash : ∀ k < T.SH_COMMENT, (termRe k).refuses (some '#') = true := by decide +kernel

theorem skips_hash {st : Nat} {x s : List Char} (hx : ∀ c ∈ x, c ≠ '\n')
    (hs : s = [] ∨ s.head? = some '\n') : Skips st ('#' :: x) s := by
  refine skips_first (by simp) (t := T.SH_COMMENT) (by decide) ?_ ?_
  · intro k _ hlt; exact refuse (check_hash k hlt)
  · show Terminals.SH_COMMENT.run _ ('#' :: x ++ s) some = some s
    rw [Terminals.SH_COMMENT, run_seq, List.cons_append, chr_run]
    refine star_set ?_ (fun c hc => by simpa using hx c hc) rfl
    intro c cs e
    rcases hs with rfl | hs
    · simp at e
    · rw [e] at hs; simp at hs; rw [hs]; decide

theorem lazy_comment {rec s} : ∀ (x : List Char) (n : Nat), x.length ≤ n →
    ¬ ['*', '/'] <:+: x ++ ['*'] →
    lazyLoop ((Re.alt Re.dot (Re.chr '\n')).run rec) n (x ++ ('*' :: '/' :: s))
      (fun s' => (Re.lit ['*', '/']).run rec s' some) = some s := by
  intro x
  induction x with
  | nil =>
    intro n _ _
    have h0 : (Re.lit ['*', '/']).run rec ([] ++ ('*' :: '/' :: s)) some = some s :=
      lit_run ['*', '/']
    cases n with
    | zero => exact h0
    | succ n => unfold lazyLoop; simp only [h0]; rfl
  | cons c x ih =>
    intro n hn hx
    have hx' : ¬ ['*', '/'] <:+: x ++ ['*'] := fun h => hx (h.trans (List.suffix_cons _ _).isInfix)
    have h0 : (Re.lit ['*', '/']).run rec (c :: x ++ ('*' :: '/' :: s)) some = .none := by
      refine lit_run_none _ fun hp => hx ?_
      have hp2 : c :: x ++ ['*'] <+: c :: x ++ ('*' :: '/' :: s) := ⟨'/' :: s, by simp⟩
      exact (List.prefix_of_prefix_length_le hp hp2 (by simp)).isInfix
    cases n with
    | zero => simp at hn
    | succ n =>
      have hi := ih n (by simpa using hn) hx'
      unfold lazyLoop
      simp only [h0]
      rw [orElse_none, List.cons_append, run_alt]
      by_cases hc : c = '\n'
      · subst hc
        rw [dot_run_nl, orElse_none, chr_run, if_pos (by simp), hi]
      · rw [dot_run hc, if_pos (by simp), hi]; rfl

theorem check_slash2 : ∀ k < T.C_COMMENT, k ≠ T._CPP_COMMENT_NL →
    (termRe k).refuses (some '/') = true := by decide +kernel

theorem skips_comment {st : Nat} {x s : List Char} (hx : ¬ ['*', '/'] <:+: x ++ ['*']) :
    Skips st ('/' :: '*' :: x ++ ['*', '/']) s := by
  refine skips_first (by simp) (t := T.C_COMMENT) (by decide) ?_ ?_
  · intro k _ hlt
    by_cases h : k = T._CPP_COMMENT_NL
    · subst h
      exact cppnl_none (by simp) (by simp) (by simp)
    · exact refuse (check_slash2 k hlt h)
  · show Terminals.C_COMMENT.run _ _ some = some s
    rw [Terminals.C_COMMENT, run_seq]
    have e : '/' :: '*' :: x ++ ['*', '/'] ++ s = ['/', '*'] ++ (x ++ ('*' :: '/' :: s)) := by simp
    rw [e, lit_run, run_seq]
    exact lazy_comment x _ (by simp) hx

theorem Gap.skips {x s : List Char} (h : Gap x s) (st : Nat) : Skips st x s := by
  cases h with
  | blank => exact skips_blank (by decide)
  | tab => exact skips_blank (by decide)
  | hash h1 h2 => exact skips_hash h1 h2
  | comment h => exact skips_comment h

end Pycep
