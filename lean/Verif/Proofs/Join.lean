import Verif.Proofs.Down
import Verif.Props.Lines
/-
Two clear texts, one behind the other.
-/
namespace Pycep

/-! ### Layout of a text further down -/

theorem Layout.down (k : Nat) {p s l w} (h : Layout p s l w) : Layout p s (l + k) (w.map (Tok.down k)) := by
  induction h with
  | nil => exact .nil
  | gap h _ ih =>
    refine .gap h ?_
    rw [Nat.add_right_comm]
    exact ih
  | @tok p t x s l w h _ ih =>
    have : (⟨t, x, l, l + countNL x⟩ : Tok).down k = ⟨t, x, l + k, (l + k) + countNL x⟩ := by
      simp only [Tok.down, Nat.add_right_comm]
    rw [List.map_cons, this]
    refine .tok h ?_
    rw [Nat.add_right_comm]
    exact ih

/-! ### Layout in front of more text -/

theorem prefix_break {y s r : List Char} (h : y <+: s ++ '\n' :: r) (hy : '\n' ∉ y) : y <+: s := by
  induction y generalizing s with
  | nil => exact List.nil_prefix
  | cons c y ih =>
    cases s with
    | nil =>
      rw [List.nil_append, List.cons_prefix_cons] at h
      exact absurd (by simp [h.1]) hy
    | cons d s =>
      rw [List.cons_append, List.cons_prefix_cons] at h
      rw [List.cons_prefix_cons]
      exact ⟨h.1, ih h.2 (fun h' => hy (List.mem_cons_of_mem _ h'))⟩

theorem Stops.more {f : Char → Bool} {s r : List Char} (h : Stops f s) (hf : f '\n' = false) :
    Stops f (s ++ '\n' :: r) := by
  intro c cs e
  cases s with
  | nil => simp only [List.nil_append, List.cons.injEq] at e; rw [← e.1]; exact hf
  | cons d s => simp only [List.cons_append, List.cons.injEq] at e; rw [← e.1]; exact h d s rfl

theorem head_more {s r : List Char} {c : Char} (hc : c ≠ '\n') (h : (s ++ '\n' :: r).head? = some c) :
    s.head? = some c := by
  cases s with
  | nil => simp at h; exact absurd h.symm hc
  | cons d s => simpa using h

theorem noBreak_more {s r : List Char} (h : NoBreak (s ++ ['\n'])) : NoBreak (s ++ '\n' :: r) := by
  match s with
  | [] => exact absurd List.prefix_rfl h.1
  | [c] =>
    refine ⟨fun h' => h.1 ?_, fun h' => h.2 ?_⟩
    · simp only [List.singleton_append, List.cons_prefix_cons] at h' ⊢
      exact ⟨h'.1, List.nil_prefix⟩
    · simp only [List.singleton_append, List.cons_prefix_cons] at h' ⊢
      exact ⟨h'.1, h'.2.1, List.nil_prefix⟩
  | c :: d :: s =>
    refine ⟨fun h' => h.1 ?_, fun h' => h.2 ?_⟩
    · simp only [List.cons_append, List.cons_prefix_cons] at h' ⊢
      exact ⟨h'.1, List.nil_prefix⟩
    · simp only [List.cons_append, List.cons_prefix_cons] at h' ⊢
      exact ⟨h'.1, h'.2.1, List.nil_prefix⟩

theorem take_break {s r : List Char} :
    (s ++ '\n' :: r).takeWhile (· != '\n') = s.takeWhile (· != '\n') := by
  induction s with
  | nil => simp
  | cons c s ih => simp only [List.cons_append, List.takeWhile_cons, ih]

theorem take_noNL (s : List Char) : '\n' ∉ s.takeWhile (· != '\n') := by
  induction s with
  | nil => simp
  | cons c s ih =>
    rw [List.takeWhile_cons]
    split
    · rename_i h
      intro h'
      rcases List.mem_cons.mp h' with rfl | h'
      · simp at h
      · exact ih h'
    · simp

theorem listCall_more {s r : List Char} : ListCall (s ++ '\n' :: r) ↔ ListCall s := by
  constructor
  · rintro (h | ⟨c, n, r', h, hc, hn⟩)
    · exact .inl (prefix_break h (by decide))
    · refine .inr ?_
      have hp : (c :: 'i' :: 's' :: 't' :: n ++ ['(']) <+: s := by
        refine prefix_break (r := r) ⟨r', ?_⟩ ?_
        · rw [h]; simp
        · have h1 : c ≠ '\n' := by rcases hc with rfl | rfl <;> decide
          have h2 : '\n' ∉ n := fun h' => absurd (hn _ h') (by decide)
          simp [h1.symm, h2]
      obtain ⟨q, hq⟩ := hp
      exact ⟨c, n, q, by rw [← hq]; simp, hc, hn⟩
  · rintro (h | ⟨c, n, r', h, hc, hn⟩)
    · exact .inl (h.trans (List.prefix_append _ _))
    · exact .inr ⟨c, n, r' ++ '\n' :: r, by rw [h]; simp, hc, hn⟩

theorem pairs_noNL : ∀ y ∈ pairs, '\n' ∉ y := by decide +kernel

/-- A token in front of a text that ends a line is one if the text goes on behind. -/
theorem Fits.more {p t x s r} (h : Fits p t x (s ++ ['\n'])) : Fits p t x (s ++ '\n' :: r) := by
  have hs : ∀ {f : Char → Bool}, f '\n' = false → Stops f (s ++ ['\n']) → Stops f (s ++ '\n' :: r) := by
    intro f hf h c cs e
    cases s with
    | nil => simp only [List.nil_append, List.cons.injEq] at e; rw [← e.1]; exact hf
    | cons d s =>
      simp only [List.cons_append, List.cons.injEq] at e
      rw [← e.1]
      exact h d _ rfl
  have hh : (s ++ '\n' :: r).head? = (s ++ ['\n']).head? := by cases s <;> rfl
  have hl : ∀ x : List Char, ListCall (x ++ (s ++ '\n' :: r)) ↔ ListCall (x ++ (s ++ ['\n'])) := by
    intro x
    rw [← List.append_assoc, ← List.append_assoc, listCall_more, listCall_more]
  generalize hz : s ++ ['\n'] = z at h
  cases h with
  | ident h1 h2 h3 h4 h5 h6 =>
    subst hz
    refine .ident h1 (hs (by decide) h2) (by rw [hh]; exact h3) (fun h => by rw [hh]; exact h4 h) h5
      (fun h => by rw [hl]; exact h6 h)
  | keyword h1 h2 h3 =>
    subst hz
    exact .keyword h1 (hs (by decide) h2) (fun h => h3 (by rw [← hh]; exact h))
  | op1 h1 h2 =>
    subst hz
    refine .op1 h1 (fun y hy h => h2 y hy ?_)
    rw [← List.append_assoc] at h
    have := prefix_break h (pairs_noNL y hy)
    rw [← List.append_assoc]
    exact this.trans (List.prefix_append _ _)
  | op2 h1 => exact .op2 h1
  | importAll => exact .importAll
  | function h1 h2 =>
    subst hz
    exact .function h1 (fun h => by rw [hl]; exact h2 h)
  | listFunction h1 h2 h3 h4 =>
    subst hz
    exact .listFunction ((hl _).mpr h1) h2 h3 (hs (by decide) h4)
  | int h1 h2 h3 h4 =>
    subst hz
    exact .int h1 h2 (hs (by decide) h3) (by rw [hh]; exact h4)
  | decorator h1 h2 h3 =>
    subst hz
    exact .decorator h1 (hs (by decide) h2) (by rw [hh]; exact h3)
  | lineEnd h1 h2 => subst hz; exact .lineEnd h1 (noBreak_more h2)
  | lineBreak h1 h2 h3 => subst hz; exact .lineBreak h1 h2 (noBreak_more h3)
  | @quoted b y _ h1 h2 h3 =>
    subst hz
    refine .quoted h1 h2 ?_
    have e : ∀ r', '\'' :: y ++ '\'' :: (s ++ '\n' :: r') = ('\'' :: y ++ '\'' :: s) ++ '\n' :: r' := by simp
    unfold NoTriple at h3 ⊢
    rw [e, take_break] at h3 ⊢
    exact h3
  | multiLine h1 => exact .multiLine h1

theorem Gap.more {x s r} (h : Gap x (s ++ ['\n'])) : Gap x (s ++ '\n' :: r) := by
  generalize hz : s ++ ['\n'] = z at h
  cases h with
  | blank => exact .blank
  | tab => exact .tab
  | hash h1 h2 =>
    subst hz
    refine .hash h1 (.inr ?_)
    rcases h2 with h2 | h2
    · simp at h2
    · cases s with
      | nil => rfl
      | cons c s => simpa using h2
  | comment h => exact .comment h

theorem newlines_ends {x} (h : IsNewlines x) : x.getLast? = some '\n' := by
  induction h with
  | lf => rfl
  | crlf => rfl
  | consLf _ ih => rw [List.getLast?_cons, ih]; rfl
  | consCrlf _ ih => rw [List.getLast?_cons, List.getLast?_cons, ih]; rfl

theorem last_mem_ne {x : List Char} {f : Char → Bool} (h : ∀ c ∈ x, f c = true) (hf : f '\n' = false) :
    x.getLast? ≠ some '\n' := by
  intro h'
  have := h _ (List.mem_of_getLast? h')
  rw [hf] at this
  exact absurd this (by decide)

theorem fixed_last : ∀ t ∈ keywordIds ++ opIds1 ++ opIds2, (fixedChars t).getLast? ≠ some '\n' := by
  decide +kernel

/-- Only line breaks end a line. -/
theorem Fits.last {p t x s} (h : Fits p t x s) (hx : x.getLast? = some '\n') :
    (t = T._CPP_COMMENT_NL ∧ IsCommentNewlines x) ∨ (t = T._NEWLINE ∧ p ∈ openEnds ∧ IsNewlines x) := by
  cases h with
  | ident h1 =>
    obtain ⟨c, cs, rfl, hc, hcs⟩ := h1
    refine absurd hx (last_mem_ne (f := fun c => isWord c || isAsciiAlpha c) ?_ (by decide))
    intro d hd
    rcases List.mem_cons.mp hd with rfl | hd
    · rcases hc with hc | rfl
      · simp only [hc, Bool.or_true]
      · decide
    · simp only [hcs d hd, Bool.true_or]
  | keyword h1 => exact absurd hx (fixed_last _ (by simp [h1]))
  | op1 h1 => exact absurd hx (fixed_last _ (by simp [h1]))
  | op2 h1 => exact absurd hx (fixed_last _ (by simp [h1]))
  | importAll => simp at hx
  | function h1 => obtain ⟨p, n, rfl, _⟩ := h1; simp at hx
  | listFunction _ _ h => exact absurd hx (last_mem_ne h (by decide))
  | int _ h => exact absurd hx (last_mem_ne h (by decide))
  | decorator h1 =>
    obtain ⟨p, n, rfl, hp, hn, h⟩ := h1
    refine absurd ?_ (last_mem_ne h (by decide))
    rw [List.getLast?_append] at hx
    cases e : n.getLast? with
    | none => exact absurd (List.getLast?_eq_none_iff.mp e) hn
    | some c => rw [e] at hx; exact hx
  | lineEnd h1 => exact .inl ⟨rfl, h1⟩
  | lineBreak h1 h2 => exact .inr ⟨rfl, h1, h2⟩
  | quoted => rw [List.getLast?_append] at hx; simp at hx
  | multiLine => rw [List.getLast?_append] at hx; simp at hx

theorem Gap.last {x s} (h : Gap x s) : x.getLast? ≠ some '\n' := by
  cases h with
  | blank => decide
  | tab => decide
  | hash h1 =>
    intro h
    have := List.mem_of_getLast? h
    rcases List.mem_cons.mp this with h | h
    · exact absurd h (by decide)
    · exact h1 _ h rfl
  | comment => rw [List.getLast?_append]; simp

/-- the text ends a line, or is empty -/
def EndsLine (s : List Char) : Prop := s = [] ∨ s.getLast? = some '\n'

theorem endsLine_append {x s : List Char} (h : EndsLine (x ++ s)) : EndsLine s := by
  rcases h with h | h
  · exact .inl (List.append_eq_nil_iff.mp h).2
  · rw [List.getLast?_append] at h
    cases e : s.getLast? with
    | none => exact .inl (List.getLast?_eq_none_iff.mp e)
    | some c => rw [e] at h; exact .inr (e ▸ h)

theorem endsLine_snoc {s : List Char} (h : s ≠ []) (h' : EndsLine s) : ∃ s', s = s' ++ ['\n'] := by
  rcases h' with h' | h'
  · exact absurd h' h
  · exact ⟨s.dropLast, (List.dropLast_append_getLast? _ h').symm⟩

/-- One text behind another, the first of which ends a line. -/
theorem Layout.append {p s1 l w1 s2 w2} (h1 : Layout p s1 l w1) (he : EndsLine s1) (hb : NoBreak s2)
    (h2 : ∀ q, Layout q s2 (l + countNL s1) w2) : Layout p (s1 ++ s2) l (w1 ++ w2) := by
  induction h1 with
  | nil => simpa [countNL] using h2 _
  | @gap p x s l w hg _ ih =>
    rw [List.append_assoc]
    have hs := endsLine_append he
    refine .gap ?_ (ih hs (fun q => by rw [Nat.add_assoc, ← countNL_append]; exact h2 q))
    by_cases hn : s = []
    · subst hn
      rcases he with he | he
      · simp at he; subst he; exact absurd hg (by intro h; cases h)
      · rw [List.append_nil] at he; exact absurd he hg.last
    · obtain ⟨s', rfl⟩ := endsLine_snoc hn hs
      simpa using hg.more (r := s2)
  | @tok p t x s l w hf _ ih =>
    rw [List.append_assoc, List.cons_append]
    have hs := endsLine_append he
    refine .tok ?_ (ih hs (fun q => by rw [Nat.add_assoc, ← countNL_append]; exact h2 q))
    by_cases hn : s = []
    · subst hn
      rcases he with he | he
      · rw [List.append_nil] at he
        exact absurd he hf.lt.2
      · rw [List.append_nil] at he
        rcases hf.last he with ⟨rfl, h⟩ | ⟨rfl, h, h'⟩
        · exact .lineEnd h (by simpa using hb)
        · exact .lineBreak h h' (by simpa using hb)
    · obtain ⟨s', rfl⟩ := endsLine_snoc hn hs
      simpa using hf.more (r := s2)

/-! ### How programs begin -/

/-- tokens a program may begin with -/
def startIds : List Nat := T.AT :: T.RESOURCE :: T._CPP_COMMENT_NL :: declKeywords

theorem DecoSyn.start {d w n} (h : DecoSyn d w) : nextT w n = T.AT := by
  cases h with
  | noArg h => exact kw_type h "@" T.AT rfl (by decide +kernel)
  | arg h => exact kw_type h "@" T.AT rfl (by decide +kernel)

theorem DecosSyn.start {ds w n} (h : DecosSyn ds w) (hn : n ∈ startIds) : nextT w n ∈ startIds := by
  induction h generalizing n with
  | nil => exact hn
  | snoc _ h2 ih =>
    rw [nextT_append]
    refine ih ?_
    rw [h2.start]
    decide

theorem DeclSyn.start {d w n} (h : DeclSyn d w n) : ∀ m, nextT w m ∈ startIds := by
  intro m
  cases h with
  | scope h => show _ ∈ _; rw [nextT_cons, kw_type h "targetScope" T.TARGETSCOPE rfl (by decide +kernel)]; decide
  | importNs h => rw [nextT_cons, kw_type h "import" T.IMPORT rfl (by decide +kernel)]; decide
  | importOne h => rw [nextT_cons, kw_type h "import" T.IMPORT rfl (by decide +kernel)]; decide
  | importList h => rw [nextT_cons, kw_type h "import" T.IMPORT rfl (by decide +kernel)]; decide
  | extension h => rw [nextT_cons, kw_type h "extension" T.EXTENSION rfl (by decide +kernel)]; decide
  | metadata h => rw [nextT_cons, kw_type h "metadata" T.METADATA rfl (by decide +kernel)]; decide
  | param h0 h =>
    rw [nextT_append]; refine h0.start ?_
    rw [nextT_cons, kw_type h "param" T.PARAM rfl (by decide +kernel)]; decide
  | var h0 h =>
    rw [nextT_append]; refine h0.start ?_
    rw [nextT_cons, kw_type h "var" T.VAR rfl (by decide +kernel)]; decide
  | output h0 h =>
    rw [nextT_append]; refine h0.start ?_
    rw [nextT_cons, kw_type h "output" T.OUTPUT rfl (by decide +kernel)]; decide
  | resource h0 h =>
    rw [nextT_append]; refine h0.start ?_
    rw [nextT_cons, kw_type h "resource" T.RESOURCE rfl (by decide +kernel)]; decide
  | module h0 h =>
    rw [nextT_append]; refine h0.start ?_
    rw [nextT_cons, kw_type h "module" T.MODULE rfl (by decide +kernel)]; decide
  | typ h0 h =>
    rw [nextT_append]; refine h0.start ?_
    rw [nextT_cons, kw_type h "type" T.TYPE rfl (by decide +kernel)]; decide
  | func h0 h =>
    rw [nextT_append]; refine h0.start ?_
    rw [nextT_cons, kw_type h "func" T.FUNC rfl (by decide +kernel)]; decide

theorem ProgSyn.start {p w n} (h : ProgSyn p w n) : w = [] ∨ ∀ m, nextT w m ∈ startIds := by
  induction h with
  | nil => exact .inl rfl
  | decl _ h2 _ ih =>
    refine .inr (fun m => ?_)
    rw [nextT_append]
    rcases ih with rfl | ih
    · exact h2.start m
    · exact ih _
  | nl _ h2 ih =>
    refine .inr (fun m => ?_)
    rw [nextT_append]
    rcases ih with rfl | ih
    · rw [nextT_nil, nextT_cons, h2]; decide
    · exact ih _

theorem starts_noInfix : ∀ n ∈ tEND :: startIds, (∀ s ∈ infixSigns, fixedText n ≠ some s) ∧ fixedText n ≠ some "!" := by
  decide +kernel

theorem Fits.start {p t x s} (h : Fits p t x s) (ht : t ∈ startIds) (q : Nat) : Fits q t x s := by
  cases h with
  | ident => exact absurd ht (by decide)
  | keyword h1 h2 h3 => exact .keyword h1 h2 h3
  | op1 h1 h2 => exact .op1 h1 h2
  | op2 h1 => exact .op2 h1
  | importAll => exact .importAll
  | function => exact absurd ht (by decide)
  | listFunction h1 h2 h3 h4 => exact .listFunction h1 h2 h3 h4
  | int h1 h2 h3 h4 => exact .int h1 h2 h3 h4
  | decorator h1 h2 h3 => exact .decorator h1 h2 h3
  | lineEnd h1 h2 => exact .lineEnd h1 h2
  | lineBreak => exact absurd ht (by decide)
  | quoted => exact absurd ht (by decide)
  | multiLine h => exact .multiLine h

theorem Layout.start {p s l w} (h : Layout p s l w) (hw : w = [] ∨ ∀ m, nextT w m ∈ startIds) (q : Nat) :
    Layout q s l w := by
  induction h with
  | nil => exact .nil
  | gap h _ ih => exact .gap h (ih hw)
  | tok h h' _ =>
    refine .tok (h.start ?_ q) h'
    rcases hw with hw | hw
    · cases hw
    · exact hw 0

/-- A clear text of a program behind another one that ends a line. -/
theorem Writes.append {t1 t2 : String} {p1 p2 : Program} (h1 : Writes t1 p1) (h2 : Writes t2 p2)
    (he : EndsLine t1.toList) (hb : NoBreak t2.toList) :
    Writes (t1 ++ t2) (p1 ++ p2.down (countNL t1.toList)) := by
  obtain ⟨w1, hl1, hp1⟩ := h1
  obtain ⟨w2, hl2, hp2⟩ := h2
  have hs := (hp2.down (countNL t1.toList)).start
  refine ⟨w1 ++ w2.map (Tok.down (countNL t1.toList)), ?_, ProgSyn.append (hp2.down _) ?_⟩
  · rw [String.toList_append]
    exact hl1.append he hb (fun q => (hl2.down _).start hs q)
  · have : nextT (w2.map (Tok.down (countNL t1.toList))) tEND ∈ tEND :: startIds := by
      rcases hs with hs | hs
      · rw [hs]; exact List.mem_cons_self
      · exact List.mem_cons_of_mem _ (hs _)
    exact hp1.follow (starts_noInfix _ this).1 (starts_noInfix _ this).2

/-- `k` empty lines -/
def emptyLines (k : Nat) : String := String.ofList (List.replicate k '\n')

theorem emptyLines_newlines (k : Nat) : IsNewlines (List.replicate (k + 1) '\n') := by
  induction k with
  | zero => exact .lf
  | succ k ih => exact .consLf ih

theorem countNL_replicate (k : Nat) : countNL (List.replicate k '\n') = k := by
  simp [countNL]

theorem emptyLines_writes (k : Nat) : Writes (emptyLines k) [] := by
  cases k with
  | zero => exact ⟨[], .nil, .nil⟩
  | succ k =>
    refine ⟨[⟨T._CPP_COMMENT_NL, List.replicate (k + 1) '\n', 1, 1 + countNL (List.replicate (k + 1) '\n')⟩], ?_, ?_⟩
    · have := Layout.tok (p := tEND) (l := 1) (s := [])
        (.lineEnd (.inl (emptyLines_newlines k)) (by constructor <;> simp)) .nil
      simpa [emptyLines] using this
    · exact ProgSyn.nl (w := []) .nil rfl

theorem emptyLines_ends (k : Nat) : EndsLine (emptyLines k).toList := by
  cases k with
  | zero => exact .inl rfl
  | succ k => exact .inr (by simpa [emptyLines] using newlines_ends (emptyLines_newlines k))

/-- Empty lines in front of a clear text move the program down. -/
theorem Writes.below {t : String} {p : Program} (h : Writes t p) (hb : NoBreak t.toList) (k : Nat) :
    Writes (emptyLines k ++ t) (p.down k) := by
  have := (emptyLines_writes k).append h (emptyLines_ends k) hb
  have e : countNL (emptyLines k).toList = k := by
    simpa [emptyLines] using countNL_replicate k
  rwa [e] at this

end Pycep
