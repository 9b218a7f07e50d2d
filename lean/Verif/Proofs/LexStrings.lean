import Verif.Proofs.LexBreaks
/-
The lexer finds quoted strings, with interpolations, and multi-line strings.
-/
namespace Pycep

/-! ### The whole scanner as an alternation -/

theorem scanRe_some {rec : Matcher} {t : Nat} {s out : List Char} {k : Cont} : ∀ {ids : List Nat},
    ids.Pairwise (· < ·) → t ∈ ids → (∀ j ∈ ids, j < t → (termRe j).run rec s k = .none) →
    (termRe t).run rec s k = some out → (scanRe ids).run rec s k = some out
  | [], _, h, _, _ => by simp at h
  | i :: ids, hp, hm, hl, ht => by
    rw [List.pairwise_cons] at hp
    show (Re.alt (termRe i) (scanRe ids)).run rec s k = some out
    rw [run_alt]
    by_cases hi : i = t
    · subst hi; rw [ht]; rfl
    · have hm' : t ∈ ids := by
        rcases List.mem_cons.mp hm with h | h
        · exact absurd h.symm hi
        · exact h
      rw [hl i (by simp) (hp.1 t hm'), orElse_none]
      exact scanRe_some hp.2 hm' (fun k hk => hl k (List.mem_cons_of_mem _ hk)) ht

theorem scanRe_none {rec : Matcher} {s : List Char} {k : Cont} : ∀ {ids : List Nat},
    (∀ j ∈ ids, (termRe j).run rec s k = .none) → (scanRe ids).run rec s k = .none
  | [], _ => rfl
  | i :: ids, h => by
    show (Re.alt (termRe i) (scanRe ids)).run rec s k = .none
    rw [run_alt, h i (by simp), orElse_none]
    exact scanRe_none fun j hj => h j (by simp [hj])

theorem scanRe_isSome {rec : Matcher} {t : Nat} {s : List Char} {k : Cont} : ∀ {ids : List Nat},
    t ∈ ids → ((termRe t).run rec s k).isSome = true → ((scanRe ids).run rec s k).isSome = true
  | [], h, _ => by simp at h
  | i :: ids, hm, ht => by
    show ((Re.alt (termRe i) (scanRe ids)).run rec s k).isSome = true
    rw [run_alt, orElse_isSome, Bool.or_eq_true]
    rcases List.mem_cons.mp hm with rfl | h
    · exact .inl ht
    · exact .inr (scanRe_isSome h ht)

theorem lang_scanRe {x : List Char} : ∀ {ids : List Nat}, Lang (scanRe ids) x → x ≠ [] →
    ∃ t ∈ ids, Lang (termRe t) x
  | [], h, hne => by
    have h : Lang (.nlook .eps) x := h
    exact absurd h.nlook_inv hne
  | i :: ids, h, hne => by
    have h : Lang (.alt (termRe i) (scanRe ids)) x := h
    rcases h.alt_inv with h | h
    · exact ⟨i, by simp, h⟩
    · obtain ⟨t, ht, h⟩ := lang_scanRe h hne
      exact ⟨t, by simp [ht], h⟩

/-- the whole scanner consumes something -/
theorem scanRe_sound {rec : Matcher} (hr : Sound rec (fun _ => True)) : ∀ {ids : List Nat},
    (∀ t ∈ ids, t < tEND) → Sound ((scanRe ids).run rec) (· ≠ [])
  | [], _ => by
    intro s k out h
    have h : Option.none = some out := h
    simp at h
  | i :: ids, hlt => by
    intro s k out h
    have h : (Re.alt (termRe i) (scanRe ids)).run rec s k = some out := h
    rw [run_alt] at h
    cases ha : (termRe i).run rec s k with
    | some o =>
      rw [ha] at h
      obtain ⟨x, y, e, hl, hk⟩ := Re.run_sound hr _ _ _ _ ha
      refine ⟨x, y, e, termRe_ne_nil (hlt i (by simp)) hl, ?_⟩
      rw [hk]; exact h
    | none =>
      rw [ha, orElse_none] at h
      exact scanRe_sound hr (fun t ht => hlt t (by simp [ht])) _ _ _ h

theorem recMatcher_ne_nil {ids : List Nat} (hlt : ∀ t ∈ ids, t < tEND) (n : Nat) :
    Sound (recMatcher (scanRe ids) n) (· ≠ []) := by
  cases n with
  | zero => intro s k out h; simp [recMatcher] at h
  | succ n => exact scanRe_sound (recMatcher_sound _ n) hlt

/-! ### No triple quote on the line -/

theorem NoTriple.tail {c s} (h : NoTriple (c :: s)) (hc : c ≠ '\n') : NoTriple s := by
  intro hi
  apply h
  rw [List.takeWhile_cons_of_pos (by simpa using hc)]
  exact hi.trans (List.suffix_cons _ _).isInfix

theorem NoTriple.drop {x s} (h : NoTriple (x ++ s)) (hx : ∀ c ∈ x, c ≠ '\n') : NoTriple s := by
  induction x with
  | nil => exact h
  | cons c x ih =>
    exact ih (NoTriple.tail (s := x ++ s) h (hx c (by simp))) fun d hd => hx d (by simp [hd])

/-- the look-ahead of QUOTED_INTERPOLATION -/
theorem noTriple_run {top : Re} {d : Nat} {s : List Char} {k : Cont} (h : NoTriple s) :
    (Re.nlook (.seq (.star Re.dot) (Re.lit ['\'', '\'', '\'']))).run (recMatcher top d) s k = k s := by
  have : (Re.seq (.star Re.dot) (Re.lit ['\'', '\'', '\''])).run (recMatcher top d) s some = .none := by
    refine run_none fun x y e hl => h ?_
    obtain ⟨a, b, rfl, ha, hb⟩ := hl.seq_inv
    have ha' := ha.starSet_inv
    rw [hb.lit_inv] at e
    have e2 : s.takeWhile (· != '\n') = a ++ (['\'', '\'', '\''] ++ y.takeWhile (· != '\n')) := by
      rw [e, List.append_assoc, List.takeWhile_append_of_pos ha']
      rfl
    rw [e2]
    exact ⟨a, y.takeWhile (· != '\n'), by simp⟩
  rw [Re.run, this]
  rfl

/-- a multi-line string is no quoted string -/
theorem triple_run {top : Re} {s : List Char} :
    Re.matchIn top (termRe T.QUOTED_INTERPOLATION) ('\'' :: '\'' :: '\'' :: s) = .none := by
  show Terminals.QUOTED_INTERPOLATION.run _ ('\'' :: '\'' :: '\'' :: s) some = .none
  rw [Terminals.QUOTED_INTERPOLATION, run_seq, Re.run]
  rw [if_pos]
  rw [run_seq, run_star]
  refine starLoop_isSome _ ?_
  have := lit_run (rec := recMatcher top ('\'' :: '\'' :: '\'' :: s).length) ['\'', '\'', '\'']
    (s := s) (k := some)
  exact (congrArg Option.isSome this).trans rfl

/-! ### Units of a quoted string -/

theorem unit_quote {rec s k} : Terminals.quotedUnit.run rec ('\'' :: s) k = .none := by
  refine Re.refuses_run ?_
  show Terminals.quotedUnit.refuses (some '\'') = true
  decide

theorem unit_plain {rec c s k} (hc : c ≠ '\'') (h1 : c = '$' → s.head? ≠ some '{')
    (h2 : c = '\\' → s.head? ≠ some '\'') : Terminals.quotedUnit.run rec (c :: s) k = k s := by
  rw [Terminals.quotedUnit, run_alt, run_alt]
  have ha : ∀ r, (Re.seq (Re.chr '$') (.seq (Re.chr '{') r)).run rec (c :: s) k = .none := by
    intro r
    rw [run_seq]
    by_cases h : c = '$'
    · rw [h, chr_run, run_seq]
      cases s with
      | nil => rfl
      | cons d s =>
        refine chr_run_ne ?_
        rintro rfl
        exact h1 h rfl
    · exact chr_run_ne h
  have hb : (Re.seq (Re.chr '\\') (Re.chr '\'')).run rec (c :: s) k = .none := by
    rw [run_seq]
    by_cases h : c = '\\'
    · rw [h, chr_run]
      cases s with
      | nil => rfl
      | cons d s =>
        refine chr_run_ne ?_
        rintro rfl
        exact h2 h rfl
    · exact chr_run_ne h
  rw [ha, orElse_none, hb, orElse_none, run_set, if_pos (by simpa using hc)]

theorem unit_esc {rec s k} (hk : (k s).isSome = true) :
    Terminals.quotedUnit.run rec ('\\' :: '\'' :: s) k = k s := by
  rw [Terminals.quotedUnit, run_alt, run_alt, run_seq, chr_run_ne (by decide), orElse_none, run_seq,
    chr_run, chr_run, orElse_left hk]

/-- one unit of an interpolation -/
abbrev holeUnit : Re :=
  .alt (Re.plus (.set (fun c => c != '}' && c != '\'' && c != '{'))) .recur

theorem unit_hole {rec s s' k} (h : starLoop (holeUnit.run rec) s.length s some = some ('}' :: s'))
    (hk : (k s').isSome = true) : Terminals.quotedUnit.run rec ('$' :: '{' :: s) k = k s' := by
  rw [Terminals.quotedUnit, run_alt, run_seq, chr_run, run_seq, chr_run, run_seq]
  have : (Re.possStar holeUnit).run rec s (fun s' => (Re.chr '}').run rec s' k) = k s' := by
    rw [Re.run, h]
    exact chr_run
  rw [this, orElse_left hk]

/-- If the interpolation does not end, `$` is an ordinary character. -/
theorem unit_open {rec s k} (h : ∀ s', starLoop (holeUnit.run rec) s.length s some ≠ some ('}' :: s')) :
    Terminals.quotedUnit.run rec ('$' :: '{' :: s) k = k ('{' :: s) := by
  rw [Terminals.quotedUnit, run_alt, run_seq, chr_run, run_seq, chr_run, run_seq]
  have : (Re.possStar holeUnit).run rec s (fun s' => (Re.chr '}').run rec s' k) = .none := by
    rw [Re.run]
    cases hl : starLoop (holeUnit.run rec) s.length s some with
    | none => rfl
    | some o =>
      cases o with
      | nil => rfl
      | cons c o =>
        refine chr_run_ne ?_
        rintro rfl
        exact h o hl
  rw [this, orElse_none, run_alt, run_seq, chr_run_ne (by decide), orElse_none, run_set,
    if_pos (by decide)]

/-! ### Strings without strings inside -/

/-- characters and `\'` -/
inductive PlainBody : List Char → Prop where
  | nil : PlainBody []
  | chr {c x} : c ≠ '\'' → (c = '\\' → ∃ d y, x = d :: y ∧ d ≠ '\'') → PlainBody x →
      PlainBody (c :: x)
  | esc {x} : PlainBody x → PlainBody ('\\' :: '\'' :: x)

theorem absurd_chr {a b : Char} {P : Prop} (h : a ≠ b) : a = b → P := fun h' => absurd h' h

theorem PlainBody.hole {h} : ∀ {b}, QHole b h → b = false → ∀ {x}, PlainBody x →
    PlainBody (h ++ '}' :: x)
  | _, .nil, _, x, hx => .chr (by decide) (absurd_chr (by decide)) hx
  | _, .chr (c := c) (x := y) h1 h2 h3 h4 hy, hb, x, hx => by
    refine .chr h1 (fun _ => ?_) (PlainBody.hole hy hb hx)
    cases hy with
    | nil => exact ⟨_, _, rfl, by decide⟩
    | chr h _ _ _ _ => exact ⟨_, _, rfl, h⟩
    | str _ _ => simp at hb
  | _, .str _ _, hb, _, _ => by simp at hb

theorem PlainBody.of {x} : ∀ {b}, QBody b x → b = false → PlainBody x
  | _, .nil, _ => .nil
  | _, .chr h1 _ h3 _ hx, hb => .chr h1 (fun h => absurd h h3) (PlainBody.of hx hb)
  | _, .dollar _ hx, hb => .chr (by decide) (absurd_chr (by decide)) (PlainBody.of hx hb)
  | _, .back h hx, hb => .chr (by decide) (fun _ => ⟨_, _, rfl, h⟩) (PlainBody.of hx hb)
  | _, .esc hx, hb => .esc (PlainBody.of hx hb)
  | _, .hole hh hx, hb => by
    have h1 := PlainBody.hole hh hb (PlainBody.of hx hb)
    exact .chr (by decide) (absurd_chr (by decide)) (.chr (by decide) (absurd_chr (by decide)) h1)

theorem rbrace_run {rec s k} : (termRe T.RBRACE).run rec ('}' :: s) k = k s :=
  lit_run ['}']

/-- Where `}` is accepted, `(?R)` eats the end of the interpolation. -/
theorem hole_open {ids : List Nat} (hlt : ∀ t ∈ ids, t < tEND) (hr : T.RBRACE ∈ ids) (d : Nat) :
    ∀ (n : Nat) (s s' : List Char), s.length ≤ n →
    starLoop (holeUnit.run (recMatcher (scanRe ids) (d + 1))) n s some ≠ some ('}' :: s') := by
  intro n
  induction n with
  | zero =>
    intro s s' hn h
    cases s with
    | nil => simp [starLoop] at h
    | cons c s => simp at hn
  | succ n ih =>
    intro s s' hn h
    unfold starLoop at h
    cases hb : holeUnit.run (recMatcher (scanRe ids) (d + 1)) s (fun s' =>
        if s'.length < s.length then
          starLoop (holeUnit.run (recMatcher (scanRe ids) (d + 1))) n s' some else some s') with
    | some o =>
      rw [hb] at h
      have ho : o = '}' :: s' := by simpa [orElse] using h
      subst ho
      have hsound : ∃ pre suf, s = pre ++ suf ∧ pre ≠ [] ∧ (if suf.length < s.length then
          starLoop (holeUnit.run (recMatcher (scanRe ids) (d + 1))) n suf some else some suf) =
          some ('}' :: s') := by
        rw [run_alt] at hb
        rcases orElse_some hb with hb | hb
        · obtain ⟨x, y, e, hl, hk⟩ := Re.run_sound (recMatcher_sound _ _) _ _ _ _ hb
          exact ⟨x, y, e, hl.plusSet_inv.1, hk⟩
        · exact recMatcher_ne_nil hlt (d + 1) _ _ _ hb.2
      obtain ⟨pre, suf, rfl, hpre, hk⟩ := hsound
      have hpos := List.length_pos_iff.mpr hpre
      rw [if_pos (by simp; omega)] at hk
      exact ih suf s' (by simp at hn; omega) hk
    | none =>
      rw [hb, orElse_none] at h
      have hs : s = '}' :: s' := by simpa using h
      subst hs
      have : (holeUnit.run (recMatcher (scanRe ids) (d + 1)) ('}' :: s') (fun s'' =>
        if s''.length < ('}' :: s').length then
          starLoop (holeUnit.run (recMatcher (scanRe ids) (d + 1))) n s'' some else some s'')).isSome
          = true := by
        rw [run_alt, orElse_isSome, Bool.or_eq_true]
        right
        show ((scanRe ids).run (recMatcher (scanRe ids) d) _ _).isSome = true
        refine scanRe_isSome hr ?_
        rw [rbrace_run]
        split
        · exact starLoop_isSome _ rfl
        · rfl
      rw [hb] at this
      simp at this

theorem plain_loop {ids : List Nat} (hlt : ∀ t ∈ ids, t < tEND) (hr : T.RBRACE ∈ ids) (d : Nat)
    {s : List Char} {k : Cont} (hk : (k ('\'' :: s)).isSome = true) {x} (hx : PlainBody x) :
    ∀ n, x.length ≤ n →
    starLoop (Terminals.quotedUnit.run (recMatcher (scanRe ids) (d + 1))) n (x ++ '\'' :: s) k =
      k ('\'' :: s) := by
  induction hx with
  | nil =>
    intro n _
    cases n with
    | zero => rfl
    | succ n => unfold starLoop; rw [List.nil_append, unit_quote, orElse_none]
  | @chr c x hc hb _ ih =>
    intro n hn
    cases n with
    | zero => simp at hn
    | succ n =>
      have hi := ih n (by simpa using hn)
      have hstep : ∀ K : Cont, Terminals.quotedUnit.run (recMatcher (scanRe ids) (d + 1))
          (c :: (x ++ '\'' :: s)) K = K (x ++ '\'' :: s) := by
        intro K
        have h2 : c = '\\' → (x ++ '\'' :: s).head? ≠ some '\'' := by
          intro h
          obtain ⟨e, y, rfl, he⟩ := hb h
          simpa using he
        by_cases h : c = '$' ∧ (x ++ '\'' :: s).head? = some '{'
        · obtain ⟨rfl, h⟩ := h
          cases hz : x ++ '\'' :: s with
          | nil => rw [hz] at h; simp at h
          | cons e z =>
            rw [hz] at h
            have : e = '{' := by simpa using h
            subst this
            exact unit_open fun s' => hole_open hlt hr d _ _ _ (Nat.le_refl _)
        · exact unit_plain hc (fun h' h'' => h ⟨h', h''⟩) h2
      unfold starLoop
      rw [List.cons_append, hstep, if_pos (by simp), hi, orElse_left hk]
  | @esc x _ ih =>
    intro n hn
    cases n with
    | zero => simp at hn
    | succ n =>
      have hi := ih n (by simp at hn; omega)
      have hif : (if (x ++ '\'' :: s).length < ('\\' :: '\'' :: (x ++ '\'' :: s)).length then
          starLoop (Terminals.quotedUnit.run (recMatcher (scanRe ids) (d + 1))) n (x ++ '\'' :: s) k
          else k (x ++ '\'' :: s)) = k ('\'' :: s) := by
        rw [if_pos (by simp; omega), hi]
      unfold starLoop
      rw [List.cons_append, List.cons_append, unit_esc (by rw [hif]; exact hk), hif, orElse_left hk]

/-! ### Strings with strings inside of interpolations -/

mutual
theorem QBody.noNL {b x} : QBody b x → ∀ c ∈ x, c ≠ '\n'
  | .nil => by simp
  | .chr _ _ _ h hx => by
    intro d hd
    rcases List.mem_cons.mp hd with rfl | hd
    · exact h
    · exact QBody.noNL hx d hd
  | .dollar _ hx => by
    intro d hd
    rcases List.mem_cons.mp hd with rfl | hd
    · decide
    · exact QBody.noNL hx d hd
  | .back _ hx => by
    intro d hd
    rcases List.mem_cons.mp hd with rfl | hd
    · decide
    · exact QBody.noNL hx d hd
  | .esc hx => by
    intro d hd
    rcases List.mem_cons.mp hd with rfl | hd
    · decide
    · rcases List.mem_cons.mp hd with rfl | hd
      · decide
      · exact QBody.noNL hx d hd
  | .hole hh hx => by
    intro d hd
    rcases List.mem_cons.mp hd with rfl | hd
    · decide
    · rcases List.mem_cons.mp hd with rfl | hd
      · decide
      · rcases List.mem_append.mp hd with hd | hd
        · exact QHole.noNL hh d hd
        · rcases List.mem_cons.mp hd with rfl | hd
          · decide
          · exact QBody.noNL hx d hd
theorem QHole.noNL {b x} : QHole b x → ∀ c ∈ x, c ≠ '\n'
  | .nil => by simp
  | .chr _ _ _ h hx => by
    intro d hd
    rcases List.mem_cons.mp hd with rfl | hd
    · exact h
    · exact QHole.noNL hx d hd
  | .str hx hh => by
    intro d hd
    rcases List.mem_cons.mp hd with rfl | hd
    · decide
    · rcases List.mem_append.mp hd with hd | hd
      · exact QBody.noNL hx d hd
      · rcases List.mem_cons.mp hd with rfl | hd
        · decide
        · exact QHole.noNL hh d hd
end

/-- ordinary characters of an interpolation -/
abbrev holeChar (c : Char) : Bool := c != '}' && c != '\'' && c != '{'

theorem QHole.split {b h} (hh : QHole b h) : h = [] ∨
    (∃ a r, a ≠ [] ∧ h = a ++ r ∧ (∀ c ∈ a, holeChar c = true) ∧ (∀ c ∈ a, c ≠ '\n') ∧ QHole b r ∧
      (r = [] ∨ r.head? = some '\'')) ∨
    (∃ x r, h = '\'' :: x ++ '\'' :: r ∧ QBody true x ∧ QHole true r) := by
  match hh with
  | .nil => exact .inl rfl
  | .str hx hr => exact .inr (.inr ⟨_, _, rfl, hx, hr⟩)
  | .chr (c := c) (x := y) h1 h2 h3 h4 hy =>
    have hc : holeChar c = true := by simp [holeChar, h1, h2, h3]
    right; left
    rcases QHole.split hy with rfl | ⟨a, r, _, rfl, ha, ha', hr, he⟩ | ⟨x, r, rfl, hx, hr⟩
    · exact ⟨[c], [], by simp, by simp, by simpa using hc, by simpa using h4, .nil, .inl rfl⟩
    · refine ⟨c :: a, r, by simp, by simp, ?_, ?_, hr, he⟩
      · intro d hd
        rcases List.mem_cons.mp hd with rfl | hd
        · exact hc
        · exact ha d hd
      · intro d hd
        rcases List.mem_cons.mp hd with rfl | hd
        · exact h4
        · exact ha' d hd
    · exact ⟨[c], _, by simp, rfl, by simpa using hc, by simpa using h4, hy, .inr rfl⟩

theorem check_rbrace : ∀ k < tEND, k ≠ T.RBRACE → (termRe k).refuses (some '}') = true := by
  decide +kernel

theorem check_quote : ∀ k < T.QUOTED_INTERPOLATION, (termRe k).refuses (some '\'') = true := by
  decide +kernel

theorem holeUnit_rbrace {ids : List Nat} (hlt : ∀ t ∈ ids, t < tEND) (hr : T.RBRACE ∉ ids)
    {d : Nat} {s : List Char} {k : Cont} :
    holeUnit.run (recMatcher (scanRe ids) d) ('}' :: s) k = .none := by
  rw [run_alt, Re.refuses_run (r := Re.plus _) (by simp [Re.plus, Re.refuses]), orElse_none]
  cases d with
  | zero => rfl
  | succ d =>
    show (scanRe ids).run _ _ _ = .none
    refine scanRe_none fun j hj => Re.refuses_run ?_
    exact check_rbrace j (hlt j hj) (fun h => hr (h ▸ hj))

theorem nest_loop {ids : List Nat} (hpw : ids.Pairwise (· < ·)) (hlt : ∀ t ∈ ids, t < tEND)
    (hq : T.QUOTED_INTERPOLATION ∈ ids) (hr : T.RBRACE ∉ ids) : ∀ N : Nat,
    (∀ {b x} {d n : Nat} {s : List Char} {k : Cont}, QBody b x → x.length ≤ N → x.length ≤ d →
      x.length ≤ n → NoTriple (x ++ '\'' :: s) → (k ('\'' :: s)).isSome = true →
      starLoop (Terminals.quotedUnit.run (recMatcher (scanRe ids) d)) n (x ++ '\'' :: s) k =
        k ('\'' :: s)) ∧
    (∀ {b h} {d n : Nat} {s : List Char}, QHole b h → h.length ≤ N → h.length ≤ d →
      h.length ≤ n → NoTriple (h ++ '}' :: s) →
      starLoop (holeUnit.run (recMatcher (scanRe ids) d)) n (h ++ '}' :: s) some =
        some ('}' :: s)) := by
  intro N
  induction N with
  | zero =>
    refine ⟨?_, ?_⟩
    · intro b x d n s k _ hN _ _ _ _
      have : x = [] := List.length_eq_zero_iff.mp (by omega)
      subst this
      cases n with
      | zero => rfl
      | succ n => unfold starLoop; rw [List.nil_append, unit_quote, orElse_none]
    · intro b h d n s _ hN _ _ _
      have : h = [] := List.length_eq_zero_iff.mp (by omega)
      subst this
      cases n with
      | zero => rfl
      | succ n => unfold starLoop; rw [List.nil_append, holeUnit_rbrace hlt hr, orElse_none]
  | succ N ih =>
    obtain ⟨ihQ, ihH⟩ := ih
    refine ⟨?_, ?_⟩
    · intro b x d n s k hx hN hd hn ht hk
      by_cases hNx : x.length ≤ N
      · exact ihQ hx hNx hd hn ht hk
      obtain ⟨n, rfl⟩ : ∃ m, n = m + 1 := ⟨n - 1, by omega⟩
      -- a character that stands for itself
      have plain : ∀ {c y}, x = c :: y → c ≠ '\'' → c ≠ '\n' → (c = '$' → y.head? ≠ some '{') →
          (c = '\\' → ∃ e z, y = e :: z ∧ e ≠ '\'') → QBody b y →
          starLoop (Terminals.quotedUnit.run (recMatcher (scanRe ids) d)) (n + 1) (x ++ '\'' :: s) k =
            k ('\'' :: s) := by
        intro c y e hc hc' h1 h2 hy
        subst e
        simp only [List.length_cons] at hN hd hn
        have hi := ihQ (d := d) (n := n) (s := s) (k := k) hy (by omega) (by omega) (by omega)
          (NoTriple.tail ht hc') hk
        unfold starLoop
        rw [List.cons_append, unit_plain hc, if_pos (by simp), hi, orElse_left hk]
        · intro h
          cases y with
          | nil => simp
          | cons e z => simpa using h1 h
        · intro h
          obtain ⟨e, z, rfl, he⟩ := h2 h
          simpa using he
      cases hx with
      | nil => simp at hNx
      | chr h1 h2 h3 h4 hy =>
        exact plain rfl h1 h4 (fun h => absurd h h2) (fun h => absurd h h3) hy
      | dollar h hy => exact plain rfl (by decide) (by decide) (fun _ => h) (absurd_chr (by decide)) hy
      | back h hy => exact plain rfl (by decide) (by decide) (absurd_chr (by decide)) (fun _ => ⟨_, _, rfl, h⟩) hy
      | @esc _ y hy =>
        simp only [List.length_cons] at hN hd hn
        have hi := ihQ (d := d) (n := n) (s := s) (k := k) hy (by omega) (by omega) (by omega)
          (NoTriple.drop (x := ['\\', '\'']) ht (by decide)) hk
        have hif : (if (y ++ '\'' :: s).length < ('\\' :: '\'' :: (y ++ '\'' :: s)).length then
            starLoop (Terminals.quotedUnit.run (recMatcher (scanRe ids) d)) n (y ++ '\'' :: s) k
            else k (y ++ '\'' :: s)) = k ('\'' :: s) := by
          rw [if_pos (by simp; omega), hi]
        unfold starLoop
        rw [List.cons_append, List.cons_append, unit_esc (by rw [hif]; exact hk), hif, orElse_left hk]
      | @hole _ h y hh hy =>
        simp only [List.length_cons, List.length_append] at hN hd hn
        have e : '$' :: '{' :: h ++ '}' :: y ++ '\'' :: s =
            '$' :: '{' :: (h ++ '}' :: (y ++ '\'' :: s)) := by simp
        rw [e] at ht ⊢
        have ht1 : NoTriple (h ++ '}' :: (y ++ '\'' :: s)) := (ht.tail (by decide)).tail (by decide)
        have ht2 : NoTriple (y ++ '\'' :: s) := (ht1.drop hh.noNL).tail (by decide)
        have h1 := ihH (d := d) (n := (h ++ '}' :: (y ++ '\'' :: s)).length) hh (by omega) (by omega)
          (by simp) ht1
        have hi := ihQ (d := d) (n := n) (s := s) (k := k) hy (by omega) (by omega) (by omega) ht2 hk
        have hif : (if (y ++ '\'' :: s).length <
            ('$' :: '{' :: (h ++ '}' :: (y ++ '\'' :: s))).length then
            starLoop (Terminals.quotedUnit.run (recMatcher (scanRe ids) d)) n (y ++ '\'' :: s) k
            else k (y ++ '\'' :: s)) = k ('\'' :: s) := by
          rw [if_pos (by simp; omega), hi]
        unfold starLoop
        rw [unit_hole h1 (by rw [hif]; exact hk), hif, orElse_left hk]
    · intro b h d n s hh hN hd hn ht
      by_cases hNx : h.length ≤ N
      · exact ihH hh hNx hd hn ht
      obtain ⟨n, rfl⟩ : ∃ m, n = m + 1 := ⟨n - 1, by omega⟩
      rcases hh.split with rfl | ⟨a, r, hne, rfl, ha, ha', hr', he⟩ | ⟨x, r, rfl, hx, hr'⟩
      · simp at hNx
      · have hpos := List.length_pos_iff.mpr hne
        simp only [List.length_append] at hN hd hn
        rw [List.append_assoc] at ht ⊢
        have hi := ihH (d := d) (n := n) (s := s) hr' (by omega) (by omega) (by omega) (ht.drop ha')
        have hstop : Stops holeChar (r ++ '}' :: s) := by
          rcases he with rfl | he
          · exact Stops.cons (by decide)
          · cases r with
            | nil => simp at he
            | cons c r =>
              have : c = '\'' := by simpa using he
              subst this
              exact Stops.cons (by decide)
        have hif : (if (r ++ '}' :: s).length < (a ++ (r ++ '}' :: s)).length then
            starLoop (holeUnit.run (recMatcher (scanRe ids) d)) n (r ++ '}' :: s) some
            else some (r ++ '}' :: s)) = some ('}' :: s) := by
          rw [if_pos (by simp; omega), hi]
        unfold starLoop
        rw [run_alt, plus_set hstop hne ha (by rw [hif]; rfl), hif]
        rfl
      · simp only [List.length_append, List.length_cons] at hN hd hn
        obtain ⟨d, rfl⟩ : ∃ m, d = m + 1 := ⟨d - 1, by omega⟩
        have e : '\'' :: x ++ '\'' :: r ++ '}' :: s = '\'' :: (x ++ '\'' :: (r ++ '}' :: s)) := by simp
        rw [e] at ht ⊢
        have ht1 : NoTriple (x ++ '\'' :: (r ++ '}' :: s)) := ht.tail (by decide)
        have ht2 : NoTriple (r ++ '}' :: s) := (ht1.drop hx.noNL).tail (by decide)
        have hi := ihH (d := d + 1) (n := n) (s := s) hr' (by omega) (by omega) (by omega) ht2
        have hif : (if (r ++ '}' :: s).length < ('\'' :: (x ++ '\'' :: (r ++ '}' :: s))).length then
            starLoop (holeUnit.run (recMatcher (scanRe ids) (d + 1))) n (r ++ '}' :: s) some
            else some (r ++ '}' :: s)) = some ('}' :: s) := by
          rw [if_pos (by simp; omega), hi]
        have hqi : ∀ K : Cont, K (r ++ '}' :: s) = some ('}' :: s) →
            (termRe T.QUOTED_INTERPOLATION).run (recMatcher (scanRe ids) d)
              ('\'' :: (x ++ '\'' :: (r ++ '}' :: s))) K = some ('}' :: s) := by
          intro K hK
          show Terminals.QUOTED_INTERPOLATION.run _ _ _ = _
          rw [Terminals.QUOTED_INTERPOLATION, run_seq, noTriple_run ht, run_seq, chr_run, run_seq,
            run_star]
          rw [ihQ hx (by omega) (by omega) (by simp) ht1 (by rw [chr_run, hK]; rfl), chr_run, hK]
        unfold starLoop
        rw [run_alt, Re.refuses_run (r := Re.plus _) (by simp [Re.plus, Re.refuses]), orElse_none]
        have : ∀ K : Cont, K (r ++ '}' :: s) = some ('}' :: s) →
            Re.recur.run (recMatcher (scanRe ids) (d + 1)) ('\'' :: (x ++ '\'' :: (r ++ '}' :: s))) K =
              some ('}' :: s) := by
          intro K hK
          show (scanRe ids).run (recMatcher (scanRe ids) d) _ _ = _
          exact scanRe_some hpw hq (fun j _ hjl => Re.refuses_run (check_quote j hjl)) (hqi K hK)
        rw [this _ hif]
        rfl

/-! ### Quoted strings -/

theorem finds_quoted {p st : Nat} (ok : stateOK p st = true) {b : Bool} {x s : List Char}
    (ha : acts st T.QUOTED_INTERPOLATION = true) (hx : QBody b x) (hb : b = true → p ∈ nestAfter)
    (ht : NoTriple ('\'' :: x ++ '\'' :: s)) :
    Finds st T.QUOTED_INTERPOLATION ('\'' :: x ++ ['\'']) s := by
  intro l
  have hmem : T.QUOTED_INTERPOLATION ∈ scanIds (accepts st) :=
    scan_mem (by decide) (.inl ha) (by decide) (by decide)
  have hltE : ∀ t ∈ scanIds (accepts st), t < tEND := fun t h => (acts_of_scan h).1
  rw [nextTok_first (t := T.QUOTED_INTERPOLATION) (by simp) hmem ?_ ?_]
  · rw [not_ignored (by decide), if_neg (by simp), retype_other (by decide) (by decide) (by decide)]
  · intro k _ hlt
    exact refuse (check_quote k hlt)
  · show Terminals.QUOTED_INTERPOLATION.run _ _ some = some s
    have e : '\'' :: x ++ ['\''] ++ s = '\'' :: (x ++ '\'' :: s) := by simp
    have e' : '\'' :: x ++ '\'' :: s = '\'' :: (x ++ '\'' :: s) := by simp
    rw [e'] at ht
    rw [e, Terminals.QUOTED_INTERPOLATION, run_seq, noTriple_run ht, run_seq, chr_run, run_seq,
      run_star]
    by_cases hr : T.RBRACE ∈ scanIds (accepts st)
    · have hbf : b = false := by
        cases b with
        | false => rfl
        | true =>
          exact (no_act hr (StateOK.nest ok (hb rfl) ha) (by decide)).elim
      rw [List.length_cons]
      rw [plain_loop hltE hr _ (by rw [chr_run]; rfl) (PlainBody.of hx hbf) _ (by simp), chr_run]
    · rw [(nest_loop (scanIds_pairwise st) hltE hmem hr x.length).1 hx (Nat.le_refl _)
        (by simp; omega) (by simp) (ht.tail (by decide)) (by rw [chr_run]; rfl), chr_run]

/-! ### Multi-line strings -/

/-- one unit of a multi-line string -/
abbrev multiUnit : Re := .alt Terminals.NEWLINE (.lazyStar Re.dot)

/-- the end of a multi-line string -/
abbrev multiEnd (rec : Matcher) : Cont := fun s => (Re.lit ['\'', '\'', '\'']).run rec s some

theorem multiEnd_run {rec s} : multiEnd rec ('\'' :: '\'' :: '\'' :: s) = some s :=
  lit_run ['\'', '\'', '\'']

theorem multiEnd_none {rec c x s} (h : ¬ ['\'', '\'', '\''] <:+: c :: x ++ ['\'', '\'']) :
    multiEnd rec (c :: x ++ '\'' :: '\'' :: '\'' :: s) = .none := by
  refine lit_run_none _ fun hp => h ?_
  have hp2 : c :: x ++ ['\'', '\''] <+: c :: x ++ '\'' :: '\'' :: '\'' :: s := ⟨'\'' :: s, by simp⟩
  exact (List.prefix_of_prefix_length_le hp hp2 (by simp)).isInfix

theorem newline_none {rec s k} (h : NoBreak s) : Terminals.NEWLINE.run rec s k = .none := by
  show (Re.seq nlUnit (.star nlUnit)).run rec s k = .none
  rw [run_seq, nlUnit_none h]

/-- the leading line ends of a text -/
theorem split_breaks : ∀ x : List Char, (∃ n r, x = n ++ r ∧ IsNewlines n ∧ NoBreak r) ∨ NoBreak x
  | [] => .inr ⟨by simp, by simp⟩
  | ['\r'] => .inr ⟨by simp, by simp⟩
  | c :: x => by
    by_cases hc : c = '\n'
    · subst hc
      left
      rcases split_breaks x with ⟨n, r, rfl, hn, hr⟩ | h
      · exact ⟨'\n' :: n, r, by simp, .consLf hn, hr⟩
      · exact ⟨['\n'], x, by simp, .lf, h⟩
    · by_cases hr : ∃ y, c = '\r' ∧ x = '\n' :: y
      · obtain ⟨y, rfl, rfl⟩ := hr
        left
        rcases split_breaks y with ⟨n, r, rfl, hn, hr⟩ | h
        · exact ⟨'\r' :: '\n' :: n, r, by simp, .consCrlf hn, hr⟩
        · exact ⟨['\r', '\n'], y, by simp, .crlf, h⟩
      · right
        refine ⟨?_, ?_⟩
        · rintro ⟨t, ht⟩
          simp at ht
          exact hc ht.1.symm
        · rintro ⟨t, ht⟩
          simp at ht
          exact hr ⟨t, ht.1.symm, ht.2.symm⟩

theorem NoBreak.append {x y : List Char} (h : NoBreak x) (hne : x ≠ []) (hy : y.head? ≠ some '\n') :
    NoBreak (x ++ y) := by
  cases x with
  | nil => simp at hne
  | cons c x =>
    refine ⟨?_, ?_⟩
    · rintro ⟨t, ht⟩
      simp at ht
      exact h.1 ⟨x, by simpa using ht.1⟩
    · rintro ⟨t, ht⟩
      simp at ht
      cases x with
      | nil =>
        simp at ht
        exact hy (by rw [← ht.2]; rfl)
      | cons d x =>
        simp at ht
        exact h.2 ⟨x, by simpa using ⟨ht.1, ht.2.1⟩⟩

theorem NoBreak.of_quote {s} : NoBreak ('\'' :: s) := ⟨by simp, by simp⟩

theorem multi_loop {rec s} : ∀ (N : Nat) (x : List Char) (n : Nat), x.length ≤ N → x.length ≤ n →
    ¬ ['\'', '\'', '\''] <:+: x ++ ['\'', '\''] →
    starLoop (multiUnit.run rec) n (x ++ '\'' :: '\'' :: '\'' :: s) (multiEnd rec) = some s := by
  intro N
  have hnil : ∀ n, starLoop (multiUnit.run rec) n ('\'' :: '\'' :: '\'' :: s) (multiEnd rec) = some s := by
    intro n
    cases n with
    | zero => exact multiEnd_run (rec := rec)
    | succ n =>
      unfold starLoop
      rw [run_alt, newline_none .of_quote, orElse_none]
      have : ∀ K : Cont, K ('\'' :: '\'' :: '\'' :: s) = some s →
          (Re.lazyStar Re.dot).run rec ('\'' :: '\'' :: '\'' :: s) K = some s := by
        intro K hK
        show lazyLoop _ (('\'' :: '\'' :: s).length + 1) _ K = some s
        unfold lazyLoop
        rw [hK]; rfl
      rw [this]
      · rfl
      · rw [if_neg (by omega)]; exact multiEnd_run (rec := rec)
  induction N with
  | zero =>
    intro x n hN _ _
    have : x = [] := List.length_eq_zero_iff.mp (by omega)
    subst this
    exact hnil n
  | succ N ih =>
    intro x n hN hn hx
    by_cases hNx : x.length ≤ N
    · exact ih x n hNx hn hx
    obtain ⟨n, rfl⟩ : ∃ m, n = m + 1 := ⟨n - 1, by omega⟩
    rcases split_breaks x with ⟨a, r, rfl, ha, hr⟩ | hnb
    · have hpos := List.length_pos_iff.mpr ha.ne_nil
      simp only [List.length_append] at hN hn
      have hi := ih r n (by omega) (by omega) (fun h => hx (by
        rw [List.append_assoc]; exact h.trans (List.suffix_append _ _).isInfix))
      have hif : (if (r ++ '\'' :: '\'' :: '\'' :: s).length <
          (a ++ (r ++ '\'' :: '\'' :: '\'' :: s)).length then
          starLoop (multiUnit.run rec) n (r ++ '\'' :: '\'' :: '\'' :: s) (multiEnd rec)
          else multiEnd rec (r ++ '\'' :: '\'' :: '\'' :: s)) = some s := by
        rw [if_pos (by simp; omega), hi]
      have hnb : NoBreak (r ++ '\'' :: '\'' :: '\'' :: s) := by
        cases r with
        | nil => exact .of_quote
        | cons c r => exact hr.append (by simp) (by simp)
      unfold starLoop
      rw [List.append_assoc, run_alt, newline_run ha hnb (by rw [hif]; rfl), hif]
      rfl
    · cases x with
      | nil => simp at hNx
      | cons c x =>
        simp only [List.length_cons] at hN hn
        have hi := ih x n (by omega) (by omega) (fun h => hx (h.trans (List.suffix_cons _ _).isInfix))
        have hnb' := hnb.append (y := '\'' :: '\'' :: '\'' :: s) (by simp) (by simp)
        have hc : c ≠ '\n' := by
          rintro rfl
          exact hnb.1 ⟨x, rfl⟩
        unfold starLoop
        rw [run_alt, newline_none hnb', orElse_none]
        have : ∀ K : Cont, K (c :: x ++ '\'' :: '\'' :: '\'' :: s) = .none →
            K (x ++ '\'' :: '\'' :: '\'' :: s) = some s →
            (Re.lazyStar Re.dot).run rec (c :: x ++ '\'' :: '\'' :: '\'' :: s) K = some s := by
          intro K hK1 hK2
          have hlen : ∃ m, (c :: x ++ '\'' :: '\'' :: '\'' :: s).length = m + 2 :=
            ⟨x.length + s.length + 2, by simp; omega⟩
          obtain ⟨m, hm⟩ := hlen
          show lazyLoop _ _ _ K = some s
          rw [hm]
          unfold lazyLoop
          rw [hK1, orElse_none, List.cons_append, dot_run hc, if_pos (by simp)]
          unfold lazyLoop
          rw [hK2]; rfl
        rw [this]
        · rfl
        · rw [if_neg (by omega)]; exact multiEnd_none hx
        · rw [if_pos (by simp), hi]

theorem multi_run {rec : Matcher} {x s : List Char}
    (hx : ¬ ['\'', '\'', '\''] <:+: x ++ ['\'', '\'']) :
    Terminals.MULTI_LINE_STRING.run rec
      ('\'' :: '\'' :: '\'' :: x ++ ['\'', '\'', '\''] ++ s) some = some s := by
  have e : '\'' :: '\'' :: '\'' :: x ++ ['\'', '\'', '\''] ++ s =
      ['\'', '\'', '\''] ++ (x ++ '\'' :: '\'' :: '\'' :: s) := by simp
  rw [e, Terminals.MULTI_LINE_STRING, run_seq, lit_run, run_seq]
  show (Re.seq multiUnit (.star multiUnit)).run rec _ (multiEnd rec) = _
  rw [run_seq]
  have hstar : ∀ y, ¬ ['\'', '\'', '\''] <:+: y ++ ['\'', '\''] →
      (Re.star multiUnit).run rec (y ++ '\'' :: '\'' :: '\'' :: s)
        (multiEnd rec) = some s := fun y hy => by
    rw [run_star]; exact multi_loop _ y _ (Nat.le_refl _) (by simp) hy
  have hlazy : NoBreak (x ++ '\'' :: '\'' :: '\'' :: s) → multiUnit.run rec
      (x ++ '\'' :: '\'' :: '\'' :: s)
      (fun s' => (Re.star multiUnit).run rec s' (multiEnd rec)) =
      some s := by
    intro hnb
    rw [run_alt, newline_none hnb, orElse_none]
    have hlen : ∃ m, (x ++ '\'' :: '\'' :: '\'' :: s).length = m + 1 :=
      ⟨x.length + s.length + 2, by simp; omega⟩
    obtain ⟨m, hm⟩ := hlen
    show lazyLoop _ _ _ _ = some s
    rw [hm]
    unfold lazyLoop
    simp only [hstar x hx]
    rfl
  rcases split_breaks x with ⟨a, r, rfl, ha, hr⟩ | hnb
  · have hnb : NoBreak (r ++ '\'' :: '\'' :: '\'' :: s) := by
      cases r with
      | nil => exact .of_quote
      | cons c r => exact hr.append (by simp) (by simp)
    have hs := hstar r (fun h => hx (by
      rw [List.append_assoc]; exact h.trans (List.suffix_append _ _).isInfix))
    rw [List.append_assoc, run_alt, newline_run ha hnb (by rw [hs]; rfl), hs]
    rfl
  · refine hlazy ?_
    cases x with
    | nil => exact .of_quote
    | cons c x => exact hnb.append (by simp) (by simp)

theorem multi_match {top : Re} {x s : List Char} (hx : ¬ ['\'', '\'', '\''] <:+: x ++ ['\'', '\'']) :
    Re.matchIn top (termRe T.MULTI_LINE_STRING)
      ('\'' :: '\'' :: '\'' :: x ++ ['\'', '\'', '\''] ++ s) = some s :=
  multi_run hx

theorem finds_multi {st : Nat} {x s : List Char} (ha : acts st T.MULTI_LINE_STRING = true)
    (hx : ¬ ['\'', '\'', '\''] <:+: x ++ ['\'', '\'']) :
    Finds st T.MULTI_LINE_STRING ('\'' :: '\'' :: '\'' :: x ++ ['\'', '\'', '\'']) s := by
  intro l
  rw [nextTok_first (t := T.MULTI_LINE_STRING) (by simp)
    (scan_mem (by decide) (.inl ha) (by decide) (by decide)) ?_ (multi_match hx)]
  · rw [not_ignored (by decide), if_neg (by simp), retype_other (by decide) (by decide) (by decide)]
  · intro k _ hlt
    by_cases h : k = T.QUOTED_INTERPOLATION
    · subst h; exact triple_run
    · refine refuse (check_quote k ?_)
      have : ∀ k < T.MULTI_LINE_STRING, k ≠ T.QUOTED_INTERPOLATION → k < T.QUOTED_INTERPOLATION := by
        decide
      exact this k hlt h

end Pycep
