import Verif.Proofs.StateCheck
import Verif.Proofs.RegexComplete
/-
The scanner returns the first terminal that matches; what it means for the lexer to find a token
or to skip a comment.
-/
namespace Pycep

/-! ### Accepted terminals -/

theorem mem_accepts {st t : Nat} : t ∈ accepts st ↔ t < tEND ∧ (acts st t = true ∨ t ∈ ignoreIds) := by
  simp [accepts, acts]

theorem accepts_pairwise (st : Nat) : (accepts st).Pairwise (· < ·) :=
  List.Pairwise.filter _ List.pairwise_lt_range

theorem scanIds_pairwise (st : Nat) : (scanIds (accepts st)).Pairwise (· < ·) :=
  List.Pairwise.filter _ (accepts_pairwise st)

theorem mem_scanIds {acc : List Nat} {t : Nat} :
    t ∈ scanIds acc ↔ t ∈ acc ∧ ∀ r ∈ acc, t ∉ unlessIds r := by
  simp [scanIds, embedded]

theorem not_ignored {t : Nat} (h : t ∉ ignoreIds) : ignoreIds.contains t = false := by
  simpa using h

/-! ### The first match -/

theorem scan_first {top : Re} {t : Nat} {s rest : List Char} : ∀ {ids : List Nat},
    ids.Pairwise (· < ·) → t ∈ ids →
    (∀ k ∈ ids, k < t → Re.matchIn top (termRe k) s = .none) →
    Re.matchIn top (termRe t) s = some rest → scanWith top ids s = some (t, rest)
  | [], _, h, _, _ => by simp at h
  | i :: ids, hp, hm, hl, ht => by
    rw [List.pairwise_cons] at hp
    unfold scanWith
    by_cases hi : i = t
    · subst hi; rw [ht]
    · have hm' : t ∈ ids := by
        rcases List.mem_cons.mp hm with h | h
        · exact absurd h.symm hi
        · exact h
      rw [hl i (by simp) (hp.1 t hm')]
      exact scan_first hp.2 hm' (fun k hk => hl k (List.mem_cons_of_mem _ hk)) ht

theorem take_append_sub {x rest : List Char} :
    (x ++ rest).take ((x ++ rest).length - rest.length) = x := by simp

theorem nextTok_scan {acc : List Nat} {x rest : List Char} {t l : Nat} (hx : x ≠ [])
    (h : scanWith (scanRe (scanIds acc)) (scanIds acc) (x ++ rest) = some (t, rest)) :
    nextTok acc (x ++ rest).length (x ++ rest) l =
      if ignoreIds.contains t then nextTok acc rest.length rest (l + countNL x)
      else .tok ⟨retype acc t x, x, l, l + countNL x⟩ rest := by
  have hlen : rest.length < (x ++ rest).length := by
    have := List.length_pos_iff.mpr hx
    simp; omega
  have htake := take_append_sub (x := x) (rest := rest)
  generalize hz : x ++ rest = z at *
  cases z with
  | nil => simp at hlen
  | cons c z =>
    have : (c :: z).length = z.length + 1 := rfl
    rw [this]
    conv_lhs => unfold nextTok
    simp only [h]
    rw [if_pos hlen]
    simp only [htake]
    split
    · exact nextTok_fuel z.length rest.length rest _ (by simp only [List.length_cons] at hlen; omega) (Nat.le_refl _)
    · rfl

/-- The general form of all lexing lemmas. -/
theorem nextTok_first {st t l : Nat} {x rest : List Char} (hx : x ≠ [])
    (hmem : t ∈ scanIds (accepts st))
    (hlow : ∀ k ∈ scanIds (accepts st), k < t →
      Re.matchIn (scanRe (scanIds (accepts st))) (termRe k) (x ++ rest) = .none)
    (ht : Re.matchIn (scanRe (scanIds (accepts st))) (termRe t) (x ++ rest) = some rest) :
    nextTok (accepts st) (x ++ rest).length (x ++ rest) l =
      if ignoreIds.contains t then nextTok (accepts st) rest.length rest (l + countNL x)
      else .tok ⟨retype (accepts st) t x, x, l, l + countNL x⟩ rest :=
  nextTok_scan hx (scan_first (scanIds_pairwise st) hmem hlow ht)

theorem refuse {top : Re} {k : Nat} {c : Char} {s : List Char}
    (h : (termRe k).refuses (some c) = true) : Re.matchIn top (termRe k) (c :: s) = .none :=
  Re.refuses_run h

/-- a terminal fails if no prefix of the text has the right form -/
theorem matchIn_none {top r : Re} {s : List Char} (h : ∀ x y, s = x ++ y → ¬ Lang r x) :
    Re.matchIn top r s = .none := by
  cases hm : Re.matchIn top r s with
  | none => rfl
  | some rest =>
    obtain ⟨x, e, hl⟩ := Re.matchIn_sound hm
    exact absurd hl (h x rest e)

theorem run_none {top r : Re} {n : Nat} {s : List Char} {k : Cont}
    (h : ∀ x y, s = x ++ y → ¬ Lang r x) : r.run (recMatcher top n) s k = .none := by
  cases hm : r.run (recMatcher top n) s k with
  | none => rfl
  | some rest =>
    obtain ⟨x, y, e, hl, _⟩ := Re.run_sound (recMatcher_sound top n) r _ _ _ hm
    exact absurd hl (h x y e)

/-! ### Facts about characters -/

/-- a property of the ASCII characters of a class, checked one by one -/
theorem ascii_all {P Q : Char → Bool} (hP : ∀ c, P c = true → c.toNat < 128)
    (h : (List.range 128).all (fun n => !P (Char.ofNat n) || Q (Char.ofNat n)) = true) {c : Char}
    (hc : P c = true) : Q c = true := by
  rw [List.all_eq_true] at h
  have := h c.toNat (List.mem_range.mpr (hP c hc))
  rw [Char.ofNat_toNat, hc] at this
  simpa using this

theorem alnum_lt {c : Char} (h : isAsciiAlnum c = true) : c.toNat < 128 := by
  simp only [isAsciiAlnum, isAsciiAlpha, isAsciiDigit, inRange, Bool.or_eq_true, Bool.and_eq_true,
    decide_eq_true_eq] at h
  have h1 : 'z'.toNat = 122 := by decide
  have h2 : 'Z'.toNat = 90 := by decide
  have h3 : '9'.toNat = 57 := by decide
  omega

theorem alpha_alnum {c : Char} (h : isAsciiAlpha c = true) : isAsciiAlnum c = true := by
  simp [isAsciiAlnum, h]

theorem digit_alnum {c : Char} (h : isAsciiDigit c = true) : isAsciiAlnum c = true := by
  simp [isAsciiAlnum, h]

theorem alnum_word {c : Char} (h : isAsciiAlnum c = true) : isWord c = true := by
  unfold isWord
  rw [if_pos (alnum_lt h), h]; rfl

/-- first characters of identifiers -/
def isStart (c : Char) : Bool := isAsciiAlpha c || c == '_'

theorem start_lt {c : Char} (h : isStart c = true) : c.toNat < 128 := by
  simp only [isStart, Bool.or_eq_true, beq_iff_eq] at h
  rcases h with h | rfl
  · exact alnum_lt (alpha_alnum h)
  · decide

theorem start_word {c : Char} (h : isStart c = true) : isWord c = true := by
  have hlt := start_lt h
  unfold isWord
  rw [if_pos hlt]
  simp only [isStart, Bool.or_eq_true, beq_iff_eq, isAsciiAlnum] at h ⊢
  rcases h with h | h
  · exact .inl (.inl h)
  · exact .inr h

theorem IsIdentText.word {x} (h : IsIdentText x) : ∀ c ∈ x, isWord c = true := by
  obtain ⟨c, cs, rfl, hc, hcs⟩ := h
  intro d hd
  rcases List.mem_cons.mp hd with rfl | hd
  · exact start_word (by simpa [isStart] using hc)
  · exact hcs d hd

/-- the maximal run of characters of a class is unique -/
theorem run_unique {p : Char → Bool} : ∀ {x n s r : List Char} {c : Char}, x ++ s = n ++ c :: r →
    (∀ d ∈ x, p d = true) → Stops p s → (∀ d ∈ n, p d = true) → p c = false → x = n ∧ s = c :: r
  | [], [], s, r, c, h, _, _, _, _ => ⟨rfl, by simpa using h⟩
  | [], d :: n, s, r, c, h, _, hs, hn, _ => by
    have := hs d (n ++ c :: r) (by simpa using h)
    rw [hn d (by simp)] at this
    simp at this
  | d :: x, [], s, r, c, h, hx, _, _, hc => by
    simp only [List.cons_append, List.nil_append, List.cons.injEq] at h
    rw [← h.1, hx d (by simp)] at hc
    simp at hc
  | d :: x, e :: n, s, r, c, h, hx, hs, hn, hc => by
    simp only [List.cons_append, List.cons.injEq] at h
    obtain ⟨h1, h2⟩ := run_unique h.2 (fun d hd => hx d (by simp [hd])) hs
      (fun d hd => hn d (by simp [hd])) hc
    exact ⟨by rw [h.1, h1], h2⟩

theorem Stops.mono {p q : Char → Bool} {s} (h : Stops p s) (hq : ∀ c, q c = true → p c = true) :
    Stops q s := by
  intro c cs e
  have := h c cs e
  cases hc : q c with
  | false => rfl
  | true => rw [hq c hc] at this; simp at this

theorem sys_word : ∀ d ∈ "sys".toList, isAsciiAlnum d = true := by decide +kernel
theorem az_word : ∀ d ∈ "az".toList, isAsciiAlnum d = true := by decide +kernel

/-- the text of a function name inside a longer text -/
theorem function_prefix {p : Char → Bool} {x s y r : List Char} (hy : IsFunctionText y)
    (h : x ++ s = y ++ r) (hx : ∀ d ∈ x, p d = true) (hs : Stops p s)
    (hp : ∀ c, isAsciiAlnum c = true → p c = true) (hp1 : p '.' = false) (hp2 : p '(' = false) :
    s.head? = some '(' ∨ (s.head? = some '.' ∧ (x = "sys".toList ∨ x = "az".toList)) := by
  obtain ⟨q, n, rfl, hq, _, hn⟩ := hy
  rcases hq with rfl | rfl | rfl
  · obtain ⟨_, rfl⟩ := run_unique (n := n) (r := r) (c := '(') (by simpa using h) hx hs
      (fun d hd => hp d (hn d hd)) hp2
    exact .inl rfl
  · obtain ⟨rfl, rfl⟩ := run_unique (n := "sys".toList) (r := n ++ '(' :: r) (c := '.')
      (by rw [h]; simp) hx hs (fun d hd => hp d (sys_word d hd)) hp1
    exact .inr ⟨rfl, .inl rfl⟩
  · obtain ⟨rfl, rfl⟩ := run_unique (n := "az".toList) (r := n ++ '(' :: r) (c := '.')
      (by rw [h]; simp) hx hs (fun d hd => hp d (az_word d hd)) hp1
    exact .inr ⟨rfl, .inr rfl⟩

end Pycep
