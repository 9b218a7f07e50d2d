import Verif.Props.SynErr
import Verif.Spec.Stray
/-
C85: characters that can only stand in string literals and comments, and how a document begins.
-/
namespace Pycep

/-! ### The characters of tokens -/

theorem fixed_chars : ∀ d ∈ terminals, ∀ s, d.strVal = some s →
    (∀ c ∈ s.toList, isWord c = true ∨ c ∈ markChars) ∧ s.toList.head?.any (fun c => isAsciiAlnum c || markChars.contains c) := by
  have h : terminals.all (fun d => match d.strVal with
    | some s => s.toList.all (fun c => isWord c || markChars.contains c) &&
        s.toList.head?.any (fun c => isAsciiAlnum c || markChars.contains c)
    | .none => true) = true := by decide +kernel
  intro d hd s hs
  have := List.all_eq_true.mp h d hd
  rw [hs] at this
  simp only [Bool.and_eq_true, List.all_eq_true, Bool.or_eq_true, List.contains_iff_mem] at this
  exact this

theorem IsNewlines.chars {x} (h : IsNewlines x) : ∀ c ∈ x, c = '\r' ∨ c = '\n' := by
  induction h with
  | lf => simp
  | crlf => simp
  | consLf _ ih => simpa using ih
  | consCrlf _ ih => simpa using ih

theorem IsNewlines.start {x} (h : IsNewlines x) : ∃ c s, x = c :: s ∧ (c = '\r' ∨ c = '\n') := by
  cases h <;> exact ⟨_, _, rfl, by simp⟩

theorem Stray.not_alnum {c : Char} (h : Stray c) : isAsciiAlnum c ≠ true :=
  fun hc => by have := h.1; rw [alnum_word hc] at this; cases this

theorem prefix_chars {p : List Char} (h : p = [] ∨ p = "sys.".toList ∨ p = "az.".toList) {c : Char} (hc : c ∈ p) :
    ¬ Stray c := by
  rintro ⟨h1, _, h3⟩
  rcases h with rfl | rfl | rfl
  · cases hc
  · have : ∀ c ∈ "sys.".toList, isWord c = true ∨ c ∈ markChars := by decide +kernel
    rcases this c hc with h | h
    · rw [h] at h1; cases h1
    · exact h3 h
  · have : ∀ c ∈ "az.".toList, isWord c = true ∨ c ∈ markChars := by decide +kernel
    rcases this c hc with h | h
    · rw [h] at h1; cases h1
    · exact h3 h

/-- A stray character of a token is part of a string literal or of a comment. -/
theorem TokText.stray {t x} (h : TokText t x) {c : Char} (hc : c ∈ x) (hs : Stray c) :
    IsLiteral x ∨ ∃ y z, x = y ++ z ∧ IsComment y ∧ IsNewlines z := by
  unfold TokText at h
  split at h
  · exact absurd (alpha_alnum (h.2 c hc)) hs.not_alnum
  · obtain ⟨p, n, rfl, hp, _, hn⟩ := h
    simp only [List.mem_append, List.mem_singleton] at hc
    rcases hc with (hc | hc) | rfl
    · exact absurd hs (prefix_chars hp hc)
    · exact absurd (hn c hc) hs.not_alnum
    · exact absurd (by decide) hs.2.2
  · obtain ⟨b, rfl⟩ := h; exact .inl (.inl ⟨b, rfl⟩)
  · obtain ⟨b, rfl⟩ := h; exact .inl (.inr ⟨b, rfl⟩)
  · obtain ⟨d, cs, rfl, hd, hcs⟩ := h
    rcases List.mem_cons.mp hc with rfl | hc
    · rcases hd with hd | rfl
      · exact absurd (alpha_alnum hd) hs.not_alnum
      · exact absurd hs.1 (by decide)
    · have := hs.1
      rw [hcs c hc] at this; cases this
  · rcases h with h | ⟨b, n, rfl, hb, hn⟩
    · rcases h.chars c hc with rfl | rfl
      · exact absurd (by decide) hs.2.1
      · exact absurd (by decide) hs.2.1
    · exact .inr ⟨'/' :: '/' :: b, n, rfl, .inr (.inr ⟨b, rfl, fun h => hb _ h rfl⟩), hn⟩
  · obtain ⟨b, rfl, _⟩ := h; exact .inl (.inl ⟨b, rfl⟩)
  · obtain ⟨p, n, rfl, hp, _, hn⟩ := h
    rcases List.mem_append.mp hc with hc | hc
    · exact absurd hs (prefix_chars (hp.imp_right .inl) hc)
    · exact absurd (hn c hc) hs.not_alnum
  · rcases IsNewlines.chars h c hc with rfl | rfl
    · exact absurd (by decide) hs.2.1
    · exact absurd (by decide) hs.2.1
  · exact absurd (digit_alnum (h.2 c hc)) hs.not_alnum
  · rw [show x = ['*'] from h, List.mem_singleton] at hc
    subst hc
    exact absurd (by decide) hs.2.2
  · obtain ⟨d, s, h1, h2, rfl⟩ := h
    rcases (fixed_chars d (List.mem_of_getElem? h1) s h2).1 c hc with h | h
    · have := hs.1
      rw [h] at this; cases this
    · exact absurd h hs.2.2

/-- What a token begins with. -/
theorem TokText.start {t x} (h : TokText t x) : ∃ c s, x = c :: s ∧ Starter c := by
  unfold TokText at h
  split at h
  · obtain ⟨h1, h2⟩ := h
    cases x with
    | nil => exact absurd rfl h1
    | cons c s => exact ⟨c, s, rfl, .inl (alpha_alnum (h2 c (by simp)))⟩
  · obtain ⟨p, n, rfl, hp, hne, hn⟩ := h
    rcases hp with rfl | rfl | rfl
    · cases n with
      | nil => exact absurd rfl hne
      | cons c s => exact ⟨c, s ++ ['('], by simp, .inl (hn c (by simp))⟩
    · exact ⟨'s', "ys.".toList ++ (n ++ ['(']), by simp, .inl (by decide)⟩
    · exact ⟨'a', "z.".toList ++ (n ++ ['(']), by simp, .inl (by decide)⟩
  · obtain ⟨b, rfl⟩ := h; exact ⟨'\'', _, rfl, .inr (.inl (by decide))⟩
  · obtain ⟨b, rfl⟩ := h; exact ⟨'\'', _, rfl, .inr (.inl (by decide))⟩
  · obtain ⟨d, cs, rfl, hd, hcs⟩ := h
    rcases hd with hd | rfl
    · exact ⟨d, cs, rfl, .inl (alpha_alnum hd)⟩
    · exact ⟨'_', cs, rfl, .inr (.inl (by decide))⟩
  · rcases h with h | ⟨b, n, rfl, hb, hn⟩
    · obtain ⟨c, s, rfl, h | h⟩ := h.start <;> subst h
      · exact ⟨_, s, rfl, .inr (.inl (by decide))⟩
      · exact ⟨_, s, rfl, .inr (.inl (by decide))⟩
    · exact ⟨'/', _, rfl, .inr (.inr (by decide))⟩
  · obtain ⟨b, rfl, _⟩ := h; exact ⟨'\'', _, rfl, .inr (.inl (by decide))⟩
  · obtain ⟨p, n, rfl, hp, hne, hn⟩ := h
    rcases hp with rfl | rfl
    · cases n with
      | nil => exact absurd rfl hne
      | cons c s => exact ⟨c, s, by simp, .inl (hn c (by simp))⟩
    · exact ⟨'s', "ys.".toList ++ n, by simp, .inl (by decide)⟩
  · obtain ⟨c, s, rfl, h | h⟩ := IsNewlines.start h <;> subst h
    · exact ⟨_, s, rfl, .inr (.inl (by decide))⟩
    · exact ⟨_, s, rfl, .inr (.inl (by decide))⟩
  · obtain ⟨h1, h2⟩ := h
    cases x with
    | nil => exact absurd rfl h1
    | cons c s => exact ⟨c, s, rfl, .inl (digit_alnum (h2 c (by simp)))⟩
  · exact ⟨'*', [], h, .inr (.inr (by decide))⟩
  · obtain ⟨d, s, h1, h2, rfl⟩ := h
    have := (fixed_chars d (List.mem_of_getElem? h1) s h2).2
    cases hs : s.toList with
    | nil => rw [hs] at this; cases this
    | cons c r =>
      rw [hs] at this
      simp only [List.head?_cons, Option.any_some, Bool.or_eq_true, List.contains_iff_mem] at this
      rcases this with h | h
      · exact ⟨c, r, rfl, .inl h⟩
      · exact ⟨c, r, rfl, .inr (.inr h)⟩

theorem Trivia.stray {x} (h : Trivia x) {c : Char} (hc : c ∈ x) (hs : Stray c) : IsComment x := by
  cases h with
  | ws _ h =>
    rcases h c hc with rfl | rfl
    · exact absurd (by decide) hs.2.1
    · exact absurd (by decide) hs.2.1
  | @sh b h => exact .inl ⟨b, rfl, fun hn => h _ hn rfl⟩
  | c b => exact .inr (.inl ⟨b, rfl⟩)

theorem Trivia.start {x} (h : Trivia x) : ∃ c s, x = c :: s ∧ Starter c := by
  cases h with
  | ws hne h =>
    cases x with
    | nil => exact absurd rfl hne
    | cons c s =>
      rcases h c (by simp) with rfl | rfl
      · exact ⟨_, s, rfl, .inr (.inl (by decide))⟩
      · exact ⟨_, s, rfl, .inr (.inl (by decide))⟩
  | sh _ => exact ⟨'#', _, rfl, .inr (.inl (by decide))⟩
  | c b => exact ⟨'/', _, rfl, .inr (.inr (by decide))⟩

/-! ### The characters of texts -/

theorem Within.front {s x : List Char} {i : Nat} (y : List Char) (h : Within s i x) : Within (y ++ s) (y.length + i) x := by
  obtain ⟨a, b, rfl, h1, h2⟩ := h
  exact ⟨y ++ a, b, by simp, by simp; omega, by simp; omega⟩

/-- where a stray character can be in a text that is cut into the tokens `w` -/
def StrayIn (s : List Char) (w : List Tok) (i : Nat) : Prop :=
  (∃ x, Within s i x ∧ IsComment x) ∨ ∃ u ∈ w, Within s i u.text ∧ IsLiteral u.text

theorem Tiling.stray {l s w} (h : Tiling l s w) : ∀ {i c}, s[i]? = some c → Stray c → StrayIn s w i := by
  induction h with
  | nil => intro i c hi; simp at hi
  | @skip l x s w hx _ ih =>
    intro i c hi hs
    by_cases hl : i < x.length
    · rw [List.getElem?_append_left hl] at hi
      exact .inl ⟨x, ⟨[], s, rfl, by simp, by simpa using hl⟩, hx.stray (List.mem_of_getElem? hi) hs⟩
    · rw [List.getElem?_append_right (by omega)] at hi
      have e : i = x.length + (i - x.length) := by omega
      rw [e]
      rcases ih hi hs with ⟨y, h1, h2⟩ | ⟨u, hu, h1, h2⟩
      · exact .inl ⟨y, h1.front x, h2⟩
      · exact .inr ⟨u, hu, h1.front x, h2⟩
  | @tok l x s w t ht _ _ ih =>
    intro i c hi hs
    by_cases hl : i < x.length
    · rw [List.getElem?_append_left hl] at hi
      rcases ht.stray (List.mem_of_getElem? hi) hs with h | ⟨y, z, rfl, hy, hz⟩
      · exact .inr ⟨_, List.mem_cons_self, ⟨[], s, rfl, by simp, by simpa using hl⟩, h⟩
      · refine .inl ⟨y, ⟨[], z ++ s, by simp, by simp, ?_⟩, hy⟩
        simp only [List.length_nil, Nat.zero_add]
        apply Classical.byContradiction
        intro hn
        rw [List.getElem?_append_right (by omega)] at hi
        rcases hz.chars c (List.mem_of_getElem? hi) with rfl | rfl
        · exact absurd (by decide) hs.2.1
        · exact absurd (by decide) hs.2.1
    · rw [List.getElem?_append_right (by omega)] at hi
      have e : i = x.length + (i - x.length) := by omega
      rw [e]
      rcases ih hi hs with ⟨y, h1, h2⟩ | ⟨u, hu, h1, h2⟩
      · exact .inl ⟨y, h1.front x, h2⟩
      · exact .inr ⟨u, List.mem_cons_of_mem _ hu, h1.front x, h2⟩

/-- **C85.** In an accepted text, every character that is part of no word, number, mark, blank or line end
stands in a comment or in a string literal that is one of the tokens of the program. -/
theorem C85_stray {P : Parser} {text path v} (h : P.parse text path = .ok v) :
    ∃ t p w, chosenText text path = .ok t ∧ Spells t p ∧ ExactTiling 1 t.toList w ∧ ProgSyn p w tEND ∧
      ∀ {i c}, t.toList[i]? = some c → Stray c → StrayIn t.toList w i := by
  obtain ⟨t, p, h1, h2, _⟩ := parse_ok h
  obtain ⟨⟨w, hw, hs⟩, _⟩ := id h2
  exact ⟨t, p, w, h1, h2, hw, hs, fun hi hc => hw.tiling.stray hi hc⟩

theorem not_strayIn {s : List Char} {w : List Tok} {i : Nat} (h : StrayIn s w i) :
    '\'' ∈ s ∨ '#' ∈ s ∨ (∃ a b, s = a ++ '/' :: '/' :: b) ∨ ∃ a b, s = a ++ '/' :: '*' :: b := by
  rcases h with ⟨x, ⟨a, b, rfl, -, -⟩, h⟩ | ⟨u, _, ⟨a, b, rfl, -, -⟩, h⟩
  · rcases h with ⟨y, rfl, -⟩ | ⟨y, rfl⟩ | ⟨y, rfl, -⟩
    · exact .inr (.inl (by simp))
    · exact .inr (.inr (.inr ⟨a, y ++ ['*', '/'] ++ b, by simp⟩))
    · exact .inr (.inr (.inl ⟨a, y ++ b, by simp⟩))
  · rcases h with ⟨y, e⟩ | ⟨y, e⟩ <;> exact .inl (by simp [e])

theorem occ_no_quote : {s : List Char} → '\'' ∉ s → Occ s 0
  | [], _ => .nil
  | c :: s, h => by
    simp only [List.mem_cons, not_or] at h
    exact .miss (fun y e => h.1 (List.cons.inj e).1.symm) (occ_no_quote h.2)

/-- A balanced text that the parser does not accept is a syntax error. -/
theorem rejected {P : Parser} {text path t} (ht : chosenText text path = .ok t) (hv : isValid t = true)
    (h : ∀ tr, larkParse t ≠ .ok tr) :
    P.parse text path = .error .unexpectedInput ∧ P.createTree text path = .error .unexpectedInput ∧
      ∃ e, larkRun t = .err e ∧ WrongAt t.toList e := by
  rcases C63_outcome t with ⟨tr, h1, _⟩ | ⟨e, h1, h2⟩
  · exact absurd h1 (h tr)
  · have hc : createTree' text path = .error .unexpectedInput := by
      rw [createTree'_eq]
      simp only [ht, Except.bind, hv, if_true, h1]
    exact ⟨parse_error_of_tree hc, createTree_error.mpr hc, e, h2, (larkRun_spec t).2.2 e h2⟩

/-- **C85, texts without strings and comments.** If nothing in a text begins a string literal or a comment,
then with a stray character the text is rejected as a syntax error, and the place of the error is not
behind that character. -/
theorem C85_rejected (P : Parser) {text path t i c} (ht : chosenText text path = .ok t)
    (hi : t.toList[i]? = some c) (hc : Stray c) (h1 : '\'' ∉ t.toList) (h2 : '#' ∉ t.toList)
    (h3 : ∀ a b, t.toList ≠ a ++ '/' :: '/' :: b) (h4 : ∀ a b, t.toList ≠ a ++ '/' :: '*' :: b) :
    P.parse text path = .error .unexpectedInput ∧ P.createTree text path = .error .unexpectedInput ∧
      ∃ e, larkRun t = .err e ∧ e.pos ≤ i := by
  have no : ∀ {w}, ¬ StrayIn t.toList w i := fun h => by
    rcases not_strayIn h with h | h | ⟨a, b, h⟩ | ⟨a, b, h⟩
    · exact h1 h
    · exact h2 h
    · exact h3 _ _ h
    · exact h4 _ _ h
  obtain ⟨g1, g2, e, he, hw⟩ := rejected (P := P) ht (by rw [isValid_iff (occ_no_quote h1)]; rfl) fun tr htr => by
    obtain ⟨p, ⟨⟨w, hw, _⟩, _⟩, _⟩ := larkParse_program htr
    replace hw := hw.tiling
    exact no (hw.stray hi hc)
  refine ⟨g1, g2, e, he, ?_⟩
  cases hw with
  | here pre rest w hs hp _ _ _ _ hb =>
    rw [hb.1]
    apply Classical.byContradiction
    intro hn
    have hi' : pre[i]? = some c := by
      rw [hs, List.getElem?_append_left (by omega)] at hi
      exact hi
    have := hp.stray hi' hc
    refine no (w := w) ?_
    rw [hs]
    rcases this with ⟨x, ⟨a, b, rfl, k1, k2⟩, h⟩ | ⟨u, hu, ⟨a, b, e', k1, k2⟩, h⟩
    · exact .inl ⟨x, ⟨a, b ++ rest, by simp, k1, k2⟩, h⟩
    · exact .inr ⟨u, hu, ⟨a, b ++ rest, by simp [e'], k1, k2⟩, h⟩
  | incomplete pre u rest w hs _ ht' => exact absurd (ht'.stray hi hc) no

/-! ### How a document begins -/

theorem Tiling.start {l s w} (h : Tiling l s w) {c r} (e : s = c :: r) : Starter c := by
  cases h with
  | nil => cases e
  | skip hx _ =>
    obtain ⟨d, y, rfl, hd⟩ := hx.start
    cases e
    exact hd
  | tok ht _ _ =>
    obtain ⟨d, y, rfl, hd⟩ := ht.start
    cases e
    exact hd

/-- **C85, the first character.** A text with an even number of triple quotes whose first character begins
nothing is rejected there: the exception is `UnexpectedCharacters` at line 1, column 1. -/
theorem C85_first (P : Parser) {text path t c s n} (ht : chosenText text path = .ok t) (hs : t.toList = c :: s)
    (hc : ¬ Starter c) (hn : Occ s n) (he : n % 2 = 0) :
    P.parse text path = .error .unexpectedInput ∧ P.createTree text path = .error .unexpectedInput ∧
      larkRun t = .err ⟨.none, 0, 1, 1⟩ := by
  have hq : c ≠ '\'' := fun e => hc (e ▸ .inr (.inl (by decide)))
  have ho : Occ t.toList n := hs ▸ .miss (fun y e => hq (List.cons.inj e).1) hn
  obtain ⟨g1, g2, e, hr, hw⟩ := rejected (P := P) ht (by rw [isValid_iff ho, he]; rfl) fun tr htr => by
    obtain ⟨p, ⟨⟨w, hw, _⟩, _⟩, _⟩ := larkParse_program htr
    replace hw := hw.tiling
    exact hc (hw.start hs)
  refine ⟨g1, g2, ?_⟩
  rw [hr]
  cases hw with
  | here pre rest w hs' hp _ _ _ _ hb htok _ =>
    have hpre : pre = [] := by
      cases pre with
      | nil => rfl
      | cons d q =>
        rw [hs] at hs'
        cases hs'
        exact absurd (hp.start rfl) hc
    subst hpre
    obtain ⟨b1, b2, b3⟩ := hb
    obtain ⟨k, p, l, m⟩ := e
    simp only [List.length_nil] at b1
    simp only [lineAt, List.count_nil] at b2
    simp only [colAt, List.reverse_nil, List.takeWhile_nil, List.length_nil] at b3
    cases k with
    | none => simp_all
    | some tx =>
      obtain ⟨_, h2, y, h3⟩ := htok tx.1 tx.2 rfl
      obtain ⟨d, z, e1, hd⟩ := h2.start
      rw [e1] at h3
      rw [hs, ← h3] at hs'
      cases hs'
      exact absurd hd hc
  | incomplete pre u rest w hs' _ ht' => exact absurd (ht'.start hs) hc

/-- **C85, byte order marks.** A file that starts with a byte order mark is rejected, whatever follows: by the
check of balance if the number of triple quotes is odd, and at the byte order mark otherwise. -/
theorem C85_bom (P : Parser) (name s : String) {n} (hn : Occ s.toList n) :
    (n % 2 = 1 → P.parse .none (some ⟨name, .ok ("\uFEFF" ++ s)⟩) =
      .error (.valueError (name ++ " file content is invalid"))) ∧
    (n % 2 = 0 → P.parse .none (some ⟨name, .ok ("\uFEFF" ++ s)⟩) = .error .unexpectedInput ∧
      larkRun ("\uFEFF" ++ s) = .err ⟨.none, 0, 1, 1⟩) := by
  have e : ("\uFEFF" ++ s).toList = '\uFEFF' :: s.toList := by simp
  have ht : chosenText .none (some ⟨name, .ok ("\uFEFF" ++ s)⟩) = .ok ("\uFEFF" ++ s) := rfl
  have hc : ¬ Starter '\uFEFF' := by
    rintro (h | h | h)
    · exact absurd h (by decide)
    · exact absurd h (by decide)
    · exact absurd h (by decide)
  constructor
  · intro h
    exact ((C02_triple_quotes P _ _ _ n ht (e ▸ .miss (fun y e => absurd (List.cons.inj e).1 (by decide)) hn)).1 h).1
  · intro h
    obtain ⟨h1, _, h2⟩ := C85_first P ht e hc hn h
    exact ⟨h1, h2⟩

theorem DecoSyn.opens {d w} (h : DecoSyn d w) : ∃ u w', w = u :: w' ∧ Kw "@" u := by
  cases h with
  | noArg h => exact ⟨_, _, rfl, h⟩
  | arg h => exact ⟨_, _, rfl, h⟩

theorem DecosSyn.opens {ds w} (h : DecosSyn ds w) : w = [] ∨ ∃ u w', w = u :: w' ∧ Kw "@" u := by
  induction h with
  | nil => exact .inl rfl
  | snoc _ h2 ih =>
    rcases ih with rfl | ⟨u, w', rfl, hu⟩
    · exact .inr h2.opens
    · exact .inr ⟨u, _, rfl, hu⟩

theorem decl_start {ds w0 w k} {u : Tok} (h : DecosSyn ds w0) (hk : k ∈ declStarts) (hu : Kw k u) :
    ∃ v w', w0 ++ u :: w = v :: w' ∧ ∃ k ∈ declStarts, Kw k v := by
  rcases h.opens with rfl | ⟨v, w', rfl, hv⟩
  · exact ⟨u, w, rfl, k, hk, hu⟩
  · exact ⟨v, _, rfl, "@", by decide, hv⟩

theorem DeclSyn.opens {d w n} (h : DeclSyn d w n) : ∃ u w', w = u :: w' ∧ ∃ k ∈ declStarts, Kw k u := by
  cases h with
  | scope h => exact ⟨_, _, rfl, _, by decide, h⟩
  | importNs h => exact ⟨_, _, rfl, _, by decide, h⟩
  | importOne h => exact ⟨_, _, rfl, _, by decide, h⟩
  | importList h => exact ⟨_, _, rfl, _, by decide, h⟩
  | extension h => exact ⟨_, _, rfl, _, by decide, h⟩
  | metadata h => exact ⟨_, _, rfl, _, by decide, h⟩
  | param h0 h => exact decl_start h0 (by decide) h
  | var h0 h => exact decl_start h0 (by decide) h
  | output h0 h => exact decl_start h0 (by decide) h
  | resource h0 h => exact decl_start h0 (by decide) h
  | module h0 h => exact decl_start h0 (by decide) h
  | typ h0 h => exact decl_start h0 (by decide) h
  | func h0 h => exact decl_start h0 (by decide) h

theorem ProgSyn.opens {p w n} (h : ProgSyn p w n) : (p = [] ∧ Breaks w) ∨
    (p ≠ [] ∧ ∃ w1 u w2, w = w1 ++ u :: w2 ∧ Breaks w1 ∧ ∃ k ∈ declStarts, Kw k u) := by
  induction h with
  | nil => exact .inl ⟨rfl, by simp [Breaks]⟩
  | @decl p l d w1 w2 n _ h2 _ ih =>
    refine .inr ⟨by simp, ?_⟩
    rcases ih with ⟨_, hb⟩ | ⟨_, v1, u, v2, rfl, hb, hk⟩
    · obtain ⟨u, w', rfl, hk⟩ := h2.opens
      exact ⟨w1, u, w', rfl, hb, hk⟩
    · exact ⟨v1, u, v2 ++ w2, by simp, hb, hk⟩
  | @nl p w u n _ hu ih =>
    rcases ih with ⟨rfl, hb⟩ | ⟨hp, v1, v, v2, rfl, hb, hk⟩
    · refine .inl ⟨rfl, fun x hx => ?_⟩
      rcases List.mem_append.mp hx with hx | hx
      · exact hb x hx
      · rw [List.mem_singleton.mp hx]; exact hu
    · exact .inr ⟨hp, v1, v, v2 ++ [u], by simp, hb, hk⟩

theorem break_text {t x} (h : TokText t x) (ht : t = T._CPP_COMMENT_NL) : IsCommentNewlines x := by
  subst ht
  exact h

theorem Tiling.blank {l s w} (h : Tiling l s w) : Breaks w → Blank s := by
  induction h with
  | nil => exact fun _ => .nil
  | skip hx _ ih => exact fun hb => .gap hx (ih hb)
  | tok ht _ _ ih =>
    intro hb
    exact .line (break_text ht (hb _ List.mem_cons_self)) (ih fun u hu => hb u (List.mem_cons_of_mem _ hu))

theorem Tiling.blank_until {l s w} (h : Tiling l s w) : ∀ {w1 u w2}, w = w1 ++ u :: w2 → Breaks w1 →
    ∃ a r, s = a ++ r ∧ Blank a ∧ u.text <+: r := by
  induction h with
  | nil => intro w1 u w2 e; simp at e
  | @skip l x s w hx _ ih =>
    intro w1 u w2 e hb
    obtain ⟨a, r, rfl, ha, hr⟩ := ih e hb
    exact ⟨x ++ a, r, by simp, .gap hx ha, hr⟩
  | @tok l x s w t ht _ _ ih =>
    intro w1 u w2 e hb
    cases w1 with
    | nil =>
      cases e
      exact ⟨[], x ++ s, rfl, .nil, s, rfl⟩
    | cons v w1 =>
      cases e
      obtain ⟨a, r, rfl, ha, hr⟩ := ih rfl fun u hu => hb u (List.mem_cons_of_mem _ hu)
      exact ⟨x ++ a, r, by simp, .line (break_text ht (hb _ List.mem_cons_self)) ha, hr⟩

/-- **C85, how documents begin.** An accepted text is nothing but blanks, comments and line ends, and the
program is empty; or behind such a beginning there is `@` or the keyword of a declaration. -/
theorem C85_begins {P : Parser} {text path v} (h : P.parse text path = .ok v) :
    ∃ t p, chosenText text path = .ok t ∧ Spells t p ∧
      ((p = [] ∧ Blank t.toList) ∨
       (p ≠ [] ∧ ∃ a r k, t.toList = a ++ r ∧ Blank a ∧ k ∈ declStarts ∧ k.toList <+: r)) := by
  obtain ⟨t, p, h1, h2, _⟩ := parse_ok h
  obtain ⟨⟨w, hw, hs⟩, _⟩ := id h2
  replace hw := hw.tiling
  refine ⟨t, p, h1, h2, ?_⟩
  rcases hs.opens with ⟨hp, hb⟩ | ⟨hp, w1, u, w2, hw', hb, k, hk, hu⟩
  · exact .inl ⟨hp, hw.blank hb⟩
  · obtain ⟨a, r, e, ha, hr⟩ := hw.blank_until hw' hb
    rw [hu.2] at hr
    exact .inr ⟨hp, a, r, k, e, ha, hk, hr⟩

/-! ### Examples -/

/-- A document with stray characters in a string and in comments is accepted, ... -/
example : ∃ v, Parser.parse ⟨false⟩ (some "var x = '$;\"' # ^\nvar y = x /* ` */ // \\\n") .none = .ok v :=
  ⟨_, eq_of_outIs (v := .dict [("globals", .dict [("scope", .dict [("value", .str "resourceGroup")])]),
      ("variables", .dict [("x", .dict [("decorators", .list []), ("value", .str "$;\"")]),
        ("y", .dict [("decorators", .list []), ("value", .elem "x")])])]) (by decide +kernel)⟩

/-- ... and `;` outside of both is not, at its place. -/
example : chosenText (some "var x = 1;\n") .none = .ok "var x = 1;\n" ∧ Stray ';' ∧
    "var x = 1;\n".toList[9]? = some ';' ∧ '\'' ∉ "var x = 1;\n".toList ∧ '#' ∉ "var x = 1;\n".toList ∧
    larkRun "var x = 1;\n" = .err ⟨.none, 9, 1, 10⟩ :=
  ⟨rfl, by unfold Stray; decide, rfl, by decide, by decide, eq_of_runErrIs (by decide +kernel)⟩

/-- The hypotheses of `C85_rejected` are met by this text. -/
example : Parser.parse ⟨true⟩ (some "var x = 1;\n") .none = .error .unexpectedInput :=
  (C85_rejected ⟨true⟩ (t := "var x = 1;\n") (i := 9) (c := ';') rfl rfl (by unfold Stray; decide) (by decide) (by decide)
    (fun a b e => absurd (e ▸ by simp : '/' ∈ "var x = 1;\n".toList) (by decide))
    (fun a b e => absurd (e ▸ by simp : '/' ∈ "var x = 1;\n".toList) (by decide))).1

/-- The error may be in front of the stray character. -/
example : larkRun "var = 1;\n" = .err ⟨some (T.EQUAL, ['=']), 4, 1, 5⟩ :=
  eq_of_runErrIs (by decide +kernel)

/-- Without the byte order mark the file is accepted. -/
example : Occ "var x = 1\n".toList 0 ∧ (∃ v, Parser.parse ⟨false⟩ .none (some ⟨"a.bicep", .ok "var x = 1\n"⟩) = .ok v) ∧
    Parser.parse ⟨false⟩ .none (some ⟨"a.bicep", .ok ("\uFEFF" ++ "var x = 1\n")⟩) = .error .unexpectedInput := by
  have ho : Occ "var x = 1\n".toList 0 := occ_no_quote (by decide)
  exact ⟨ho, ⟨_, eq_of_outIs (v := .dict [("globals", .dict [("scope", .dict [("value", .str "resourceGroup")])]),
      ("variables", .dict [("x", .dict [("decorators", .list []), ("value", .int 1)])])]) (by decide +kernel)⟩,
    ((C85_bom _ _ _ ho).2 rfl).1⟩

end Pycep
