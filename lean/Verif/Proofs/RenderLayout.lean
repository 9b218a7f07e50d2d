import Verif.Spec.Render
import Verif.Props.ApiProps
import Verif.Props.Complete
/-
The canonical text of tokens has a clear layout, and contains an even number of `'''`.
-/
namespace Pycep

/-! ### Texts without `'''` -/

theorem infix_split {α : Type} {p a b : List α} {c : α} (hc : c ∉ p) (h : p <:+: a ++ c :: b) :
    p <:+: a ∨ p <:+: b := by
  obtain ⟨s, t, h⟩ := h
  rw [List.append_assoc, List.append_eq_append_iff] at h
  rcases h with ⟨u, rfl, h⟩ | ⟨u, rfl, h⟩
  · rw [List.append_eq_append_iff] at h
    rcases h with ⟨v, h1, h2⟩ | ⟨v, h1, h2⟩
    · exact .inl ⟨s, v, by rw [h1, List.append_assoc]⟩
    · cases v with
      | nil => exact .inl ⟨s, [], by simp at h1; simp [h1]⟩
      | cons d v =>
        simp only [List.cons_append, List.cons.injEq] at h2
        obtain ⟨rfl, h2⟩ := h2
        exact (hc (by rw [h1]; simp)).elim
  · cases u with
    | nil =>
      cases p with
      | nil => exact .inr List.nil_infix
      | cons d p =>
        simp only [List.nil_append, List.cons_append, List.cons.injEq] at h
        exact (hc (by rw [h.1]; simp)).elim
    | cons d u =>
      simp only [List.cons_append, List.cons.injEq] at h
      exact .inr ⟨u, t, by rw [h.2]; simp⟩

theorem NoQuotes3.blank {a b : List Char} (ha : NoQuotes3 a) (hb : NoQuotes3 b) :
    NoQuotes3 (a ++ ' ' :: b) :=
  fun h => (infix_split (by decide) h).elim ha hb

theorem NoQuotes3.prepend {a b : List Char} (ha : '\'' ∉ a) (hb : NoQuotes3 b) : NoQuotes3 (a ++ b) := by
  induction a with
  | nil => exact hb
  | cons c a ih =>
    intro h
    have h' : ['\'', '\'', '\''] <:+: [] ++ c :: (a ++ b) := h
    rw [List.nil_append] at h'
    rcases List.infix_cons_iff.mp h' with h1 | h1
    · obtain ⟨t, h1⟩ := h1
      simp only [List.cons_append, List.cons.injEq] at h1
      exact ha (by rw [← h1.1]; simp)
    · exact ih (fun hm => ha (List.mem_cons_of_mem _ hm)) h1

theorem NoQuotes3.tail {c : Char} {a : List Char} (h : NoQuotes3 (c :: a)) : NoQuotes3 a :=
  fun h' => h (List.infix_cons h')

/-! ### Tokens of the canonical text -/

/-- The name is not reserved behind a token of type `p`. -/
def Ident.Free (p : Nat) (x : Ident) : Prop := ∀ k ∈ keywordIds, x.1 = fixedChars k → reserved p k = false

/-- The lexeme can stand behind a token of type `p` in the canonical text. -/
inductive Clean (p : Nat) : Lexeme → Prop where
  | ident {x : Ident} : x.Free p → Clean p (idTok x)
  | keyword {k} : k ∈ keywordIds → Clean p (kw k)
  | op1 {t} : t ∈ opIds1 → Clean p (kw t)
  | op2 {t} : t ∈ opIds2 → Clean p (kw t)
  | star : Clean p (T.__ANON_1, ['*'])
  | function {f : FunName} : p ≠ T.DOT → Clean p (T.FUNCTION, f.1 ++ ['('])
  | method {f : ListName} : ListName.ok f → Clean p (T.LIST_FUNC_NAME, f.1)
  | int {d : Digits} : Clean p (T.INT, d.1)
  | deco {d : DecoName} : Clean p (T.__ANON_2, d.1)
  | newline : Clean p nl
  | quoted {b x} : StrOK b x → (b = true → p ∈ nestAfter) → Clean p (strTok x)
  | multi {x} : NoQuotes3 (x ++ ['\'', '\'']) → Clean p (T.MULTI_LINE_STRING, quote3 x)

/-- The lexemes can be written one after the other behind a token of type `p`, and do not end with
a dot. -/
def Good : Nat → List Lexeme → Prop
  | p, [] => p ≠ T.DOT
  | p, u :: w => Clean p u ∧ (u.1 = T.LIST_FUNC_NAME → w.head? = some (kw T.LPAR)) ∧ Good u.1 w

/-- the tokens at their places in the canonical text -/
def place : Nat → List Lexeme → List Tok
  | _, [] => []
  | l, (t, x) :: w => ⟨t, x, l + countNL (lead t), l + countNL (lead t) + countNL x⟩ ::
      place (l + countNL (lead t) + countNL x) w

theorem isAsciiAlpha_ne {c : Char} (h : isAsciiAlpha c = true) : c ≠ '\'' ∧ c ≠ '\n' := by
  constructor <;> (rintro rfl; exact absurd h (by decide))
theorem isAsciiAlnum_ne {c : Char} (h : isAsciiAlnum c = true) : c ≠ '\'' ∧ c ≠ '\n' := by
  constructor <;> (rintro rfl; exact absurd h (by decide))
theorem isAsciiDigit_ne {c : Char} (h : isAsciiDigit c = true) : c ≠ '\'' ∧ c ≠ '\n' := by
  constructor <;> (rintro rfl; exact absurd h (by decide))
theorem isWord_ne {c : Char} (h : isWord c = true) : c ≠ '\'' ∧ c ≠ '\n' := by
  constructor <;> (rintro rfl; exact absurd h (by decide))

/-- neither quotes nor line ends -/
def Mild (x : List Char) : Prop := ∀ c ∈ x, c ≠ '\'' ∧ c ≠ '\n'

theorem mild_ident {x : List Char} (h : IsIdentText x) : Mild x := by
  obtain ⟨c, cs, rfl, hc, hcs⟩ := h
  intro d hd
  rcases List.mem_cons.mp hd with rfl | hd
  · rcases hc with hc | rfl
    · exact isAsciiAlpha_ne hc
    · decide
  · exact isWord_ne (hcs d hd)

theorem mild_append {x y : List Char} (hx : Mild x) (hy : Mild y) : Mild (x ++ y) := by
  intro c hc
  rcases List.mem_append.mp hc with hc | hc
  · exact hx c hc
  · exact hy c hc

theorem mild_sys : ∀ p : List Char, p = [] ∨ p = "sys.".toList ∨ p = "az.".toList → Mild p := by
  rintro p (rfl | rfl | rfl)
  · intro c hc; cases hc
  · unfold Mild; decide +kernel
  · unfold Mild; decide +kernel

theorem mild_function {x : List Char} (h : IsFunctionText x) : Mild x := by
  obtain ⟨p, n, rfl, hp, _, hn⟩ := h
  exact mild_append (mild_append (mild_sys p hp) fun c hc => isAsciiAlnum_ne (hn c hc))
    (by intro c hc; simp only [List.mem_singleton] at hc; subst hc; decide)

theorem mild_deco {x : List Char} (h : IsDecoratorText x) : Mild x := by
  obtain ⟨p, n, rfl, hp, _, hn⟩ := h
  exact mild_append (mild_sys p (by tauto)) fun c hc => isAsciiAlnum_ne (hn c hc)

theorem fixed_mild : ∀ t ∈ keywordIds ++ (opIds1 ++ opIds2), Mild (fixedChars t) ∧ t < tEND ∧
    t ≠ T.MULTI_LINE_STRING ∧ t ≠ T.LIST_FUNC_NAME ∧ t ≠ T.QUOTED_INTERPOLATION := by
  unfold Mild; decide +kernel

/-- the three kinds of tokens in the canonical text -/
theorem Clean.kinds {p u} (h : Clean p u) :
    (Mild u.2 ∧ u.1 ≠ T.MULTI_LINE_STRING) ∨ u = nl ∨
    (∃ b x, u = strTok x ∧ StrOK b x ∧ (b = true → p ∈ nestAfter)) ∨
    (∃ x, u = (T.MULTI_LINE_STRING, quote3 x) ∧ NoQuotes3 (x ++ ['\'', '\''])) := by
  cases h with
  | @ident x hx => exact .inl ⟨mild_ident x.2, show T.STRING ≠ _ by decide⟩
  | @keyword k h =>
    have := fixed_mild k (by simp [h]); exact .inl ⟨this.1, this.2.2.1⟩
  | @op1 k h => have := fixed_mild k (by simp [h]); exact .inl ⟨this.1, this.2.2.1⟩
  | @op2 k h => have := fixed_mild k (by simp [h]); exact .inl ⟨this.1, this.2.2.1⟩
  | star => exact .inl ⟨by unfold Mild; decide, by decide⟩
  | @function f => exact .inl ⟨mild_function f.2, show T.FUNCTION ≠ _ by decide⟩
  | @method f => exact .inl ⟨fun c hc => isAsciiAlpha_ne (f.2.2 c hc), show T.LIST_FUNC_NAME ≠ _ by decide⟩
  | @int d => exact .inl ⟨fun c hc => isAsciiDigit_ne (d.2.2 c hc), show T.INT ≠ _ by decide⟩
  | @deco d => exact .inl ⟨mild_deco d.2, show T.__ANON_2 ≠ _ by decide⟩
  | newline => exact .inr (.inl rfl)
  | quoted h1 h2 => exact .inr (.inr (.inl ⟨_, _, rfl, h1, h2⟩))
  | multi h => exact .inr (.inr (.inr ⟨_, rfl, h⟩))

/-! ### No `'''` in the rest of a line -/

mutual
theorem qbody_line : ∀ {b x}, QBody b x → ∀ c ∈ x, c ≠ '\n'
  | _, _, .nil => by simp
  | _, _, .chr _ _ _ h hx => by
    intro c hc
    rcases List.mem_cons.mp hc with rfl | hc
    · exact h
    · exact qbody_line hx c hc
  | _, _, .dollar _ hx => by
    intro c hc
    rcases List.mem_cons.mp hc with rfl | hc
    · decide
    · exact qbody_line hx c hc
  | _, _, .back _ hx => by
    intro c hc
    rcases List.mem_cons.mp hc with rfl | hc
    · decide
    · exact qbody_line hx c hc
  | _, _, .esc hx => by
    intro c hc
    rcases List.mem_cons.mp hc with rfl | hc
    · decide
    · rcases List.mem_cons.mp hc with rfl | hc
      · decide
      · exact qbody_line hx c hc
  | _, _, .hole hh hx => by
    intro c hc
    simp only [List.mem_cons, List.cons_append, List.mem_append] at hc
    rcases hc with rfl | rfl | hc | rfl | hc
    · decide
    · decide
    · exact qhole_line hh c hc
    · decide
    · exact qbody_line hx c hc
theorem qhole_line : ∀ {b x}, QHole b x → ∀ c ∈ x, c ≠ '\n'
  | _, _, .nil => by simp
  | _, _, .chr _ _ _ h hx => by
    intro c hc
    rcases List.mem_cons.mp hc with rfl | hc
    · exact h
    · exact qhole_line hx c hc
  | _, _, .str hx hh => by
    intro c hc
    simp only [List.mem_cons, List.cons_append, List.mem_append] at hc
    rcases hc with rfl | hc | rfl | hc
    · decide
    · exact qbody_line hx c hc
    · decide
    · exact qhole_line hh c hc
end

theorem quote_line {b x} (h : StrOK b x) : ∀ c ∈ quote x, c ≠ '\n' := by
  intro c hc
  simp only [quote, List.mem_cons, List.cons_append, List.mem_append, List.not_mem_nil, or_false] at hc
  rcases hc with rfl | hc | rfl
  · decide
  · exact qbody_line h.1 c hc
  · decide

theorem takeWhile_line {a b : List Char} (h : ∀ c ∈ a, c ≠ '\n') :
    (a ++ b).takeWhile (· != '\n') = a ++ b.takeWhile (· != '\n') := by
  induction a with
  | nil => rfl
  | cons c a ih =>
    simp only [List.cons_append]
    rw [List.takeWhile_cons_of_pos (by simpa using h c (by simp)), ih (fun d hd => h d (by simp [hd]))]

theorem noTriple_spaced : ∀ {p w}, Good p w → NoTriple (spaced w)
  | _, [], _ => by
    intro h
    exact absurd (List.IsInfix.length_le h) (by simp [spaced])
  | _, (t, x) :: w, ⟨hc, _, hg⟩ => by
    have ih := noTriple_spaced hg
    show NoQuotes3 _
    have ih : NoQuotes3 ((spaced w).takeWhile (· != '\n')) := ih
    simp only [spaced]
    rcases hc.kinds with ⟨h1, h2⟩ | h | ⟨b, y, h, hy, _⟩ | ⟨y, h, hy⟩
    · simp only at h1 h2
      rw [lead, if_neg h2, List.nil_append]
      have hm : Mild (x ++ sep t) := mild_append h1 (by
        unfold sep; split
        · intro c hc; cases hc
        · intro c hc; simp only [List.mem_singleton] at hc; subst hc; decide)
      rw [← List.append_assoc, takeWhile_line (fun c hc => (hm c hc).2)]
      exact NoQuotes3.prepend (fun h => (hm _ h).1 rfl) ih
    · cases h
      intro h
      exact absurd (List.IsInfix.length_le h) (by simp [lead])
    · cases h
      rw [show lead T.QUOTED_INTERPOLATION = [] from rfl, List.nil_append, takeWhile_line (quote_line hy)]
      exact NoQuotes3.blank hy.2 ih
    · cases h
      rw [show lead T.MULTI_LINE_STRING = ['/', '*', '\n', '*', '/'] by decide +kernel]
      intro h
      exact absurd (List.IsInfix.length_le h) (by simp)

/-! ### Layout -/

theorem stops_blank (q : Char → Bool) (h : q ' ' = false) (s : List Char) : Stops q (' ' :: s) := by
  intro c cs hc; cases hc; exact h

theorem not_listCall_blank {x s : List Char} (hw : ∀ c ∈ x, c ≠ '(') : ¬ ListCall (x ++ ' ' :: s) := by
  have key : ∀ y : List Char, (∀ c ∈ y, c ≠ ' ') → ∀ r, x ++ ' ' :: s = y ++ '(' :: r → False := by
    intro y hy r h
    rw [List.append_eq_append_iff] at h
    rcases h with ⟨u, h1, h2⟩ | ⟨u, h1, h2⟩
    · cases u with
      | nil => simp at h2
      | cons d u =>
        simp only [List.cons_append, List.cons.injEq] at h2
        exact hy ' ' (by rw [h1, ← h2.1]; simp) rfl
    · cases u with
      | nil => simp at h2
      | cons d u =>
        simp only [List.cons_append, List.cons.injEq] at h2
        exact hw '(' (by rw [h1, ← h2.1]; simp) rfl
  rintro (⟨r, h⟩ | ⟨c, n, r, h, hc, hn⟩)
  · refine key "getSecret".toList (by decide +kernel) r ?_
    rw [← h]
    have : "getSecret(".toList = "getSecret".toList ++ ['('] := by decide +kernel
    rw [this, List.append_assoc]; rfl
  · refine key (c :: 'i' :: 's' :: 't' :: n) ?_ r (by rw [h])
    intro d hd
    simp only [List.mem_cons] at hd
    rcases hd with rfl | rfl | rfl | rfl | hd
    · rcases hc with rfl | rfl <;> decide
    · decide
    · decide
    · decide
    · rintro rfl; exact absurd (hn ' ' hd) (by decide)

theorem word_ne_paren {x : List Char} (h : IsIdentText x) : ∀ c ∈ x, c ≠ '(' := by
  obtain ⟨c, cs, rfl, hc, hcs⟩ := h
  intro d hd
  rcases List.mem_cons.mp hd with rfl | hd
  · rcases hc with hc | rfl
    · rintro rfl; exact absurd hc (by decide)
    · decide
  · rintro rfl; exact absurd (hcs _ hd) (by decide)

theorem op1_pairs : ∀ t ∈ opIds1, ∀ y ∈ pairs, (fixedChars t).length = 1 ∧ y.length = 2 ∧
    y.getLast? ≠ some ' ' := by
  decide +kernel

theorem not_pair {t : Nat} (ht : t ∈ opIds1) {s : List Char} : ∀ y ∈ pairs, ¬ y <+: fixedChars t ++ ' ' :: s := by
  intro y hy h
  obtain ⟨h1, h2, h3⟩ := op1_pairs t ht y hy
  obtain ⟨a, ha⟩ := List.length_eq_one_iff.mp h1
  obtain ⟨b, c, rfl⟩ := List.length_eq_two.mp h2
  rw [ha] at h
  obtain ⟨r, h⟩ := h
  simp only [List.cons_append, List.nil_append, List.cons.injEq] at h
  exact h3 (by simp [h.2.1])

theorem alpha_range {c : Char} (h : isAsciiAlpha c = true) : inRange 'A' 'z' c = true := by
  simp only [isAsciiAlpha, inRange, Bool.or_eq_true, Bool.and_eq_true, decide_eq_true_eq] at h ⊢
  simp only [show 'a'.toNat = 97 from rfl, show 'z'.toNat = 122 from rfl, show 'A'.toNat = 65 from rfl,
    show 'Z'.toNat = 90 from rfl] at h ⊢
  omega

theorem sep_blank {t : Nat} (h : t ≠ T.LIST_FUNC_NAME) (s : List Char) : sep t ++ s = ' ' :: s := by
  rw [sep, if_neg h]; rfl

theorem lpar_chars : fixedChars T.LPAR = ['('] := by decide +kernel

theorem Clean.fits {p t x w} (h : Clean p (t, x)) (hg : Good t w)
    (hm : t = T.LIST_FUNC_NAME → w.head? = some (kw T.LPAR)) : Fits p t x (sep t ++ spaced w) := by
  generalize hu : (t, x) = u at h
  cases h with
  | @ident y hy =>
    cases hu
    rw [sep_blank (by decide)]
    exact .ident y.2 (stops_blank _ (by decide) _) (by simp) (fun _ => by simp)
      hy (fun _ => not_listCall_blank (word_ne_paren y.2))
  | @keyword k hk =>
    cases hu
    rw [sep_blank (fixed_mild t (by simp [hk])).2.2.2.1]
    exact .keyword hk (stops_blank _ (by decide) _) (by simp)
  | @op1 k hk =>
    cases hu
    rw [sep_blank (fixed_mild t (by simp [hk])).2.2.2.1]
    exact .op1 hk (not_pair hk)
  | @op2 k hk => cases hu; exact .op2 hk
  | star => cases hu; exact .importAll
  | @function f hp => cases hu; exact .function f.2 (fun h => (hp h).elim)
  | @method f hf =>
    cases hu
    obtain ⟨u, w', rfl⟩ : ∃ u w', w = u :: w' := by
      cases w with
      | nil => simp at hm
      | cons u w' => exact ⟨_, _, rfl⟩
    have : u = kw T.LPAR := by simpa using hm rfl
    subst this
    have e : sep T.LIST_FUNC_NAME ++ spaced (kw T.LPAR :: w') = '(' :: (sep T.LPAR ++ spaced w') := by
      show [] ++ (lead T.LPAR ++ (fixedChars T.LPAR ++ _)) = _
      rw [lpar_chars]; rfl
    rw [e]
    refine .listFunction ?_ f.2.1 f.2.2 ?_
    · rcases hf with h | ⟨c, n, h, hc⟩
      · left
        rw [h]
        exact ⟨sep T.LPAR ++ spaced w', by
          rw [show "getSecret(".toList = "getSecret".toList ++ ['('] by decide +kernel, List.append_assoc]; rfl⟩
      · right
        refine ⟨c, n, _, by rw [h], hc, fun d hd => alpha_range (f.2.2 d (by rw [h]; simp [hd]))⟩
    · intro c cs h; cases h; decide
  | @int d =>
    cases hu
    rw [sep_blank (by decide)]
    exact .int d.2.1 d.2.2 (stops_blank _ (by decide) _) (by simp)
  | @deco d =>
    cases hu
    rw [sep_blank (by decide)]
    exact .decorator d.2 (stops_blank _ (by decide) _) (by simp)
  | newline =>
    cases hu
    rw [sep_blank (by decide)]
    exact .lineEnd (.inl .lf) ⟨fun ⟨r, h⟩ => by simp at h, fun ⟨r, h⟩ => by simp at h⟩
  | @quoted b y hy hb =>
    cases hu
    rw [sep_blank (by decide)]
    refine .quoted hy.1 hb ?_
    show NoQuotes3 _
    have : '\'' :: y ++ '\'' :: ' ' :: spaced w = quote y ++ ' ' :: spaced w := by simp [quote]
    rw [this, takeWhile_line (quote_line hy)]
    exact NoQuotes3.blank hy.2 (noTriple_spaced hg)
  | @multi y hy => cases hu; exact .multiLine hy

theorem Good.layout : ∀ {p w}, Good p w → ∀ l, Layout p (spaced w) l (place l w)
  | _, [], _, _ => .nil
  | p, (t, x) :: w, ⟨hc, hm, hg⟩, l => by
    have hf := hc.fits hg hm
    have ih := Good.layout hg (l + countNL (lead t) + countNL x)
    have h1 : Layout t (sep t ++ spaced w) (l + countNL (lead t) + countNL x)
        (place (l + countNL (lead t) + countNL x) w) := by
      unfold sep; split
      · exact ih
      · exact .gap .blank ih
    have h2 := Layout.tok hf h1
    simp only [spaced, place]
    by_cases ht : t = T.MULTI_LINE_STRING
    · have : lead t = '/' :: '*' :: ['\n'] ++ ['*', '/'] := by subst ht; decide +kernel
      rw [this] at h2 ⊢
      exact .gap (.comment (by decide +kernel)) h2
    · rw [lead, if_neg ht] at h2 ⊢
      exact h2

/-! ### Even number of `'''` -/

theorem occ_mild {x s : List Char} {n : Nat} (hx : '\'' ∉ x) (h : Occ s n) : Occ (x ++ s) n := by
  induction x with
  | nil => exact h
  | cons c x ih =>
    refine .miss (fun y hy => ?_) (ih fun hm => hx (List.mem_cons_of_mem _ hm))
    have : c = '\'' := (List.cons.inj hy).1
    exact hx (by simp [this])

theorem occ_none {x s : List Char} {n : Nat} (hx : NoQuotes3 x) (h : Occ s n) : Occ (x ++ ' ' :: s) n := by
  induction x with
  | nil => exact .miss (fun y hy => by cases hy) h
  | cons c x ih =>
    refine .miss (fun y hy => ?_) (ih hx.tail)
    replace hy : c :: (x ++ _) = _ := hy
    match x, hy with
    | [], hy => simp at hy
    | [d], hy => simp at hy
    | d :: e :: x, hy =>
      simp only [List.cons_append, List.cons.injEq] at hy
      obtain ⟨rfl, rfl, rfl, _⟩ := hy
      exact hx ⟨[], x, rfl⟩

theorem occ_upto {x s : List Char} {n : Nat} (hx : NoQuotes3 (x ++ ['\'', '\''])) (h : Occ s n) :
    Occ (x ++ '\'' :: '\'' :: '\'' :: s) (n + 1) := by
  induction x with
  | nil => exact .hit h
  | cons c x ih =>
    refine .miss (fun y hy => ?_) (ih hx.tail)
    replace hy : c :: (x ++ _) = _ := hy
    match x, hy with
    | [], hy =>
      simp only [List.cons_append, List.nil_append, List.cons.injEq] at hy
      exact hx (by rw [hy.1]; exact ⟨[], [], rfl⟩)
    | [d], hy =>
      simp only [List.cons_append, List.nil_append, List.cons.injEq] at hy
      exact hx (by rw [hy.1, hy.2.1]; exact ⟨[], ['\''], rfl⟩)
    | d :: e :: x, hy =>
      simp only [List.cons_append, List.cons.injEq] at hy
      obtain ⟨rfl, rfl, rfl, _⟩ := hy
      exact hx ⟨[], x ++ ['\'', '\''], rfl⟩

theorem Good.occ : ∀ {p w}, Good p w → ∃ n, Occ (spaced w) (2 * n)
  | _, [], _ => ⟨0, .nil⟩
  | _, (t, x) :: w, ⟨hc, _, hg⟩ => by
    obtain ⟨n, ih⟩ := Good.occ hg
    simp only [spaced]
    rcases hc.kinds with ⟨h1, h2⟩ | h | ⟨b, y, h, hy, _⟩ | ⟨y, h, hy⟩
    · simp only at h1 h2
      refine ⟨n, ?_⟩
      rw [lead, if_neg h2, List.nil_append]
      refine occ_mild (fun h => (h1 _ h).1 rfl) (occ_mild ?_ ih)
      unfold sep; split <;> decide
    · cases h
      exact ⟨n, .miss (fun y hy => by cases hy) (.miss (fun y hy => by cases hy) ih)⟩
    · cases h
      refine ⟨n, ?_⟩
      rw [show lead T.QUOTED_INTERPOLATION = [] from rfl, List.nil_append]
      exact occ_none hy.2 ih
    · cases h
      refine ⟨n + 1, ?_⟩
      refine occ_mild (by decide +kernel) ?_
      simp only [quote3, List.cons_append, List.append_assoc]
      have := occ_upto hy (occ_mild (x := sep T.MULTI_LINE_STRING) (by decide) ih)
      exact .hit this

theorem Good.valid {p w} (h : Good p w) : isValid (String.ofList (spaced w)) = true := by
  obtain ⟨n, hn⟩ := h.occ
  rw [isValid_iff (n := 2 * n) (by simpa using hn)]
  simp

end Pycep
