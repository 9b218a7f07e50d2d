import Verif.Spec.Literal
import Verif.Spec.Json
import Mathlib.Tactic.IntervalCases
/-
Printed values can be read back.
-/
namespace Pycep

/-! ### Characters -/

theorem hexOf_hexDigit {n : Nat} (h : n < 16) : hexOf (hexDigit n) = some n := by
  interval_cases n <;> decide

theorem hexPad_succ (w n : Nat) : hexPad (w + 1) n = hexDigit ((n >>> (4 * w)) % 16) :: hexPad w n := by
  simp [hexPad, List.range_succ]

theorem hexPad_length (w n : Nat) : (hexPad w n).length = w := by simp [hexPad]

theorem hexNum_hexPad (w n m : Nat) : hexNum m (hexPad w n) = some (16 ^ w * m + n % 16 ^ w) := by
  induction w generalizing m with
  | zero => simp [hexPad, hexNum, Nat.mod_one]
  | succ w ih =>
    rw [hexPad_succ, hexNum, hexOf_hexDigit (Nat.mod_lt _ (by decide))]
    simp only [Option.bind_eq_bind, Option.bind_some]
    rw [ih, Nat.shiftRight_eq_div_pow]
    have h1 : 2 ^ (4 * w) = 16 ^ w := by rw [Nat.pow_mul]
    rw [h1, Nat.pow_succ, Nat.mod_mul]
    congr 1
    ring

theorem readHex_hexPad {w : Nat} {c : Char} (h : c.toNat < 16 ^ w) (r : List Char) :
    readHex w (hexPad w c.toNat ++ r) = some (c, r) := by
  have hl := hexPad_length w c.toNat
  unfold readHex
  rw [if_pos (by simp [hl]), List.take_append_of_le_length (by omega), List.take_of_length_le (by omega),
    hexNum_hexPad, List.drop_append_of_le_length (by omega), List.drop_of_length_le (by omega)]
  simp [Nat.mod_eq_of_lt h, Char.ofNat_toNat]

theorem char_lt (c : Char) : c.toNat < 16 ^ 8 := by
  have := c.valid
  have h2 : c.toNat = c.val.toNat := rfl
  rcases this with h | h <;> rw [h2] <;> omega

/-- how a character in a string is read -/
theorem readStr_char {q : Char} (hq : q = '\'' ∨ q = '"') (c : Char) (n : Nat) (r : List Char) :
    readStr q (n + 1) (reprChar q c ++ r) = (readStr q n r).map (fun p => (c :: p.1, p.2)) := by
  have hesc : ∀ x y, readEscape x = some y → '\\' ≠ q → readStr q (n + 1) ('\\' :: x) =
      (readStr q n y.2).map (fun p => (y.1 :: p.1, p.2)) := by
    intro x y hxy hne
    rw [readStr, if_neg hne, if_pos rfl, hxy]
    cases h : readStr q n y.2 <;> simp [h]
  have hb : '\\' ≠ q := by rcases hq with rfl | rfl <;> decide
  unfold reprChar
  split
  · rename_i h
    rw [List.cons_append, List.cons_append, List.nil_append, hesc (c :: r) (c, r) _ hb]
    rcases h with rfl | rfl
    · rcases hq with rfl | rfl <;> rfl
    · rfl
  · rename_i h
    have hc : ∀ x, readStr q (n + 1) ([c] ++ x) = (readStr q n x).map (fun p => (c :: p.1, p.2)) := by
      intro x
      rw [List.cons_append, List.nil_append, readStr, if_neg (fun e => h (.inl e)), if_neg (fun e => h (.inr e))]
      cases h : readStr q n x <;> simp
    split
    · rename_i h; subst h; exact hesc _ (_, r) rfl hb
    · split
      · rename_i h; subst h; exact hesc _ (_, r) rfl hb
      · split
        · rename_i h; subst h; exact hesc _ (_, r) rfl hb
        · split
          · rename_i h
            exact hesc _ (c, r) (readHex_hexPad (w := 2) (by omega) r) hb
          · split
            · exact hc r
            · split
              · exact hc r
              · split
                · exact hesc _ (c, r) (readHex_hexPad (w := 2) (by omega) r) hb
                · split
                  · exact hesc _ (c, r) (readHex_hexPad (w := 4) (by omega) r) hb
                  · exact hesc _ (c, r) (readHex_hexPad (w := 8) (char_lt c) r) hb

theorem readStr_chars {q : Char} (hq : q = '\'' ∨ q = '"') (r : List Char) : ∀ (cs : List Char) (n : Nat),
    cs.length < n → readStr q n (cs.flatMap (reprChar q) ++ q :: r) = some (cs, r)
  | [], 0, h => by simp at h
  | [], n + 1, _ => by simp [readStr]
  | c :: cs, 0, h => by simp at h
  | c :: cs, n + 1, h => by
    rw [List.flatMap_cons, List.append_assoc, readStr_char hq, readStr_chars hq r cs n (by simpa using h)]
    rfl

theorem reprChar_pos (q c : Char) : 0 < (reprChar q c).length := by
  unfold reprChar; repeat' split
  all_goals simp

theorem reprChars_length (q : Char) (cs : List Char) : cs.length ≤ (cs.flatMap (reprChar q)).length := by
  induction cs with
  | nil => simp
  | cons c cs ih =>
    have := reprChar_pos q c
    rw [List.flatMap_cons, List.length_append, List.length_cons]
    omega

theorem readText_repr (s : String) (r : List Char) : readText ((reprStr s).toList ++ r) = some (s, r) := by
  have key : ∀ q, q = '\'' ∨ q = '"' → readText ([q] ++ s.toList.flatMap (reprChar q) ++ [q] ++ r) = some (s, r) := by
    intro q hq
    have h := readStr_chars hq r s.toList ((s.toList.flatMap (reprChar q) ++ q :: r).length + 1) (by
      have := reprChars_length q s.toList
      rw [List.length_append]; omega)
    simp only [List.append_assoc, List.cons_append, List.nil_append]
    rcases hq with rfl | rfl <;> rw [readText, h] <;> simp [String.ofList_toList]
  unfold reprStr
  simp only [String.toList_ofList]
  split
  · exact key _ (.inr rfl)
  · exact key _ (.inl rfl)

theorem reprStr_head (s : String) : ∃ q rest, (q = '\'' ∨ q = '"') ∧ (reprStr s).toList = q :: rest := by
  unfold reprStr
  simp only [String.toList_ofList]
  split
  · exact ⟨_, _, .inr rfl, rfl⟩
  · exact ⟨_, _, .inl rfl, rfl⟩

/-! ### Numbers -/

theorem takeWhile_digits {x r : List Char} (hx : ∀ c ∈ x, c.isDigit = true) (hr : ∀ c ∈ r.head?, c.isDigit = false) :
    (x ++ r).takeWhile Char.isDigit = x ∧ (x ++ r).dropWhile Char.isDigit = r := by
  induction x with
  | nil =>
    cases r with
    | nil => simp
    | cons c r => simp [hr c (by simp)]
  | cons c x ih =>
    obtain ⟨h1, h2⟩ := ih (fun c hc => hx c (List.mem_cons_of_mem _ hc))
    simp [hx c (by simp), h1, h2]

theorem readNat_repr (n : Nat) (r : List Char) (hr : ∀ c ∈ r.head?, c.isDigit = false) :
    readNat ((toString n).toList ++ r) = some (n, r) := by
  have hd : ∀ c ∈ Nat.toDigits 10 n, c.isDigit = true := fun c hc => Nat.isDigit_of_mem_toDigits (by decide) (by decide) hc
  have e : (toString n).toList = Nat.toDigits 10 n := by rw [Nat.toString_eq_repr, Nat.toList_repr]
  obtain ⟨h1, h2⟩ := takeWhile_digits hd hr
  unfold readNat
  rw [e, h1, h2, if_neg Nat.toDigits_ne_nil]
  have := Nat.ofDigitChars_ten_toDigits (n := n)
  rw [Nat.ofDigitChars_eq_foldl] at this
  rw [this]

theorem readVal_digit {n : Nat} {c : Char} {r : List Char} (h : c.isDigit = true) :
    readVal (n + 1) (c :: r) = (readNat (c :: r)).map (fun p => (.int p.1, p.2)) := by
  rw [readVal.eq_def]
  simp only
  split <;> first
    | (rename_i e; cases e; exact absurd h (by decide))
    | skip
  · rename_i e
    cases e
    rw [if_neg]
    rintro (rfl | rfl) <;> revert h <;> decide
  · rename_i e; cases e

theorem readVal_quote {n : Nat} {c : Char} {r : List Char} (h : c = '\'' ∨ c = '"') :
    readVal (n + 1) (c :: r) = (readText (c :: r)).map (fun p => (.str p.1, p.2)) := by
  rw [readVal.eq_def]
  simp only
  split <;> first
    | (rename_i e; cases e; exact absurd h (by decide))
    | skip
  · rename_i e
    cases e
    rw [if_pos h]
  · rename_i e; cases e

theorem readVal_text {n : Nat} (s : String) (r : List Char) :
    readVal (n + 1) ((reprStr s).toList ++ r) = some (.str s, r) := by
  have := readText_repr s r
  obtain ⟨q, rest, hq, e⟩ := reprStr_head s
  rw [e, List.cons_append] at this ⊢
  rw [readVal_quote hq, this]
  rfl

/-! ### Values -/

theorem readMore_last {n : Nat} {cs : List Char} {v : Val} {r : List Char} (h : readVal n cs = some (v, ']' :: r)) :
    readMore (n + 1) cs = some ([v], r) := by
  rw [readMore, h]; rfl

theorem readMore_more {n : Nat} {cs : List Char} {v : Val} {r r' : List Char} {vs : List Val}
    (h : readVal n cs = some (v, ',' :: ' ' :: r)) (h2 : readMore n r = some (vs, r')) :
    readMore (n + 1) cs = some (v :: vs, r') := by
  rw [readMore, h]
  simp only [Option.bind_eq_bind, Option.bind_some]
  rw [h2]; rfl

theorem readPairs_last {n : Nat} {cs : List Char} {k : String} {v : Val} {r r' : List Char}
    (hk : readText cs = some (k, ':' :: ' ' :: r)) (h : readVal n r = some (v, '}' :: r')) :
    readPairs (n + 1) cs = some ([(k, v)], r') := by
  rw [readPairs, hk]
  simp only [Option.bind_eq_bind, Option.bind_some]
  rw [h]; rfl

theorem readPairs_more {n : Nat} {cs : List Char} {k : String} {v : Val} {r r' r2 : List Char} {ps : List (String × Val)}
    (hk : readText cs = some (k, ':' :: ' ' :: r)) (h : readVal n r = some (v, ',' :: ' ' :: r'))
    (h2 : readPairs n r' = some (ps, r2)) : readPairs (n + 1) cs = some ((k, v) :: ps, r2) := by
  rw [readPairs, hk]
  simp only [Option.bind_eq_bind, Option.bind_some]
  rw [h]
  simp only [Option.bind_some]
  rw [h2]; rfl

theorem join_cons (x : String) (xs : List String) : (", ".intercalate (x :: xs)).toList =
    x.toList ++ (if xs = [] then [] else ',' :: ' ' :: (", ".intercalate xs).toList) := by
  cases xs with
  | nil => simp [String.intercalate_singleton]
  | cons y ys => simp [String.intercalate_cons_cons]

/-- the character does not close a bracket -/
theorem repr_head (v : Val) : ∃ c rest, v.repr.toList = c :: rest ∧ c ≠ ']' := by
  have hs : ∀ s, ∃ c rest, (reprStr s).toList = c :: rest ∧ c ≠ ']' := fun s => by
    obtain ⟨q, rest, hq, e⟩ := reprStr_head s
    exact ⟨q, rest, e, by rcases hq with rfl | rfl <;> decide⟩
  cases v with
  | none => rw [Val.repr]; exact ⟨_, _, rfl, by decide⟩
  | bool b => cases b <;> rw [Val.repr] <;> exact ⟨_, _, rfl, by decide⟩
  | int i =>
    cases i with
    | ofNat m =>
      have e : (Val.int (.ofNat m)).repr.toList = Nat.toDigits 10 m := by
        rw [Val.repr, show toString (Int.ofNat m) = toString m from rfl, Nat.toString_eq_repr, Nat.toList_repr]
      rw [e]
      cases ht : Nat.toDigits 10 m with
      | nil => exact absurd ht Nat.toDigits_ne_nil
      | cons c rest =>
        refine ⟨c, rest, rfl, ?_⟩
        have := Nat.isDigit_of_mem_toDigits (b := 10) (n := m) (c := c) (by decide) (by decide) (by rw [ht]; simp)
        rintro rfl
        exact absurd this (by decide)
    | negSucc m =>
      rw [Val.repr, show toString (Int.negSucc m) = "-" ++ toString (m + 1) from rfl, String.toList_append]
      exact ⟨'-', _, rfl, by decide⟩
  | str s => rw [Val.repr]; exact hs s
  | elem s => rw [Val.repr]; exact hs s
  | tok t s => rw [Val.repr]; simp only [String.toList_append]; exact ⟨_, _, rfl, by decide⟩
  | list l => rw [Val.repr]; simp only [String.toList_append]; exact ⟨_, _, rfl, by decide⟩
  | tup2 a b => rw [Val.repr]; simp only [String.toList_append]; exact ⟨_, _, rfl, by decide⟩
  | dict d => rw [Val.repr]; simp only [String.toList_append]; exact ⟨_, _, rfl, by decide⟩

variable {K : String → Prop}

theorem readVal_nat (m n : Nat) (r : List Char) (hr : ∀ c ∈ r.head?, c.isDigit = false) :
    readVal (n + 1) ((toString m).toList ++ r) = some (.int m, r) := by
  have h := readNat_repr m r hr
  obtain ⟨c, rest, hc, hd⟩ : ∃ c rest, (toString m).toList = c :: rest ∧ c.isDigit = true := by
    have e : (toString m).toList = Nat.toDigits 10 m := by rw [Nat.toString_eq_repr, Nat.toList_repr]
    cases ht : Nat.toDigits 10 m with
    | nil => exact absurd ht Nat.toDigits_ne_nil
    | cons c rest =>
      exact ⟨c, rest, by rw [e, ht], Nat.isDigit_of_mem_toDigits (b := 10) (n := m) (by decide) (by decide) (by rw [ht]; simp)⟩
  rw [hc, List.cons_append] at h ⊢
  rw [readVal_digit hd, h]
  rfl

theorem readVal_neg (m n : Nat) (r : List Char) (hr : ∀ c ∈ r.head?, c.isDigit = false) :
    readVal (n + 1) ('-' :: (toString (m + 1)).toList ++ r) = some (.int (.negSucc m), r) := by
  have h := readNat_repr (m + 1) r hr
  rw [List.cons_append, readVal, h]
  rfl

/-- reading all values, list items and dictionary items up to a size -/
def ReadsAll (K : String → Prop) (n : Nat) : Prop :=
  (∀ v, Json K v → ∀ r : List Char, v.repr.toList.length < n → (∀ c ∈ r.head?, c.isDigit = false) →
    readVal n (v.repr.toList ++ r) = some (v.plain, r)) ∧
  (∀ v l, (∀ x ∈ v :: l, Json K x) → ∀ r : List Char,
    (", ".intercalate (Val.reprList (v :: l))).toList.length + 1 < n →
    readMore n ((", ".intercalate (Val.reprList (v :: l))).toList ++ (']' :: r)) = some (Val.plainL (v :: l), r)) ∧
  (∀ (k : String) v d, (∀ x ∈ (k, v) :: d, Json K x.2) → ∀ r : List Char,
    (", ".intercalate (Val.reprItems ((k, v) :: d))).toList.length + 1 < n →
    readPairs n ((", ".intercalate (Val.reprItems ((k, v) :: d))).toList ++ ('}' :: r)) = some (Val.plainD ((k, v) :: d), r))

theorem readVal_list {n : Nat} (ih : ReadsAll K n) (v : Val) (l : List Val) (hj : ∀ x ∈ v :: l, Json K x) (r : List Char)
    (hn : (Val.list (v :: l)).repr.toList.length < n + 1) :
    readVal (n + 1) ((Val.list (v :: l)).repr.toList ++ r) = some ((Val.list (v :: l)).plain, r) := by
  have e : (Val.list (v :: l)).repr.toList = '[' :: ((", ".intercalate (Val.reprList (v :: l))).toList ++ [']']) := by
    rw [Val.repr]; simp
  rw [e] at hn ⊢
  have h := ih.2.1 v l hj r (by
    simp only [List.length_cons, List.length_append, List.length_nil] at hn; omega)
  obtain ⟨c, rest, hc, hne⟩ := repr_head v
  rw [List.cons_append, List.append_assoc, List.singleton_append]
  rw [Val.plain]
  have e2 : ∃ t, (", ".intercalate (Val.reprList (v :: l))).toList = c :: t := by
    rw [Val.reprList, join_cons, hc]; exact ⟨_, rfl⟩
  obtain ⟨t, e2⟩ := e2
  rw [e2] at h ⊢
  rw [List.cons_append] at h ⊢
  rw [readVal]
  · rw [h]; rfl
  · intro r' e; exact absurd (List.cons.inj e).1 hne

theorem readVal_dict {n : Nat} (ih : ReadsAll K n) (k : String) (v : Val) (d : List (String × Val))
    (hj : ∀ x ∈ (k, v) :: d, Json K x.2) (r : List Char)
    (hn : (Val.dict ((k, v) :: d)).repr.toList.length < n + 1) :
    readVal (n + 1) ((Val.dict ((k, v) :: d)).repr.toList ++ r) = some ((Val.dict ((k, v) :: d)).plain, r) := by
  have e : (Val.dict ((k, v) :: d)).repr.toList = '{' :: ((", ".intercalate (Val.reprItems ((k, v) :: d))).toList ++ ['}']) := by
    rw [Val.repr]; simp
  rw [e] at hn ⊢
  have h := ih.2.2 k v d hj r (by
    simp only [List.length_cons, List.length_append, List.length_nil] at hn; omega)
  obtain ⟨c, rest, hq, hc⟩ := reprStr_head k
  rw [List.cons_append, List.append_assoc, List.singleton_append]
  rw [Val.plain]
  have e2 : ∃ t, (", ".intercalate (Val.reprItems ((k, v) :: d))).toList = c :: t := by
    rw [Val.reprItems, join_cons, String.toList_append, String.toList_append, hc]; exact ⟨_, rfl⟩
  obtain ⟨t, e2⟩ := e2
  rw [e2] at h ⊢
  rw [List.cons_append] at h ⊢
  rw [readVal]
  · rw [h]; rfl
  · intro r' e
    have := (List.cons.inj e).1
    rcases hq with rfl | rfl <;> exact absurd this (by decide)

/-- **A printed value is read back.** -/
theorem readsAll (n : Nat) : ReadsAll K n := by
  induction n with
  | zero => exact ⟨fun _ _ _ h => by simp at h, fun _ _ _ _ h => by simp at h, fun _ _ _ _ _ h => by simp at h⟩
  | succ n ih =>
    refine ⟨?_, ?_, ?_⟩
    · intro v hj r hn hr
      cases v with
      | none => rw [Val.repr]; rfl
      | bool b => cases b <;> rw [Val.repr] <;> rfl
      | int i =>
        cases i with
        | ofNat m =>
          have e : (Val.int (.ofNat m)).repr = toString m := by rw [Val.repr]; rfl
          rw [e]; exact readVal_nat m n r hr
        | negSucc m =>
          have e : (Val.int (.negSucc m)).repr.toList = '-' :: (toString (m + 1)).toList := by
            rw [Val.repr, show toString (Int.negSucc m) = "-" ++ toString (m + 1) from rfl, String.toList_append]
            rfl
          rw [e]; exact readVal_neg m n r hr
      | str s => rw [Val.repr, readVal_text]; rfl
      | elem s => rw [Val.repr, readVal_text]; rfl
      | list l =>
        cases l with
        | nil => rw [Val.repr]; rfl
        | cons v l => exact readVal_list ih v l (by cases hj; assumption) r hn
      | dict d =>
        cases d with
        | nil => rw [Val.repr]; rfl
        | cons p d => exact readVal_dict ih p.1 p.2 d (by cases hj; assumption) r hn
      | tok _ _ => cases hj
      | tup2 _ _ => cases hj
    · intro v l hj r hn
      cases l with
      | nil =>
        rw [Val.reprList, Val.reprList, join_cons] at hn ⊢
        simp only [if_true, List.append_nil] at hn ⊢
        exact readMore_last (ih.1 v (hj v (by simp)) (']' :: r) (by omega) (by simp))
      | cons w l =>
        rw [Val.reprList, join_cons] at hn ⊢
        have hne : Val.reprList (w :: l) ≠ [] := by rw [Val.reprList]; simp
        simp only [if_neg hne, List.append_assoc, List.cons_append, List.length_append, List.length_cons] at hn ⊢
        exact readMore_more (ih.1 v (hj v (by simp)) _ (by omega) (by simp))
          (ih.2.1 w l (fun x hx => hj x (List.mem_cons_of_mem _ hx)) r (by omega))
    · intro k v d hj r hn
      cases d with
      | nil =>
        rw [Val.reprItems, Val.reprItems, join_cons] at hn ⊢
        simp only [if_true, List.append_nil, String.toList_append, List.append_assoc, List.length_append] at hn ⊢
        exact readPairs_last (readText_repr k _) (ih.1 v (hj (k, v) (by simp)) ('}' :: r) (by omega) (by simp))
      | cons p d =>
        obtain ⟨k', w⟩ := p
        rw [Val.reprItems, join_cons] at hn ⊢
        have hne : Val.reprItems ((k', w) :: d) ≠ [] := by rw [Val.reprItems]; simp
        simp only [if_neg hne, List.append_assoc, List.cons_append, List.length_append, List.length_cons,
          String.toList_append] at hn ⊢
        exact readPairs_more (readText_repr k _) (ih.1 v (hj (k, v) (by simp)) _ (by omega) (by simp))
          (ih.2.2 k' w d (fun x hx => hj x (List.mem_cons_of_mem _ hx)) r (by omega))

/-- what Python prints for plain data can be read back -/
theorem literal_repr {v : Val} (h : Json K v) : literal v.repr = some v.plain := by
  have := (readsAll (K := K) (v.repr.toList.length + 1)).1 v h [] (by omega) (by simp)
  rw [List.append_nil] at this
  unfold literal
  rw [this]

theorem prints_pyStr {v : Val} (h : Json K v) : Prints v v.pyStr := by
  have := literal_repr h
  cases v with
  | str s => rfl
  | elem s => rfl
  | none => exact this
  | bool _ => exact this
  | int _ => exact this
  | list _ => exact this
  | dict _ => exact this
  | tok _ _ => cases h
  | tup2 _ _ => cases h

end Pycep
