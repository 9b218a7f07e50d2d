import Verif.Spec.Data
import Verif.Props.Reserved
import Verif.Props.Values
import Verif.Proofs.ArgTypes
import Mathlib.Data.Nat.Digits.Lemmas
/-
C81: data can be written and are read back.
-/
namespace Pycep

/-! ### Numerals -/

/-- the decimal digits of a number -/
def numeral (n : Nat) : List Char :=
  if n = 0 then ['0'] else ((Nat.digits 10 n).map fun d => Char.ofNat (d + 48)).reverse

theorem digit_char : ∀ d < 10, isAsciiDigit (Char.ofNat (d + 48)) = true ∧ (Char.ofNat (d + 48)).toNat - '0'.toNat = d := by
  decide +kernel

theorem numeral_digits (n : Nat) : numeral n ≠ [] ∧ ∀ c ∈ numeral n, isAsciiDigit c = true := by
  unfold numeral
  split
  · exact ⟨by simp, by decide⟩
  · rename_i h
    refine ⟨by simp [Nat.digits_ne_nil_iff_ne_zero.mpr h], fun c hc => ?_⟩
    simp only [List.mem_reverse, List.mem_map] at hc
    obtain ⟨d, hd, rfl⟩ := hc
    exact (digit_char d (Nat.digits_lt_base (by decide) hd)).1

theorem numeral_decimal (n : Nat) : decimal (numeral n) = n := by
  unfold numeral decimal
  split
  · rename_i h; subst h; rfl
  · rw [List.reverse_reverse, List.map_map]
    have : (Nat.digits 10 n).map ((fun c : Char => c.toNat - '0'.toNat) ∘ fun d => Char.ofNat (d + 48)) = Nat.digits 10 n := by
      conv_rhs => rw [← List.map_id (Nat.digits 10 n)]
      exact List.map_congr_left fun d hd => (digit_char d (Nat.digits_lt_base (by decide) hd)).2
    rw [this, Nat.ofDigits_digits]

theorem numeral_length {n k : Nat} (h : n < 10 ^ k) (hk : 0 < k) : (numeral n).length ≤ k := by
  unfold numeral
  split
  · exact hk
  · simpa using (Nat.digits_length_le_iff (by decide) n).mpr h

/-! ### Writing -/

/-- the key of an object, written -/
def QuotedKey (s : String) : Prop := ∃ b, s.toList = quote b ∧ StrOK false b

/-- the keys that can be written at the beginning of a line -/
def WritableKey (s : String) : Prop := IdentBut ["for", "null", "true", "false"] s ∨ QuotedKey s

/-- the references -/
def Reference (s : String) : Prop := IdentBut ["null", "true", "false"] s

theorem key_written {s : String} (h : WritableKey s) : ∃ k : Key, k.ok ∧ k.text = s := by
  rcases h with ⟨h1, h2⟩ | ⟨b, h1, h2⟩
  · by_cases hr : s = "resource"
    · subst hr; exact ⟨.resource, trivial, rfl⟩
    · refine ⟨.ident ⟨s.toList, h1⟩, ?_, by simp [Key.text, txt]⟩
      intro k hk e
      have h' : (T.RESOURCE :: T.FOR :: literals).map fixedChars =
        "resource".toList :: "for".toList :: literalTexts := by decide +kernel
      have : s.toList ∈ "resource".toList :: "for".toList :: literalTexts := by
        rw [← h', show s.toList = fixedChars k from e]; exact List.mem_map_of_mem hk
      simp only [literalTexts, List.mem_cons, String.toList_inj, List.not_mem_nil, or_false] at this
      simp only [List.mem_cons, List.not_mem_nil, or_false] at h2
      tauto
  · exact ⟨.quoted false b, ⟨rfl, h2⟩, by simp [Key.text, txt, ← h1]⟩

/-- data have an expression -/
theorem data_written {v : Val} (h : Datum TripleQuotable Reference WritableKey v) :
    ∃ e : Expr, e.isData = true ∧ e.ok ∧ e.clear = true ∧ e.val false = .ok v := by
  induction h with
  | none => exact ⟨.null, rfl, trivial, rfl, rfl⟩
  | @bool b =>
    cases b
    · exact ⟨.fls, rfl, trivial, rfl, rfl⟩
    · exact ⟨.tru, rfl, trivial, rfl, rfl⟩
  | @int n h =>
    refine ⟨.int ⟨numeral n, numeral_digits n⟩, rfl, trivial, rfl, ?_⟩
    have := numeral_length h (by decide)
    simp only [Expr.val, intMaxStrDigits, if_pos this, numeral_decimal]
  | @str s h =>
    refine ⟨.multi ('\n' :: s.toList), rfl, ?_, rfl, by simp [Expr.val, dropNewline, txt]⟩
    show NoQuotes3 _
    intro hi
    refine h ?_
    rw [List.cons_append, List.infix_cons_iff] at hi
    rcases hi with hi | hi
    · rw [List.cons_prefix_cons] at hi; exact absurd hi.1 (by decide)
    · exact hi
  | @elem s h =>
    refine ⟨.ident ⟨s.toList, h.1⟩, rfl, other_literals.mpr ?_, rfl, by simp [Expr.val, txt]⟩
    have := h.2
    simp only [literalTexts, List.mem_cons, String.toList_inj, List.not_mem_nil, or_false] at this ⊢
    exact this
  | @list l _ ih =>
    have : ∃ es : List Expr, Expr.isDataL es = true ∧ Expr.okL es ∧ Expr.clearL es = true ∧ Expr.vals false es = .ok l := by
      induction l with
      | nil => exact ⟨[], rfl, trivial, rfl, rfl⟩
      | cons x l ihl =>
        obtain ⟨e, h1, h2, h3, h4⟩ := ih x (by simp)
        obtain ⟨es, k1, k2, k3, k4⟩ := ihl (fun x hx => by rename_i hall; exact hall x (by simp [hx])) fun x hx => ih x (by simp [hx])
        exact ⟨e :: es, by simp [Expr.isDataL, h1, k1], ⟨h2, k2⟩, by simp [Expr.clearL, h3, k3],
          by simp [Expr.vals, h4, k4, bind, Except.bind]⟩
    obtain ⟨es, h1, h2, h3, h4⟩ := this
    exact ⟨.array es, h1, h2, h3, by simp [Expr.val, h4, bind, Except.bind]⟩
  | @dict d hn hk _ ih =>
    have : ∃ is : List Item, Item.isDataL is = true ∧ Item.okL is ∧ Item.clearL is = true ∧ Item.vals false is = .ok d := by
      clear hn
      induction d with
      | nil => exact ⟨[], rfl, trivial, rfl, rfl⟩
      | cons x d ihd =>
        obtain ⟨e, h1, h2, h3, h4⟩ := ih x (by simp)
        obtain ⟨k, k1, k2⟩ := key_written (hk x (by simp))
        obtain ⟨is, j1, j2, j3, j4⟩ := ihd (fun p hp => hk p (by simp [hp])) (fun x hx => by rename_i hall; exact hall x (by simp [hx]))
          fun x hx => ih x (by simp [hx])
        exact ⟨.pair k e :: is, by simp [Item.isDataL, Item.isData, h1, j1], ⟨⟨k1, h2⟩, j2⟩,
          by simp [Item.clearL, Item.clear, h3, j3],
          by simp [Item.vals, Item.val, h4, j4, k2, bind, Except.bind]⟩
    obtain ⟨is, h1, h2, h3, h4⟩ := this
    exact ⟨.object is, h1, h2, h3, by simp [Expr.val, h4, lastWins_of_nodup hn, bind, Except.bind]⟩

/-- **C81, writing.** Every datum made of nothing, truth values, non-negative numbers of up to 4300 digits,
texts without triple quotes that do not end with a quote, references, lists and dictionaries (with
identifiers or quoted texts as keys) can be written as the value of a variable and is read back as it is. -/
theorem C81_written {v : Val} (h : Datum TripleQuotable Reference WritableKey v) :
    ∃ t : String, (Parser.mk false).parse (some t) .none =
      .ok (onlyVal "variables" "y" (.dict [("decorators", .list []), ("value", v)])) := by
  obtain ⟨e, _, h1, h2, h3⟩ := data_written h
  refine ⟨(varY e).render, ?_⟩
  rw [parse_render_plain (varY_ok h1) ?_ (by simp [varY]), varY_val h3]
  · rfl
  · simp [varY, Program.clear, Decl.clear, LoopOrExpr.clear, h2]

/-- a dictionary with a list, a number, a text with a quote and a line break, and a reference -/
example : Datum TripleQuotable Reference WritableKey
    (.dict [("type", .list [.int 12, .str "it's\n"]), ("'a b'", .elem "param")]) := by
  have hid : IsIdentText "type".toList := ⟨'t', "ype".toList, rfl, .inl (by decide), by decide⟩
  have hk : WritableKey "'a b'" := .inr ⟨"a b".toList, by decide +kernel,
    .chr (by decide) (by decide) (by decide) (by decide) (.chr (by decide) (by decide) (by decide) (by decide)
      (.chr (by decide) (by decide) (by decide) (by decide) .nil)), by unfold NoQuotes3; decide⟩
  have hn : ∀ n < 256, n < 10 ^ 4300 := fun n hn =>
    Nat.lt_of_lt_of_le hn (Nat.le_trans (by decide : 256 ≤ 10 ^ 3) (Nat.pow_le_pow_right (by decide) (by decide)))
  refine .dict (by decide) ?_ ?_
  · intro p hp
    simp only [List.mem_cons, List.not_mem_nil, or_false] at hp
    rcases hp with rfl | rfl
    · exact .inl ⟨hid, by decide⟩
    · exact hk
  · intro p hp
    simp only [List.mem_cons, List.not_mem_nil, or_false] at hp
    rcases hp with rfl | rfl
    · refine .list fun x hx => ?_
      simp only [List.mem_cons, List.not_mem_nil, or_false] at hx
      rcases hx with rfl | rfl
      · exact .int (n := 12) (hn 12 (by decide))
      · exact .str (by unfold TripleQuotable; decide +kernel)
    · exact .elem ⟨paramWord.2, by decide⟩

/-! ### Reading -/

/-- what keys look like in results: identifiers, or texts in quotes -/
def KeyText (s : String) : Prop := IsIdentText s.toList ∨ ∃ b, s.toList = quote b

/-- what references look like -/
def IdentText (s : String) : Prop := IsIdentText s.toList

theorem decimal_lt (d : Digits) : decimal d.1 < 10 ^ d.1.length := by
  unfold decimal
  have := Nat.ofDigits_lt_base_pow_length (b := 10) (l := d.1.reverse.map fun c => c.toNat - '0'.toNat) (by decide) (by
    intro x hx
    simp only [List.mem_map, List.mem_reverse] at hx
    obtain ⟨c, hc, rfl⟩ := hx
    have := d.2.2 c hc
    simp only [isAsciiDigit, inRange, Bool.and_eq_true, decide_eq_true_eq] at this
    have h9 : '9'.toNat = 57 := rfl
    have h0 : '0'.toNat = 48 := rfl
    omega)
  simpa using this

theorem resource_isIdent : IsIdentText "resource".toList := ⟨'r', "esource".toList, rfl, .inl (by decide), by decide⟩

theorem key_text (k : Key) : KeyText k.text := by
  cases k with
  | resource => exact .inl resource_isIdent
  | ident x => exact .inl (by simpa [Key.text, txt] using x.2)
  | quoted _ b => exact .inr ⟨b, by simp [Key.text, txt]⟩

theorem mem_of_lastWins {ps : List (String × Val)} {p : String × Val} (h : p ∈ lastWins ps) : p ∈ ps := by
  simp only [lastWins, List.mem_map] at h
  obtain ⟨k, hk, rfl⟩ := h
  have hk : k ∈ ps.reverse.map Prod.fst := by
    simpa using List.mem_eraseDups.mp hk
  cases hl : ps.reverse.lookup k with
  | none =>
    rw [List.lookup_eq_none_iff] at hl
    obtain ⟨q, hq, rfl⟩ := List.mem_map.mp hk
    simpa using hl q hq
  | some y =>
    obtain ⟨l1, l2, e, _⟩ := List.lookup_eq_some_iff.mp hl
    exact List.mem_reverse.mp (by rw [e]; simp)

mutual
theorem data_read {ln : Bool} : (e : Expr) → e.isData = true → ∀ {v}, e.val ln = .ok v →
    Datum (fun _ => True) IdentText KeyText v
  | .null, _, v, h => by rw [Expr.val] at h; cases h; exact .none
  | .tru, _, v, h => by rw [Expr.val] at h; cases h; exact .bool
  | .fls, _, v, h => by rw [Expr.val] at h; cases h; exact .bool
  | .int d, _, v, h => by
    rw [Expr.val] at h
    split at h
    · rename_i hl
      cases h
      exact .int (Nat.lt_of_lt_of_le (decimal_lt d) (Nat.pow_le_pow_right (by decide) hl))
    · cases h
  | .ident x, _, v, h => by rw [Expr.val] at h; cases h; exact .elem (by simpa [IdentText, txt] using x.2)
  | .str b, _, v, h => by rw [Expr.val] at h; cases h; exact .str trivial
  | .multi b, _, v, h => by rw [Expr.val] at h; cases h; exact .str trivial
  | .array es, hd, v, h => by
    rw [Expr.val] at h
    obtain ⟨vs, h1, h2⟩ := bind_ok' h
    cases h2
    exact .list (data_readL es hd h1)
  | .object is, hd, v, h => by
    rw [Expr.val] at h
    obtain ⟨ps, h1, h2⟩ := bind_ok' h
    cases h2
    have := data_readI is hd h1
    refine .dict (by rw [lastWins_keys]; exact nodup_eraseDups _) ?_ ?_
    · intro p hp
      exact (this p (mem_of_lastWins hp)).1
    · intro p hp
      exact (this p (mem_of_lastWins hp)).2
theorem data_readL {ln : Bool} : (es : List Expr) → Expr.isDataL es = true → ∀ {vs}, Expr.vals ln es = .ok vs →
    ∀ v ∈ vs, Datum (fun _ => True) IdentText KeyText v
  | [], _, vs, h => by rw [Expr.vals] at h; cases h; simp
  | e :: es, hd, vs, h => by
    rw [Expr.vals] at h
    obtain ⟨v, h1, h2⟩ := bind_ok' h
    obtain ⟨vs', h3, h4⟩ := bind_ok' h2
    cases h4
    simp only [Expr.isDataL, Bool.and_eq_true] at hd
    intro x hx
    rcases List.mem_cons.mp hx with rfl | hx
    · exact data_read e hd.1 h1
    · exact data_readL es hd.2 h3 x hx
theorem data_readI {ln : Bool} : (is : List Item) → Item.isDataL is = true → ∀ {ps}, Item.vals ln is = .ok ps →
    ∀ p ∈ ps, KeyText p.1 ∧ Datum (fun _ => True) IdentText KeyText p.2
  | [], _, vs, h => by rw [Item.vals] at h; cases h; simp
  | .pair k e :: is, hd, vs, h => by
    rw [Item.vals] at h
    obtain ⟨v, h1, h2⟩ := bind_ok' h
    obtain ⟨vs', h3, h4⟩ := bind_ok' h2
    cases h4
    rw [Item.val] at h1
    obtain ⟨y, h5, h6⟩ := bind_ok' h1
    cases h6
    simp only [Item.isDataL, Item.isData, Bool.and_eq_true] at hd
    intro x hx
    rcases List.mem_cons.mp hx with rfl | hx
    · exact ⟨key_text k, data_read e hd.1 h5⟩
    · exact data_readI is hd.2 h3 x hx
  | .pairLoop _ _ :: _, hd, _, _ => by simp [Item.isDataL, Item.isData] at hd
  | .child _ _ _ _ _ :: _, hd, _, _ => by simp [Item.isDataL, Item.isData] at hd
end

/-- **C81, reading.** Conversely, wherever an expression without operators, calls, lambdas, loops and nested
resources is reported, a datum is reported. -/
theorem C81_read {P : Parser} {text path v} (h : P.parse text path = .ok v) :
    ∃ t p, chosenText text path = .ok t ∧ Spells t p ∧
      ∀ {s n π e}, p.At s n π (.expr e) → e.isData = true →
        ∃ y, v.at? (.key s :: .key n :: π) = some y ∧ Datum (fun _ => True) IdentText KeyText y := by
  obtain ⟨t, p, h1, h2, h3⟩ := parse_at h
  refine ⟨t, p, h1, h2, fun ha hd => ?_⟩
  obtain ⟨y, h4, h5⟩ := h3 ha
  exact ⟨y, h5, data_read _ hd h4⟩

/-- **C81, negative numbers.** No expression is reported as a negative number: `-1` is an operator applied
to 1. -/
theorem C81_no_negative {P : Parser} {text path v} (h : P.parse text path = .ok v) :
    ∃ t p, chosenText text path = .ok t ∧ Spells t p ∧
      ∀ {s n π e i}, p.At s n π (.expr e) → v.at? (.key s :: .key n :: π) = some (.int i) →
        0 ≤ i ∧ ∃ d, e = .int d := by
  obtain ⟨t, p, h1, h2, h3⟩ := parse_at h
  refine ⟨t, p, h1, h2, fun {s n π e i} ha hi => ?_⟩
  obtain ⟨y, h4, h5⟩ := h3 ha
  rw [h5] at hi
  cases hi
  have h4 : e.val P.addLineNumbers = .ok (.int i) := h4
  have hk := ((val_kind h4).2.2.1).mp ⟨i, rfl⟩
  cases e with
  | int d =>
    rw [Expr.val] at h4
    split at h4
    · cases h4; exact ⟨by simp, d, rfl⟩
    · cases h4
  | _ => exact hk.elim

example : (Parser.mk false).parse (some "var y = -1\n") .none =
    .ok (onlyVal "variables" "y" (.dict [("decorators", .list []), ("value", opVal "minus" [("integer_value", .int 1)])])) :=
  eq_of_outIs (by decide +kernel)

end Pycep
