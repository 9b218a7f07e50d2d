import Verif.ReadBytes
import Mathlib.Data.Option.Basic
/-
The UTF-8 decoder inverts the encoding of characters.
-/
namespace Pycep

theorem byte_ext {a : UInt8} {n : Nat} (h : n = a.toNat) : UInt8.ofNat n = a := by
  subst h; simp

theorem toNat_char {n : Nat} (h : n.isValidChar) : (Char.ofNat n).val.toNat = n := by
  have : Char.ofNat n = Char.ofNatAux n h := by simp [Char.ofNat, h]
  rw [this]
  rfl

theorem valid_char (c : Char) : c.val.toNat < 0xD800 ∨ (0xDFFF < c.val.toNat ∧ c.val.toNat < 0x110000) := c.valid

theorem ofNat_val (c : Char) : Char.ofNat c.val.toNat = c := Char.ofNat_toNat c

theorem enc_one {a : UInt8} (h : a.toNat < 0x80) : String.utf8EncodeChar (Char.ofNat a.toNat) = [a] := by
  have v : a.toNat.isValidChar := .inl (by omega)
  unfold String.utf8EncodeChar
  simp only [toNat_char v]
  rw [if_pos (by omega)]
  simp

theorem enc_two {a b : UInt8} (h1 : 0xC2 ≤ a.toNat) (h2 : a.toNat < 0xE0) (h3 : 0x80 ≤ b.toNat)
    (h4 : b.toNat ≤ 0xBF) :
    String.utf8EncodeChar (Char.ofNat ((a.toNat - 0xC0) * 64 + (b.toNat - 0x80))) = [a, b] := by
  have v : ((a.toNat - 0xC0) * 64 + (b.toNat - 0x80)).isValidChar := .inl (by omega)
  unfold String.utf8EncodeChar
  simp only [toNat_char v]
  rw [if_neg (by omega), if_pos (by omega), byte_ext (a := a) (by omega), byte_ext (a := b) (by omega)]

theorem enc_three {a b c : UInt8} (h1 : 0xE0 ≤ a.toNat) (h2 : a.toNat < 0xF0)
    (h3 : (if a.toNat = 0xE0 then 0xA0 else 0x80) ≤ b.toNat)
    (h4 : b.toNat ≤ (if a.toNat = 0xED then 0x9F else 0xBF)) (h5 : 0x80 ≤ c.toNat) (h6 : c.toNat ≤ 0xBF) :
    String.utf8EncodeChar (Char.ofNat
      ((a.toNat - 0xE0) * 4096 + (b.toNat - 0x80) * 64 + (c.toNat - 0x80))) = [a, b, c] := by
  have v : ((a.toNat - 0xE0) * 4096 + (b.toNat - 0x80) * 64 + (c.toNat - 0x80)).isValidChar := by
    unfold Nat.isValidChar
    split at h3 <;> split at h4 <;> omega
  unfold String.utf8EncodeChar
  simp only [toNat_char v]
  have hb : 0x80 ≤ b.toNat ∧ b.toNat ≤ 0xBF := by split at h3 <;> split at h4 <;> omega
  have hx : 0xE0 < a.toNat ∨ 0xA0 ≤ b.toNat := by split at h3 <;> omega
  clear h3 h4
  rw [if_neg (by omega), if_neg (by omega), if_pos (by omega), byte_ext (a := a) (by omega),
    byte_ext (a := b) (by omega), byte_ext (a := c) (by omega)]

theorem enc_four {a b c d : UInt8} (h1 : 0xF0 ≤ a.toNat) (h2 : a.toNat < 0xF5)
    (h3 : (if a.toNat = 0xF0 then 0x90 else 0x80) ≤ b.toNat)
    (h4 : b.toNat ≤ (if a.toNat = 0xF4 then 0x8F else 0xBF)) (h5 : 0x80 ≤ c.toNat) (h6 : c.toNat ≤ 0xBF)
    (h7 : 0x80 ≤ d.toNat) (h8 : d.toNat ≤ 0xBF) :
    String.utf8EncodeChar (Char.ofNat ((a.toNat - 0xF0) * 262144 + (b.toNat - 0x80) * 4096 +
      (c.toNat - 0x80) * 64 + (d.toNat - 0x80))) = [a, b, c, d] := by
  have hb : 0x80 ≤ b.toNat ∧ b.toNat ≤ 0xBF := by split at h3 <;> split at h4 <;> omega
  have hx : 0xF0 < a.toNat ∨ 0x90 ≤ b.toNat := by split at h3 <;> omega
  have hy : a.toNat < 0xF4 ∨ b.toNat ≤ 0x8F := by split at h4 <;> omega
  clear h3 h4
  have v : ((a.toNat - 0xF0) * 262144 + (b.toNat - 0x80) * 4096 +
      (c.toNat - 0x80) * 64 + (d.toNat - 0x80)).isValidChar := by
    unfold Nat.isValidChar
    omega
  unfold String.utf8EncodeChar
  simp only [toNat_char v]
  rw [if_neg (by omega), if_neg (by omega), if_neg (by omega), byte_ext (a := a) (by omega),
    byte_ext (a := b) (by omega), byte_ext (a := c) (by omega), byte_ext (a := d) (by omega)]

theorem byteIn_iff {lo hi : Nat} {b : UInt8} : byteIn lo hi b = true ↔ lo ≤ b.toNat ∧ b.toNat ≤ hi := by
  simp [byteIn]

/-- What the decoder yields encodes to the bytes it was given. -/
theorem decode_sound (bs : List UInt8) : ∀ cs, decodeUtf8 bs = some cs →
    bs = cs.flatMap String.utf8EncodeChar := by
  fun_induction decodeUtf8 bs <;> intro cs h
  case case1 => cases h; rfl
  all_goals try (simp only [reduceCtorEq] at h)
  all_goals
    rename_i ih
    obtain ⟨ds, hd, rfl⟩ := Option.map_eq_some_iff.1 h
    have := ih ds hd
    simp only [List.flatMap_cons]
    rw [← this]
  · rw [enc_one (by assumption)]; rfl
  · rename_i hb
    rw [byteIn_iff] at hb
    rw [enc_two (by omega) (by omega) hb.1 hb.2]; rfl
  · rename_i hb
    simp only [Bool.and_eq_true, byteIn_iff] at hb
    rw [enc_three (by omega) (by omega) hb.1.1 hb.1.2 hb.2.1 hb.2.2]; rfl
  · rename_i hb
    simp only [Bool.and_eq_true, byteIn_iff] at hb
    rw [enc_four (by omega) (by omega) hb.1.1.1 hb.1.1.2 hb.1.2.1 hb.1.2.2 hb.2.1 hb.2.2]; rfl

theorem toNat_byte {n : Nat} (h : n < 256) : (UInt8.ofNat n).toNat = n := by
  simp [Nat.mod_eq_of_lt h]

/-- The decoder takes the bytes of one character off the front. -/
theorem decode_char (ch : Char) (rest : List UInt8) :
    decodeUtf8 (String.utf8EncodeChar ch ++ rest) = (decodeUtf8 rest).map (ch :: ·) := by
  have hv := valid_char ch
  have hc := ofNat_val ch
  unfold String.utf8EncodeChar
  generalize ch.val.toNat = v at hv hc
  simp only
  by_cases h1 : v ≤ 0x7f
  · rw [if_pos h1]
    simp only [List.cons_append, List.nil_append]
    conv => lhs; unfold decodeUtf8
    rw [toNat_byte (by omega), if_pos (by omega), hc]
  rw [if_neg h1]
  by_cases h2 : v ≤ 0x7ff
  · rw [if_pos h2]
    simp only [List.cons_append, List.nil_append]
    conv => lhs; unfold decodeUtf8
    rw [toNat_byte (by omega), if_neg (by omega), if_neg (by omega), if_pos (by omega)]
    simp only
    rw [if_pos (by rw [byteIn_iff, toNat_byte (by omega)]; omega), toNat_byte (by omega)]
    have : (v / 64 % 32 + 0xC0 - 0xC0) * 64 + (v % 64 + 0x80 - 0x80) = v := by omega
    rw [this, hc]
  rw [if_neg h2]
  by_cases h3 : v ≤ 0xffff
  · rw [if_pos h3]
    simp only [List.cons_append, List.nil_append]
    conv => lhs; unfold decodeUtf8
    rw [toNat_byte (by omega), if_neg (by omega), if_neg (by omega), if_neg (by omega),
      if_pos (by omega)]
    simp only
    rw [if_pos (by
      simp only [Bool.and_eq_true, byteIn_iff]
      rw [toNat_byte (by omega), toNat_byte (by omega)]
      refine ⟨⟨?_, ?_⟩, ?_, ?_⟩
      · split <;> omega
      · split <;> omega
      · omega
      · omega), toNat_byte (by omega), toNat_byte (by omega)]
    have : (v / 4096 % 16 + 0xE0 - 0xE0) * 4096 + (v / 64 % 64 + 0x80 - 0x80) * 64 +
      (v % 64 + 0x80 - 0x80) = v := by omega
    rw [this, hc]
  · rw [if_neg h3]
    simp only [List.cons_append, List.nil_append]
    conv => lhs; unfold decodeUtf8
    rw [toNat_byte (by omega), if_neg (by omega), if_neg (by omega), if_neg (by omega),
      if_neg (by omega), if_pos (by omega)]
    simp only
    rw [if_pos (by
      simp only [Bool.and_eq_true, byteIn_iff]
      rw [toNat_byte (by omega), toNat_byte (by omega), toNat_byte (by omega)]
      refine ⟨⟨⟨?_, ?_⟩, ?_, ?_⟩, ?_, ?_⟩
      · split <;> omega
      · split <;> omega
      · omega
      · omega
      · omega
      · omega), toNat_byte (by omega), toNat_byte (by omega), toNat_byte (by omega)]
    have : (v / 262144 % 8 + 0xF0 - 0xF0) * 262144 + (v / 4096 % 64 + 0x80 - 0x80) * 4096 +
      (v / 64 % 64 + 0x80 - 0x80) * 64 + (v % 64 + 0x80 - 0x80) = v := by omega
    rw [this, hc]

theorem decode_complete (cs : List Char) : decodeUtf8 (cs.flatMap String.utf8EncodeChar) = some cs := by
  induction cs with
  | nil => rfl
  | cons c cs ih => rw [List.flatMap_cons, decode_char, ih]; rfl

theorem decode_iff (bs : List UInt8) (cs : List Char) :
    decodeUtf8 bs = some cs ↔ bs = cs.flatMap String.utf8EncodeChar :=
  ⟨decode_sound bs cs, fun h => h ▸ decode_complete cs⟩

theorem decode_ascii {bs : List UInt8} (h : ∀ b ∈ bs, b.toNat < 128) : decodeUtf8 bs = decodeLatin1 bs := by
  induction bs with
  | nil => rfl
  | cons b bs ih =>
    conv => lhs; unfold decodeUtf8
    rw [if_pos (h b (by simp)), ih fun x hx => h x (by simp [hx])]
    rfl

end Pycep
