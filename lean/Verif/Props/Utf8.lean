import Verif.Props.ApiProps
import Verif.Props.Stray
import Verif.Props.LineEnds
import Verif.Proofs.Utf8
import Verif.Spec.Utf8
/-
C91: the bytes of a file.
-/
namespace Pycep

theorem ofBytes_content {decode name bs cs} (h : decode bs = some cs) :
    PathArg.ofBytes decode name bs = ⟨name, .ok (String.ofList (universal cs))⟩ := by
  unfold PathArg.ofBytes; rw [h]

theorem ofBytes_error {decode name bs} (h : decode bs = none) :
    PathArg.ofBytes decode name bs = ⟨name, .error ()⟩ := by
  unfold PathArg.ofBytes; rw [h]

theorem universal_plain : ∀ {s : List Char}, '\r' ∉ s → universal s = s
  | [], _ => rfl
  | c :: s, h => by
    rw [universal, if_neg (fun e => h (by simp [e])), universal_plain fun m => h (by simp [m])]

theorem io_of_content {P : Parser} {path : PathArg} (h : path.content = .error ()) {noText : Option String}
    (hno : noText = .none ∨ noText = some "") :
    P.parse noText (some path) = .error .io ∧ P.createTree noText (some path) = .error .io := by
  have c : chosenText noText (some path) = .error .io := by
    rcases hno with rfl | rfl <;> simp [chosenText, h]
  have e : createTree' noText (some path) = .error .io := by
    rw [createTree'_eq, c]; rfl
  refine ⟨?_, ?_⟩
  · rw [parse_eq, e]; rfl
  · unfold Parser.createTree; rw [e]; rfl

/-- **C91, the bytes of a text.** The file with the UTF-8 bytes of a text is read as this text (with the
line ends translated); if the text is not empty and has no carriage return, `parse` and `create_tree` give for
the file what they give for the text, whatever characters it consists of (the message of the gate names the
file). -/
theorem C91_file (P : Parser) (name t : String) :
    PathArg.ofBytes decodeUtf8 name (utf8Bytes t) = .ofFile name t ∧
    (t ≠ "" → '\r' ∉ t.toList → ∀ noText : Option String, noText = .none ∨ noText = some "" →
      P.parse noText (some (.ofBytes decodeUtf8 name (utf8Bytes t))) =
        renameGate ⟨name, .ok t⟩ (P.parse (some t) .none) ∧
      P.createTree noText (some (.ofBytes decodeUtf8 name (utf8Bytes t))) =
        renameGate ⟨name, .ok t⟩ (P.createTree (some t) .none)) := by
  have h : PathArg.ofBytes decodeUtf8 name (utf8Bytes t) = .ofFile name t :=
    ofBytes_content (decode_complete t.toList)
  refine ⟨h, fun hne hcr noText hno => ?_⟩
  have e : PathArg.ofFile name t = ⟨name, .ok t⟩ := by
    unfold PathArg.ofFile
    rw [universal_plain hcr, String.ofList_toList]
  rw [h, e]
  exact C03_file_is_text P ⟨name, .ok t⟩ t rfl hne noText hno

/-- **C91, other bytes.** A file whose bytes are not the UTF-8 bytes of any text makes `parse` and
`create_tree` fail with the exception of `read_text`: no byte is skipped or replaced. -/
theorem C91_invalid (P : Parser) (name : String) {bs : List UInt8} (h : ∀ t, bs ≠ utf8Bytes t)
    {noText : Option String} (hno : noText = .none ∨ noText = some "") :
    P.parse noText (some (.ofBytes decodeUtf8 name bs)) = .error .io ∧
    P.createTree noText (some (.ofBytes decodeUtf8 name bs)) = .error .io := by
  have e : decodeUtf8 bs = none := by
    cases hd : decodeUtf8 bs with
    | none => rfl
    | some cs => exact absurd (by simpa [utf8Bytes] using decode_sound bs cs hd) (h (String.ofList cs))
  refine io_of_content ?_ hno
  rw [ofBytes_error e]

/-- **C91, results.** Whatever `parse` returns for a file is its result for a text, and the bytes of the file
are the UTF-8 bytes of that text; there is only one such text. -/
theorem C91_success (P : Parser) (name : String) {bs : List UInt8} {v : Val}
    (h : P.parse .none (some (.ofBytes decodeUtf8 name bs)) = .ok v) :
    ∃ t, bs = utf8Bytes t ∧ P.parse .none (some (.ofFile name t)) = .ok v ∧ ∀ t', bs = utf8Bytes t' → t' = t := by
  cases hd : decodeUtf8 bs with
  | none =>
    rw [ofBytes_error hd, (io_of_content rfl (.inl rfl)).1] at h
    cases h
  | some cs =>
    have hb : bs = utf8Bytes (String.ofList cs) := by simpa [utf8Bytes] using decode_sound bs cs hd
    refine ⟨_, hb, ?_, fun t' ht => ?_⟩
    · rw [← (C91_file P name _).1, ← hb]; exact h
    · rw [ht] at hd
      have := decode_complete t'.toList
      rw [show t'.toList.flatMap String.utf8EncodeChar = utf8Bytes t' from rfl, hd] at this
      rw [Option.some.inj this, String.ofList_toList]

theorem utf8_extendsAscii : ExtendsAscii decodeUtf8 := fun _ h => decode_ascii h

theorem latin1_extendsAscii : ExtendsAscii decodeLatin1 := fun _ _ => rfl

/-- **C91, ASCII files.** `read_text` is called without an encoding, so it uses that of the locale.  For a file
of ASCII characters this makes no difference, as long as the encoding extends ASCII. -/
theorem C91_ascii (P : Parser) (name : String) {d1 d2 : List UInt8 → Option (List Char)}
    (h1 : ExtendsAscii d1) (h2 : ExtendsAscii d2) {bs : List UInt8} (h : ∀ b ∈ bs, b.toNat < 128)
    (text : Option String) :
    P.parse text (some (.ofBytes d1 name bs)) = P.parse text (some (.ofBytes d2 name bs)) ∧
    P.createTree text (some (.ofBytes d1 name bs)) = P.createTree text (some (.ofBytes d2 name bs)) := by
  rw [ofBytes_content (h1 bs h), ofBytes_content (h2 bs h)]
  exact ⟨rfl, rfl⟩

/-- **C91, UTF-16.** A file that starts with one of the byte order marks of UTF-16 (with any byte from 0xF5 on)
is not parsed. -/
theorem C91_utf16 (P : Parser) (name : String) {b : UInt8} {bs : List UInt8} (hb : 0xF5 ≤ b.toNat)
    {noText : Option String} (hno : noText = .none ∨ noText = some "") :
    P.parse noText (some (.ofBytes decodeUtf8 name (b :: bs))) = .error .io ∧
    P.createTree noText (some (.ofBytes decodeUtf8 name (b :: bs))) = .error .io := by
  have e : decodeUtf8 (b :: bs) = none := by
    unfold decodeUtf8
    rw [if_neg (by omega), if_neg (by omega), if_neg (by omega), if_neg (by omega), if_neg (by omega)]
  refine io_of_content ?_ hno
  rw [ofBytes_error e]

/-- **C91, the byte order mark of UTF-8.** A file that starts with the bytes EF BB BF, as some editors write
it, is never parsed, whatever follows: by C85 if the rest is the bytes of a text, and with the exception of
`read_text` otherwise. -/
theorem C91_bom (P : Parser) (name : String) (bs : List UInt8) (v : Val) :
    P.parse .none (some (.ofBytes decodeUtf8 name (0xEF :: 0xBB :: 0xBF :: bs))) ≠ .ok v := by
  intro h
  obtain ⟨t, ht, hp, _⟩ := C91_success P name h
  have hd : decodeUtf8 (0xEF :: 0xBB :: 0xBF :: bs) = some t.toList := (decode_iff _ _).2 ht
  rw [show (0xEF :: 0xBB :: 0xBF :: bs : List UInt8) = String.utf8EncodeChar '\uFEFF' ++ bs by
    rw [show String.utf8EncodeChar '\uFEFF' = [0xEF, 0xBB, 0xBF] by decide +kernel]; rfl, decode_char] at hd
  obtain ⟨s, _, hs⟩ := Option.map_eq_some_iff.1 hd
  have e : PathArg.ofFile name t = ⟨name, .ok ("\uFEFF" ++ String.ofList (universal s))⟩ := by
    unfold PathArg.ofFile
    rw [← hs, universal, if_neg (by decide)]
    congr 2
    apply String.toList_inj.1
    simp
  rw [e] at hp
  obtain ⟨n, hn, _⟩ := C02_count (String.ofList (universal s)).toList
  obtain ⟨h1, h2⟩ := C85_bom P name (String.ofList (universal s)) hn
  rcases Nat.mod_two_eq_zero_or_one n with h0 | h0
  · rw [(h2 h0).1] at hp; cases hp
  · rw [h1 h0] at hp; cases hp

/-! ### Examples -/

/-- bytes of a document with a character outside ASCII -/
def accentBytes : List UInt8 :=
  [112, 97, 114, 97, 109, 32, 112, 32, 115, 116, 114, 105, 110, 103, 32, 61, 32, 39, 0xC3, 0xA9, 39, 10]

example : accentBytes = utf8Bytes "param p string = 'é'\n" := by decide +kernel

/-- With UTF-8 the file has the default that was written, with Latin-1 another one. -/
example :
    (Parser.mk false).parse .none (some (.ofBytes decodeUtf8 "a.bicep" accentBytes)) =
      .ok (.dict [("globals", .dict [("scope", .dict [("value", .str "resourceGroup")])]),
        ("parameters", .dict [("p", .dict [("decorators", .list []), ("type", .str "string"),
          ("default", .str "é")])])]) ∧
    (Parser.mk false).parse .none (some (.ofBytes decodeLatin1 "a.bicep" accentBytes)) =
      .ok (.dict [("globals", .dict [("scope", .dict [("value", .str "resourceGroup")])]),
        ("parameters", .dict [("p", .dict [("decorators", .list []), ("type", .str "string"),
          ("default", .str "Ã©")])])]) :=
  ⟨eq_of_outIs (by decide +kernel), eq_of_outIs (by decide +kernel)⟩

/-- The same document saved as Latin-1: the byte E9 is followed by no continuation byte, so no text has these
bytes and the file is not read. -/
example : let bs : List UInt8 := [112, 97, 114, 97, 109, 32, 112, 32, 115, 116, 114, 105, 110, 103, 32, 61, 32, 39,
      0xE9, 39, 10]
    (∀ t, bs ≠ utf8Bytes t) ∧ (Parser.mk false).parse .none (some (.ofBytes decodeUtf8 "a.bicep" bs)) = .error .io := by
  intro bs
  have h : ∀ t, bs ≠ utf8Bytes t := by
    intro t ht
    have := (decode_iff _ _).2 ht
    rw [show decodeUtf8 bs = none by decide +kernel] at this
    cases this
  exact ⟨h, (C91_invalid _ _ h (.inl rfl)).1⟩

/-- an overlong form, a surrogate, a number that is too large, a character that is cut off: none is read -/
example : decodeUtf8 [0xC0, 0xAF] = none ∧ decodeUtf8 [0xED, 0xA0, 0x80] = none ∧
    decodeUtf8 [0xF4, 0x90, 0x80, 0x80] = none ∧ decodeUtf8 [0x61, 0xE2, 0x82] = none ∧
    decodeUtf8 [0xF0, 0x9F, 0x98, 0x80] = some ['😀'] ∧ decodeUtf8 [0xE2, 0x82, 0xAC] = some ['€'] := by
  decide +kernel

/-- an ASCII file meets the hypothesis of `C91_ascii` -/
example : ∀ b ∈ utf8Bytes "var x = 1\n", b.toNat < 128 := by decide +kernel

end Pycep
