import Verif.ReadText
/-
The bytes of a file: `pathlib.Path.read_text()` (called in main.py:42 without an encoding) opens the file
with the encoding of the locale and strict error handling.  Modelled are two choices:
UTF-8 (the usual default outside Windows) and Latin-1 (as an example of another encoding).
-/
namespace Pycep

/-- A continuation byte whose value lies in the given range. -/
def byteIn (lo hi : Nat) (b : UInt8) : Bool := lo ≤ b.toNat && b.toNat ≤ hi

/-- The strict UTF-8 decoder of Python (`utf8_decode` in CPython's Objects/stringlib/codecs.h, reached
from main.py:42): shortest forms only, no surrogates, nothing above U+10FFFF.  `none` stands for
`UnicodeDecodeError`. -/
def decodeUtf8 : List UInt8 → Option (List Char)
  | [] => some []
  | a :: s =>
    if a.toNat < 0x80 then (decodeUtf8 s).map (Char.ofNat a.toNat :: ·)
    else if a.toNat < 0xC2 then none
    else if a.toNat < 0xE0 then
      match s with
      | b :: s =>
        if byteIn 0x80 0xBF b then
          (decodeUtf8 s).map (Char.ofNat ((a.toNat - 0xC0) * 64 + (b.toNat - 0x80)) :: ·)
        else none
      | _ => none
    else if a.toNat < 0xF0 then
      match s with
      | b :: c :: s =>
        if byteIn (if a.toNat = 0xE0 then 0xA0 else 0x80) (if a.toNat = 0xED then 0x9F else 0xBF) b &&
            byteIn 0x80 0xBF c then
          (decodeUtf8 s).map (Char.ofNat
            ((a.toNat - 0xE0) * 4096 + (b.toNat - 0x80) * 64 + (c.toNat - 0x80)) :: ·)
        else none
      | _ => none
    else if a.toNat < 0xF5 then
      match s with
      | b :: c :: d :: s =>
        if byteIn (if a.toNat = 0xF0 then 0x90 else 0x80) (if a.toNat = 0xF4 then 0x8F else 0xBF) b &&
            byteIn 0x80 0xBF c && byteIn 0x80 0xBF d then
          (decodeUtf8 s).map (Char.ofNat ((a.toNat - 0xF0) * 262144 + (b.toNat - 0x80) * 4096 +
            (c.toNat - 0x80) * 64 + (d.toNat - 0x80)) :: ·)
        else none
      | _ => none
    else none

/-- Latin-1 (`ISO-8859-1`): every byte is the character with its number. -/
def decodeLatin1 (bs : List UInt8) : Option (List Char) := some (bs.map fun b => Char.ofNat b.toNat)

/-- A path to a file with the bytes `bs`, read with the given decoder (main.py:42:
`file_path.read_text()`): the bytes are decoded, then line ends are translated.  A `UnicodeDecodeError`
is, like an `OSError`, an exception `read_text` raises before anything else happens. -/
def PathArg.ofBytes (decode : List UInt8 → Option (List Char)) (name : String) (bs : List UInt8) : PathArg :=
  match decode bs with
  | some cs => ⟨name, .ok (String.ofList (universal cs))⟩
  | none => ⟨name, .error ()⟩

end Pycep
