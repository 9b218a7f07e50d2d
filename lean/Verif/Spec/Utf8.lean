import Verif.Tree
/-
UTF-8 as an encoding of texts (the encoding of one character is the one of the Lean library), and what
encodings have in common.
-/
namespace Pycep

/-- The UTF-8 bytes of a text. -/
def utf8Bytes (t : String) : List UInt8 := t.toList.flatMap String.utf8EncodeChar

/-- An encoding that extends ASCII (UTF-8, Latin-1, the Windows code pages): bytes below 128 are the
characters with these numbers. -/
def ExtendsAscii (decode : List UInt8 → Option (List Char)) : Prop :=
  ∀ bs : List UInt8, (∀ b ∈ bs, b.toNat < 128) → decode bs = some (bs.map fun b => Char.ofNat b.toNat)

end Pycep
