/-!
# UTF-16

Models `str::encode_utf16` and `String::from_utf16_lossy` of the Rust standard library, used for partition names
(src/partition.rs:88, 298).
-/

namespace Gpt

/-- `char::encode_utf16`. (src/partition.rs:88) -/
def encodeChar (c : Char) : List UInt16 :=
  if c.toNat < 0x10000 then [UInt16.ofNat c.toNat]
  else [UInt16.ofNat (0xD800 + (c.toNat - 0x10000) / 0x400), UInt16.ofNat (0xDC00 + (c.toNat - 0x10000) % 0x400)]

/-- `str::encode_utf16`. (src/partition.rs:88) -/
def encodeUtf16 (s : String) : List UInt16 := s.toList.flatMap encodeChar

/-- U+FFFD REPLACEMENT CHARACTER. (src/partition.rs:298) -/
def replacementChar : Char := Char.ofNat 0xFFFD

/-- `char::decode_utf16` with every error replaced by U+FFFD: an unpaired surrogate consumes one unit. (src/partition.rs:298) -/
def decodeUnits : List UInt16 → List Char
  | [] => []
  | u :: rest =>
    if u < 0xD800 ∨ 0xDFFF < u then Char.ofNat u.toNat :: decodeUnits rest
    else if 0xDC00 ≤ u then replacementChar :: decodeUnits rest
    else match rest with
      | [] => [replacementChar]
      | u2 :: rest2 =>
        if 0xDC00 ≤ u2 ∧ u2 ≤ 0xDFFF then
          Char.ofNat (0x10000 + (u.toNat - 0xD800) * 0x400 + (u2.toNat - 0xDC00)) :: decodeUnits rest2
        else replacementChar :: decodeUnits (u2 :: rest2)

/-- `String::from_utf16_lossy`. (src/partition.rs:298) -/
def fromUtf16Lossy (us : List UInt16) : String := String.ofList (decodeUnits us)

end Gpt
