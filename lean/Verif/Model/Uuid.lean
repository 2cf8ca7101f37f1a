import Verif.Model.Device
/-!
# UUIDs

Models the part of `uuid::Uuid` (crate `uuid` 1.5) the library uses, and `header::parse_uuid`.
-/

namespace Gpt

/-- A UUID by its fields, as `Uuid::as_fields` / `Uuid::from_fields` present it. The last field, eight bytes in Rust, is
kept as one number, most significant byte first. (src/partition.rs:69, src/header/mod.rs:254) -/
structure Uuid where
  d1 : UInt32
  d2 : UInt16
  d3 : UInt16
  d4 : UInt64
  deriving DecidableEq, Repr

namespace Uuid

/-- `Uuid::nil()`. (src/partition.rs:55) -/
def nil : Uuid := ⟨0, 0, 0, 0⟩

/-- The 16 bytes written to disk: the first three fields little endian, the rest as is
(src/header/mod.rs:227-230, src/partition.rs:67-80). -/
def toDisk (u : Uuid) : Bytes := le32 u.d1 ++ le16 u.d2 ++ le16 u.d3 ++ be64 u.d4

/-- The UUID in the 16 bytes at offset `off` (src/header/mod.rs:249-255). -/
def ofDisk (b : Bytes) (off : Nat) : Uuid := ⟨rd32 b off, rd16 b (off + 4), rd16 b (off + 6), rdBe64 b (off + 8)⟩

/-- `parse_uuid` on a reader with `rest` remaining: the UUID and what remains after it (src/header/mod.rs:240-256). -/
def parse (rest : Bytes) : Res IoErr (Uuid × Bytes) :=
  if rest.length < 16 then .err .unexpectedEof else .ok (ofDisk rest 0, rest.drop 16)

/-- From the 128-bit number spelled by the hexadecimal digits (`Uuid::from_bytes`, big endian). (src/macros.rs:13) -/
def ofNat (n : Nat) : Uuid :=
  ⟨UInt32.ofNat (n / 2 ^ 96), UInt16.ofNat (n / 2 ^ 80), UInt16.ofNat (n / 2 ^ 64), UInt64.ofNat n⟩

/-- Value of an ASCII hexadecimal digit (`HEX_TABLE` of `uuid::parser`). (src/macros.rs:13) -/
def hexVal (c : UInt8) : Option Nat :=
  if 48 ≤ c ∧ c ≤ 57 then some (c.toNat - 48)
  else if 65 ≤ c ∧ c ≤ 70 then some (c.toNat - 55)
  else if 97 ≤ c ∧ c ≤ 102 then some (c.toNat - 87)
  else none

/-- Value of a string of hexadecimal digits, most significant first. (src/macros.rs:13) -/
def parseHex (acc : Nat) : Bytes → Option Nat
  | [] => some acc
  | c :: cs => match hexVal c with
    | some v => parseHex (16 * acc + v) cs
    | none => none

/-- `uuid::parser::parse_simple` on 32 bytes. (src/macros.rs:13) -/
def parseSimple (s : Bytes) : Option Uuid := (parseHex 0 s).map ofNat

/-- `uuid::parser::parse_hyphenated`: 8-4-4-4-12 digits with `-` (45) between. (src/macros.rs:13) -/
def parseHyphenated (s : Bytes) : Option Uuid :=
  if s.length = 36 ∧ rd8 s 8 = 45 ∧ rd8 s 13 = 45 ∧ rd8 s 18 = 45 ∧ rd8 s 23 = 45 then
    parseSimple (slice s 0 8 ++ slice s 9 4 ++ slice s 14 4 ++ slice s 19 4 ++ slice s 24 12)
  else none

/-- `Uuid::try_parse` / `Uuid::from_str` on the UTF-8 bytes of the string (`uuid::parser::try_parse`): 32 digits,
hyphenated, `{hyphenated}` or `urn:uuid:hyphenated`. (src/macros.rs:13, src/macros.rs:38) -/
def tryParse (s : Bytes) : Option Uuid :=
  if s.length = 32 then parseSimple s
  else if s.length = 36 then parseHyphenated s
  else if s.length = 38 ∧ rd8 s 0 = 123 ∧ rd8 s 37 = 125 then parseHyphenated (slice s 1 36)
  else if s.length = 45 ∧ slice s 0 9 = [117, 114, 110, 58, 117, 117, 105, 100, 58] then parseHyphenated (slice s 9 36)
  else none

end Uuid

end Gpt
