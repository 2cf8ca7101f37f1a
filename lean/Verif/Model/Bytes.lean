/-!
# Fixed-width integers as bytes

Models `u16/u32/u64::to_le_bytes` and the readers and writers of the `simple_bytes` crate used by
`src/header/mod.rs`, `src/partition.rs` and `src/mbr.rs` (`read_le_u16`, `write_le_u32`, ...).
-/

namespace Gpt

/-- Buffers, e.g. src/partition.rs:65. -/
abbrev Bytes := List UInt8

/-- The value of a little-endian byte string. (src/header/mod.rs:339-356) -/
def leVal : Bytes → Nat
  | [] => 0
  | b :: bs => b.toNat + 256 * leVal bs

/-- The `k` low bytes of `n`, little endian. (src/header/mod.rs:217-234) -/
def leBytes : Nat → Nat → Bytes
  | 0, _ => []
  | k + 1, n => UInt8.ofNat (n % 256) :: leBytes k (n / 256)

/-- `u16::to_le_bytes` / `write_le_u16`. (e.g. src/header/mod.rs:217) -/
def le16 (x : UInt16) : Bytes := leBytes 2 x.toNat
/-- `u32::to_le_bytes` / `write_le_u32`. (e.g. src/header/mod.rs:219) -/
def le32 (x : UInt32) : Bytes := leBytes 4 x.toNat
/-- `u64::to_le_bytes` / `write_le_u64`. (e.g. src/header/mod.rs:223) -/
def le64 (x : UInt64) : Bytes := leBytes 8 x.toNat
/-- The eight bytes of a UUID's last field, most significant first. (src/partition.rs:73, src/partition.rs:80) -/
def be64 (x : UInt64) : Bytes := (leBytes 8 x.toNat).reverse

/-- The `n` bytes of `b` from offset `off`, fewer if `b` ends before. (e.g. src/partition.rs:269) -/
def slice (b : Bytes) (off n : Nat) : Bytes := (b.drop off).take n

/-- `read_le_u16` of the two bytes at `off`. (e.g. src/header/mod.rs:250) -/
def rd16 (b : Bytes) (off : Nat) : UInt16 := UInt16.ofNat (leVal (slice b off 2))
/-- `read_le_u32` of the four bytes at `off`. (e.g. src/header/mod.rs:249) -/
def rd32 (b : Bytes) (off : Nat) : UInt32 := UInt32.ofNat (leVal (slice b off 4))
/-- `read_le_u64` of the eight bytes at `off`. (e.g. src/header/mod.rs:346) -/
def rd64 (b : Bytes) (off : Nat) : UInt64 := UInt64.ofNat (leVal (slice b off 8))
/-- Eight bytes, most significant first. (src/header/mod.rs:241-256) -/
def rdBe64 (b : Bytes) (off : Nat) : UInt64 := UInt64.ofNat (leVal (slice b off 8).reverse)
/-- `read_u8`. (e.g. src/mbr.rs:333) -/
def rd8 (b : Bytes) (off : Nat) : UInt8 := (b.drop off).headD 0

/-- `n` zero bytes. (e.g. src/partition.rs:165) -/
def zeros (n : Nat) : Bytes := List.replicate n 0

/-- `Vec::resize(n, 0)`: cut or extend with zeros to exactly `n` bytes. (src/partition.rs:93, src/header/mod.rs:198) -/
def resize (b : Bytes) (n : Nat) : Bytes := b.take n ++ zeros (n - b.length)

end Gpt
