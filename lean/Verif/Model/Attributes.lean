/-!
# Partition attributes

Models `PartitionAttributes` (src/partition.rs:21-31) and the methods the `bitflags` crate (2.x, Cargo.toml:25) generates for it.
`Partition::flags` (src/partition.rs:45) is a plain `u64`; nothing else in the library uses this type.
-/

namespace Gpt

/-- `PartitionAttributes` (src/partition.rs:23): a wrapper around `u64`. -/
structure Attributes where
  bits : UInt64
  deriving DecidableEq, Repr

namespace Attributes

/-- `PLATFORM` (src/partition.rs:25). -/
def platform : Attributes := ⟨1⟩
/-- `EFI` (src/partition.rs:27). -/
def efi : Attributes := ⟨(1 : UInt64) <<< 1⟩
/-- `BOOTABLE` (src/partition.rs:29). -/
def bootable : Attributes := ⟨(1 : UInt64) <<< 2⟩

/-- `empty` (bitflags). (src/partition.rs:21-31) -/
def empty : Attributes := ⟨0⟩
/-- `all` (bitflags): the union of the flags declared (src/partition.rs:25-29). -/
def all : Attributes := ⟨platform.bits ||| efi.bits ||| bootable.bits⟩
/-- `from_bits_retain` (bitflags). (src/partition.rs:21-31) -/
def fromBitsRetain (b : UInt64) : Attributes := ⟨b⟩
/-- `from_bits_truncate` (bitflags): unknown bits are dropped. (src/partition.rs:21-31) -/
def fromBitsTruncate (b : UInt64) : Attributes := ⟨b &&& all.bits⟩
/-- `from_bits` (bitflags): `None` when there are unknown bits. (src/partition.rs:21-31) -/
def fromBits (b : UInt64) : Option Attributes := if (fromBitsTruncate b).bits = b then some (fromBitsTruncate b) else none
/-- `contains` (bitflags). (src/partition.rs:21-31) -/
def contains (a b : Attributes) : Bool := a.bits &&& b.bits == b.bits
/-- `intersects` (bitflags). (src/partition.rs:21-31) -/
def intersects (a b : Attributes) : Bool := a.bits &&& b.bits != 0
/-- `is_empty` (bitflags). (src/partition.rs:21-31) -/
def isEmpty (a : Attributes) : Bool := a.bits == 0
/-- `is_all` (bitflags): unknown bits do not matter. (src/partition.rs:21-31) -/
def isAll (a : Attributes) : Bool := all.bits ||| a.bits == a.bits
/-- `union`, `insert` and `|` (bitflags). (src/partition.rs:21-31) -/
def union (a b : Attributes) : Attributes := ⟨a.bits ||| b.bits⟩
/-- `intersection` and `&` (bitflags). (src/partition.rs:21-31) -/
def intersection (a b : Attributes) : Attributes := ⟨a.bits &&& b.bits⟩
/-- `difference`, `remove` and `-` (bitflags). (src/partition.rs:21-31) -/
def difference (a b : Attributes) : Attributes := ⟨a.bits &&& ~~~b.bits⟩
/-- `symmetric_difference`, `toggle` and `^` (bitflags). (src/partition.rs:21-31) -/
def toggle (a b : Attributes) : Attributes := ⟨a.bits ^^^ b.bits⟩
/-- `complement` and `!` (bitflags): unknown bits are dropped. (src/partition.rs:21-31) -/
def complement (a : Attributes) : Attributes := fromBitsTruncate (~~~a.bits)
/-- `set` (bitflags). (src/partition.rs:21-31) -/
def set (a b : Attributes) (v : Bool) : Attributes := if v then a.union b else a.difference b

end Attributes

end Gpt
