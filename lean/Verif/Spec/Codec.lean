import Verif.Model.Uuid
/-!
# Specification: GUID bytes

Written from the UEFI specification (appendix A) and RFC 4122, independent of the model's encoders.
-/

namespace Gpt.Spec

/-- The 128-bit number a UUID denotes (the one its hexadecimal digits spell). -/
def uuidNum (u : Uuid) : Nat :=
  u.d1.toNat * 2 ^ 96 + u.d2.toNat * 2 ^ 80 + u.d3.toNat * 2 ^ 64 + u.d4.toNat

/-- Byte `k` (0 = most significant) of a 128-bit number. -/
def byteOf (n k : Nat) : Nat := n / 256 ^ (15 - k) % 256

/-- Mixed-endian order: the first three groups are reversed on disk. -/
def guidOrder : List Nat := [3, 2, 1, 0, 5, 4, 7, 6, 8, 9, 10, 11, 12, 13, 14, 15]

/-- The 16 bytes of a GUID on disk. -/
def guidBytes (u : Uuid) : List Nat := guidOrder.map (byteOf (uuidNum u))

end Gpt.Spec
