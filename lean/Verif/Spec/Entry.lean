import Verif.Spec.Header
import Verif.Lemmas.Bytes
import Verif.Model.Partition
/-!
# Specification: a 128-byte partition entry

The offsets of UEFI 2.10, table 5.6, stated on device bytes.
-/

namespace Gpt.Spec

/-- The `i`th of the 36 name units of the entry at `off`. -/
def nameUnit (data : Bytes) (off i : Nat) : UInt16 := UInt16.ofNat (num data (off + 56 + 2 * i) 2)

/-- The fields of `p` are those stored at `off`; the name ends at the first zero unit. -/
structure EntryAt (data : Bytes) (off : Nat) (p : Partition) : Prop where
  type : guidBytes p.partType.guid = (slice data off 16).map UInt8.toNat
  guid : guidBytes p.partGuid = (slice data (off + 16) 16).map UInt8.toNat
  first : p.firstLba.toNat = num data (off + 32) 8
  last : p.lastLba.toNat = num data (off + 40) 8
  flags : p.flags.toNat = num data (off + 48) 8
  name : p.name = fromUtf16Lossy (((List.range 36).map (nameUnit data off)).takeWhile (· != 0))

/-- Slot `j` of the array at `off` holds something. -/
def SlotFull (data : Bytes) (off j : Nat) : Prop := ∃ i, i < 128 ∧ byteAt data (off + 128 * j + i) ≠ 0

end Gpt.Spec
