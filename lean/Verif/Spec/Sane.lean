import Verif.Spec.Layout
import Verif.Model.Gpt
/-!
# Specification: a disk whose header describes a layout that fits the device

The header in use may be the primary (at LBA 1) or, on a disk opened from its backup, the one at LBA `B`. The arrays take `k`
blocks; the usable range leaves room for the primary array after LBA 1 and for the backup array before LBA `B`.
-/

namespace Gpt.Spec

/-- `h` describes a layout with arrays of `k` blocks and the backup header at LBA `B`. -/
structure SaneHeader (lb : LbSize) (k B : Nat) (h : Header) : Prop where
  entry : h.partSize = 128
  count : h.numParts.toNat * 128 < 2 ^ 32
  arrays : JustEnough lb (h.numParts.toNat * 128) k
  lbas : (h.currentLba.toNat = 1 ∧ h.backupLba.toNat = B) ∨ (h.currentLba.toNat = B ∧ h.backupLba.toNat = 1)
  first : 2 + k ≤ h.firstUsable.toNat
  usable : h.firstUsable.toNat ≤ h.lastUsable.toNat
  last : h.lastUsable.toNat + k + 1 ≤ B

/-- The disk has a header and the layout it describes fits the device. -/
structure SaneDisk (s : GptDisk) (h : Header) (k B : Nat) : Prop where
  header : s.header (ε := Empty) = .ok h
  sane : SaneHeader s.config.lbSize k B h
  fits : (B + 1) * s.config.lbSize.usize ≤ s.device.data.length
  length : s.device.data.length < 2 ^ 64

/-- The entries `write` stores: the used ones, in order of id. -/
def used (t : PMap) : List Partition := (t.map Prod.snd).filter fun p => p.partType.guid != Uuid.nil

/-- Byte `i` belongs to a primary header block or primary array of `n` entries. -/
def InPrimary (lb : LbSize) (n : Nat) (i : Nat) : Prop := lb.usize ≤ i ∧ i < 2 * lb.usize + n * 128

/-- Byte `i` belongs to a backup array of `n` entries in `k` blocks or to the backup header block at LBA `B`. -/
def InBackup (lb : LbSize) (n k B : Nat) (i : Nat) : Prop :=
  ((B - k) * lb.usize ≤ i ∧ i < (B - k) * lb.usize + n * 128) ∨ (B * lb.usize ≤ i ∧ i < (B + 1) * lb.usize)

end Gpt.Spec
