import Verif.Model.Header
/-!
# Specification: where things are on a GPT disk

In logical blocks: LBA 0 (MBR), the primary header, the primary partition array, the usable range, the backup partition
array, the backup header.
-/

namespace Gpt.Spec

/-- `k` blocks hold `n` bytes, and `k - 1` do not. -/
structure JustEnough (lb : LbSize) (n k : Nat) : Prop where
  enough : n ≤ k * lb.usize
  minimal : ∀ j, n ≤ j * lb.usize → k ≤ j

/-- The regions of a header pair, in disk order and disjoint: `k` is the number of blocks of one array. -/
structure Layout (lb : LbSize) (k : Nat) (p b : Header) : Prop where
  arrays : JustEnough lb (p.numParts.toNat * p.partSize.toNat) k
  sameCount : b.numParts = p.numParts
  sameEntry : b.partSize = p.partSize
  primaryHeader : p.currentLba.toNat = 1
  primaryArray : p.partStart.toNat = 2
  afterArray : p.partStart.toNat + k ≤ p.firstUsable.toNat
  usable : p.firstUsable.toNat ≤ p.lastUsable.toNat
  backupArray : p.lastUsable.toNat < b.partStart.toNat
  backupHeader : b.partStart.toNat + k ≤ b.currentLba.toNat
  backupAt : b.currentLba = p.backupLba

end Gpt.Spec
