import Verif.Spec.Sane
import Verif.Spec.Name
/-!
# Specification: what a write stores of a table

The used partitions in order of id, numbered afresh from 1. Names are kept as far as they fit 36 UTF-16 units.
-/

namespace Gpt.Spec

/-- `q` is what comes back of `p`. -/
structure SameEntry (p q : Partition) : Prop where
  type : q.partType.guid = p.partType.guid
  guid : q.partGuid = p.partGuid
  first : q.firstLba = p.firstLba
  last : q.lastLba = p.lastLba
  flags : q.flags = p.flags
  name : q.name.toList = storedName 36 p.name.toList

/-- `t` holds what comes back of `ps`, numbered 1, 2, … -/
structure Numbered (ps : List Partition) (t : PMap) : Prop where
  length : t.length = ps.length
  entries : ∀ j (hj : j < ps.length), ∃ k q, t[j]? = some (k, q) ∧ k.toNat = j + 1 ∧ SameEntry ps[j] q

/-- The array of `n` 128-byte slots at byte `off` holds `ps`, then zeros. -/
def ArrayHolds (data : Bytes) (off n : Nat) (ps : List Partition) : Prop :=
  ∀ j, j < n → slice data (off + 128 * j) 128 = match ps[j]? with
    | some p => p.asBytes 128
    | none => zeros 128

end Gpt.Spec
