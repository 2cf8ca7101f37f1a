import Verif.Model.Partition
import Verif.Model.Mbr
import Verif.Lemmas.Bytes
/-!
# Reading back what was laid out
-/

namespace Gpt

/-- The first block of a concatenation. -/
theorem slice_head {a b : Bytes} {n : Nat} (h : a.length = n) : slice (a ++ b) 0 n = a := by
  rw [slice_append_left (by omega), slice_zero_length h]

/-- Skip the first block of a concatenation. -/
theorem slice_skip {a b : Bytes} {off n : Nat} (h : a.length ≤ off) :
    slice (a ++ b) off n = slice b (off - a.length) n := slice_append_right h

theorem byteAt_skip {a b : Bytes} {i : Nat} (h : a.length ≤ i) : byteAt (a ++ b) i = byteAt b (i - a.length) := by
  rw [byteAt_append, if_neg (by omega)]

/-! ## Block sizes -/

theorem lb_u64_toNat (lb : LbSize) : lb.u64.toNat = lb.usize := by cases lb <;> rfl
theorem lb_pos (lb : LbSize) : 0 < lb.usize := by cases lb <;> decide
theorem lb_le (lb : LbSize) : 512 ≤ lb.usize := by cases lb <;> decide
theorem lb_ge (lb : LbSize) : lb.usize ≤ 4096 := by cases lb <;> decide

/-! ## UUIDs -/

@[simp] theorem Uuid.toDisk_length (u : Uuid) : u.toDisk.length = 16 := by simp [Uuid.toDisk]

theorem Uuid.ofDisk_eq (b : Bytes) (off : Nat) : Uuid.ofDisk b off = Uuid.ofDisk (slice b off 16) 0 := by
  simp only [Uuid.ofDisk, rd32, rd16, rdBe64]
  rw [slice_slice (by omega), slice_slice (by omega), slice_slice (by omega), slice_slice (by omega)]
  rfl

theorem Uuid.ofDisk_toDisk (u : Uuid) : Uuid.ofDisk u.toDisk 0 = u := by
  have h1 : slice u.toDisk 0 4 = le32 u.d1 := by
    simp only [Uuid.toDisk, List.append_assoc]; exact slice_head (by simp)
  have h2 : slice u.toDisk 4 2 = le16 u.d2 := by
    simp only [Uuid.toDisk, List.append_assoc]; rw [slice_skip (by simp)]; exact slice_head (by simp)
  have h3 : slice u.toDisk 6 2 = le16 u.d3 := by
    simp only [Uuid.toDisk, List.append_assoc]; rw [slice_skip (by simp), slice_skip (by simp)]
    exact slice_head (by simp)
  have h4 : slice u.toDisk 8 8 = be64 u.d4 := by
    simp only [Uuid.toDisk, List.append_assoc]
    rw [slice_skip (by simp), slice_skip (by simp), slice_skip (by simp)]
    exact slice_zero_length (by simp)
  simp only [Uuid.ofDisk, rd32, rd16, rdBe64, Nat.zero_add, h1, h2, h3, h4, ofNat_leVal_le32, ofNat_leVal_le16,
    ofNat_leVal_be64]

theorem Uuid.toDisk_ofDisk {b : Bytes} {off : Nat} (h : off + 16 ≤ b.length) :
    (Uuid.ofDisk b off).toDisk = slice b off 16 := by
  simp only [Uuid.ofDisk, Uuid.toDisk, rd32, rd16, rdBe64]
  rw [le32_ofNat_leVal (slice_length_of_le (by omega)), le16_ofNat_leVal (slice_length_of_le (by omega)),
    le16_ofNat_leVal (slice_length_of_le (by omega)), be64_ofNat_leVal (slice_length_of_le (by omega))]
  rw [show (16 : Nat) = 4 + 2 + 2 + 8 from rfl, slice_add, slice_add, slice_add]

theorem Uuid.toDisk_injective {u v : Uuid} (h : u.toDisk = v.toDisk) : u = v := by
  rw [← Uuid.ofDisk_toDisk u, h, Uuid.ofDisk_toDisk]

@[simp] theorem Uuid.toDisk_nil : Uuid.nil.toDisk = zeros 16 := by decide

end Gpt
