import Verif.Lemmas.Codec
import Verif.Lemmas.Utf16
/-!
# 128-byte partition entries
-/

namespace Gpt

theorem rd16_eq {b : Bytes} {off : Nat} {x : UInt16} (h : slice b off 2 = le16 x) : rd16 b off = x := by
  rw [rd16, h, ofNat_leVal_le16]
theorem rd32_eq {b : Bytes} {off : Nat} {x : UInt32} (h : slice b off 4 = le32 x) : rd32 b off = x := by
  rw [rd32, h, ofNat_leVal_le32]
theorem rd64_eq {b : Bytes} {off : Nat} {x : UInt64} (h : slice b off 8 = le64 x) : rd64 b off = x := by
  rw [rd64, h, ofNat_leVal_le64]
theorem ofDisk_of_slice {b : Bytes} {off : Nat} {u : Uuid} (h : slice b off 16 = u.toDisk) : Uuid.ofDisk b off = u := by
  rw [Uuid.ofDisk_eq, h, Uuid.ofDisk_toDisk]

theorem flatMap_le16_length (us : List UInt16) : (us.flatMap le16).length = 2 * us.length := by
  induction us with
  | nil => rfl
  | cons u us ih => simp only [List.flatMap_cons, List.length_append, le16_length, ih, List.length_cons]; omega

theorem slice_flatMap_le16 (us : List UInt16) (i : Nat) (h : i < us.length) :
    slice (us.flatMap le16) (2 * i) 2 = le16 us[i] := by
  induction us generalizing i with
  | nil => simp at h
  | cons u us ih =>
    rw [List.flatMap_cons]
    cases i with
    | zero => exact slice_head (by simp)
    | succ i =>
      rw [slice_skip (by rw [le16_length]; omega)]
      have : 2 * (i + 1) - (le16 u).length = 2 * i := by rw [le16_length]; omega
      rw [this, ih i (by simpa using h)]
      rfl

theorem zeros_eq_flatMap (k : Nat) : zeros (2 * k) = (List.replicate k (0 : UInt16)).flatMap le16 := by
  induction k with
  | zero => rfl
  | succ k ih =>
    rw [List.replicate_succ, List.flatMap_cons, ← ih]
    rfl

namespace Partition

theorem nameBytes_length (name : String) : (nameBytes name).length = 2 * min 36 (encodeUtf16 name).length := by
  rw [nameBytes, flatMap_le16_length, List.length_take]

theorem fieldBytes_length (p : Partition) : p.fieldBytes.length = 56 + 2 * min 36 (encodeUtf16 p.name).length := by
  simp only [fieldBytes, List.length_append, Uuid.toDisk_length, le64_length, nameBytes_length]
  try omega

@[simp] theorem asBytes_length (p : Partition) (n : UInt32) : (p.asBytes n).length = n.toNat := resize_length ..

/-- A 128-byte entry: all fields, then zeros. -/
theorem asBytes_128 (p : Partition) : p.asBytes 128 =
    p.partType.guid.toDisk ++ (p.partGuid.toDisk ++ (le64 p.firstLba ++ (le64 p.lastLba ++ (le64 p.flags ++
      (((encodeUtf16 p.name).take 36 ++ List.replicate (36 - ((encodeUtf16 p.name).take 36).length) 0).flatMap le16))))) := by
  have hl := p.fieldBytes_length
  have h128 : (128 : UInt32).toNat = 128 := rfl
  rw [asBytes, resize, h128, List.take_of_length_le (by omega)]
  rw [List.flatMap_append, ← zeros_eq_flatMap]
  rw [show 128 - p.fieldBytes.length = 2 * (36 - ((encodeUtf16 p.name).take 36).length) from by
    rw [hl, List.length_take]; omega]
  simp only [fieldBytes, nameBytes, List.append_assoc]

theorem slice_type (p : Partition) : slice (p.asBytes 128) 0 16 = p.partType.guid.toDisk := by
  rw [asBytes_128]; exact slice_head (by simp)
theorem slice_guid (p : Partition) : slice (p.asBytes 128) 16 16 = p.partGuid.toDisk := by
  rw [asBytes_128, slice_skip (by simp)]; exact slice_head (by simp)
theorem slice_first (p : Partition) : slice (p.asBytes 128) 32 8 = le64 p.firstLba := by
  rw [asBytes_128, slice_skip (by simp), slice_skip (by simp)]; exact slice_head (by simp)
theorem slice_last (p : Partition) : slice (p.asBytes 128) 40 8 = le64 p.lastLba := by
  rw [asBytes_128, slice_skip (by simp), slice_skip (by simp), slice_skip (by simp)]; exact slice_head (by simp)
theorem slice_flags (p : Partition) : slice (p.asBytes 128) 48 8 = le64 p.flags := by
  rw [asBytes_128, slice_skip (by simp), slice_skip (by simp), slice_skip (by simp), slice_skip (by simp)]
  exact slice_head (by simp)

theorem nameUnits_asBytes (p : Partition) : nameUnits (p.asBytes 128) =
    (encodeUtf16 p.name).take 36 ++ List.replicate (36 - ((encodeUtf16 p.name).take 36).length) 0 := by
  have hl : ((encodeUtf16 p.name).take 36 ++
      List.replicate (36 - ((encodeUtf16 p.name).take 36).length) (0 : UInt16)).length = 36 := by
    simp only [List.length_append, List.length_replicate, List.length_take]; omega
  apply List.ext_getElem
  · rw [hl]; simp [nameUnits]
  · intro i h1 h2
    have hi : i < 36 := by omega
    simp only [nameUnits, List.getElem_map, List.getElem_range]
    apply rd16_eq
    rw [asBytes_128, slice_skip (by simp; omega), slice_skip (by simp; omega), slice_skip (by simp; omega),
      slice_skip (by simp; omega), slice_skip (by simp; omega)]
    have : 56 + 2 * i - p.partType.guid.toDisk.length - p.partGuid.toDisk.length - (le64 p.firstLba).length -
        (le64 p.lastLba).length - (le64 p.flags).length = 2 * i := by simp; omega
    rw [this, slice_flatMap_le16 _ _ h2]

/-- The entry reader applied to what the entry writer wrote. -/
theorem partitionOfBytes_asBytes (p : Partition) : partitionOfBytes (p.asBytes 128) =
    { p with partType := PType.ofGuid p.partType.guid,
             name := String.ofList (Spec.storedName 36 p.name.toList) } := by
  unfold partitionOfBytes
  rw [ofDisk_of_slice p.slice_type, ofDisk_of_slice p.slice_guid, rd64_eq p.slice_first, rd64_eq p.slice_last,
    rd64_eq p.slice_flags, nameUnits_asBytes]
  congr 1
  rw [fromUtf16Lossy, ← decode_take, ← encodeUtf16]
  congr 2
  rw [List.takeWhile_append]
  split
  · rename_i h
    have : (List.replicate (36 - ((encodeUtf16 p.name).take 36).length) (0 : UInt16)).takeWhile (· != 0) = [] := by
      cases 36 - ((encodeUtf16 p.name).take 36).length <;> simp [List.replicate_succ]
    rw [this, List.append_nil]
    exact (List.IsPrefix.eq_of_length (List.takeWhile_prefix _) h).symm
  · rfl

end Partition

/-- Converting a GUID to a type keeps the GUID. -/
theorem PType.ofGuid_guid (g : Uuid) : (PType.ofGuid g).guid = g := by
  unfold PType.ofGuid
  split
  · rename_i t h
    have h2 : (g == t.guid) = true := List.find?_some (p := fun t : PType => g == t.guid) h
    exact (beq_iff_eq.mp h2).symm
  · rfl

theorem Partition.asBytes_ne_zeros {p : Partition} (h : p.isUsed = true) : p.asBytes 128 ≠ zeros 128 := by
  intro h0
  have h1 := p.slice_type
  rw [h0] at h1
  have h2 : slice (zeros 128) 0 16 = Uuid.nil.toDisk := by decide
  rw [h2] at h1
  have := Uuid.toDisk_injective h1
  simp [isUsed, PType.unused, ← this] at h

end Gpt
