import Verif.Lemmas.Entry
/-!
# C02, C03, C54: partition entries and their names
-/

namespace Gpt

/-- **C54**. Decoding the UTF-16 encoding of any string gives that string. -/
theorem c54_utf16_round_trip (s : String) : fromUtf16Lossy (encodeUtf16 s) = s := by
  rw [fromUtf16Lossy, encodeUtf16, decode_flatMap, String.ofList_toList]

/-- **C54** (encoding). The encoding is well formed: characters below U+10000 are one unit, all others a high and a low
surrogate. -/
theorem c54_encode_char (c : Char) :
    (c.toNat < 0x10000 → (encodeUtf16 (String.ofList [c])).map UInt16.toNat = [c.toNat]) ∧
    (0x10000 ≤ c.toNat → ∃ hi lo, (encodeUtf16 (String.ofList [c])).map UInt16.toNat = [hi, lo] ∧
      0xD800 ≤ hi ∧ hi < 0xDC00 ∧ 0xDC00 ≤ lo ∧ lo < 0xE000 ∧
      c.toNat = 0x10000 + (hi - 0xD800) * 0x400 + (lo - 0xDC00)) := by
  have hr := char_range c
  have he : encodeUtf16 (String.ofList [c]) = encodeChar c := by simp [encodeUtf16]
  rw [he]
  constructor
  · intro h
    simp only [encodeChar, if_pos h, List.map_cons, List.map_nil, u16_toNat_ofNat h]
  · intro h
    refine ⟨0xD800 + (c.toNat - 0x10000) / 0x400, 0xDC00 + (c.toNat - 0x10000) % 0x400, ?_, ?_⟩
    · have h1 := u16_toNat_ofNat (n := 0xD800 + (c.toNat - 0x10000) / 0x400) (by omega)
      have h2 := u16_toNat_ofNat (n := 0xDC00 + (c.toNat - 0x10000) % 0x400) (by omega)
      simp only [encodeChar, if_neg (by omega : ¬ c.toNat < 0x10000), List.map_cons, List.map_nil, h1, h2]
    · omega

example : (encodeUtf16 "a😀").map UInt16.toNat = [0x61, 0xD83D, 0xDE00] := by decide

/-- **C02**. A used partition with a storable name survives the entry writer and the entry reader: every field comes back
(the type by its GUID), and the entry is not mistaken for an empty slot. -/
theorem c02_entry_round_trip (p : Partition) (hu : p.isUsed = true) (hn : Spec.Storable p.name.toList) :
    let q := partitionOfBytes (p.asBytes 128)
    p.asBytes 128 ≠ zeros 128 ∧ q.partType.guid = p.partType.guid ∧ q.partGuid = p.partGuid ∧
    q.firstLba = p.firstLba ∧ q.lastLba = p.lastLba ∧ q.flags = p.flags ∧ q.name = p.name ∧ q.isUsed = true := by
  have hname : String.ofList (Spec.storedName 36 p.name.toList) = p.name := by
    rw [Spec.storedName_of_fits 36 _ hn.1 hn.2, String.ofList_toList]
  refine ⟨Partition.asBytes_ne_zeros hu, ?_⟩
  rw [Partition.partitionOfBytes_asBytes]
  refine ⟨PType.ofGuid_guid _, rfl, rfl, rfl, rfl, hname, ?_⟩
  simpa [Partition.isUsed, PType.ofGuid_guid] using hu

/-- **C02** (layout). The fields are at the offsets of the UEFI partition entry. -/
theorem c02_entry_layout (p : Partition) :
    (p.asBytes 128).length = 128 ∧
    slice (p.asBytes 128) 0 16 = p.partType.guid.toDisk ∧ slice (p.asBytes 128) 16 16 = p.partGuid.toDisk ∧
    slice (p.asBytes 128) 32 8 = le64 p.firstLba ∧ slice (p.asBytes 128) 40 8 = le64 p.lastLba ∧
    slice (p.asBytes 128) 48 8 = le64 p.flags ∧
    ∀ i, i < 36 → rd16 (p.asBytes 128) (56 + 2 * i) = (encodeUtf16 p.name)[i]?.getD 0 := by
  refine ⟨p.asBytes_length 128, p.slice_type, p.slice_guid, p.slice_first, p.slice_last, p.slice_flags, ?_⟩
  intro i hi
  have h := congrArg (fun l => l[i]?) p.nameUnits_asBytes
  simp only [nameUnits, List.getElem?_map] at h
  rw [List.getElem?_range hi, Option.map_some] at h
  rw [List.getElem?_append, List.getElem?_take, List.getElem?_replicate, List.length_take] at h
  by_cases h1 : i < (encodeUtf16 p.name).length
  · rw [if_pos (by omega), if_pos hi] at h
    rw [← h]; rfl
  · rw [if_neg (by omega), if_pos (by omega)] at h
    rw [List.getElem?_eq_none (by omega)]
    simpa using h

/-- A partition the round trip applies to. -/
example : (⟨⟨⟨0xC12A7328, 0xF81F, 0x11D2, 0xBA4B00A0C93EC93B⟩, .none⟩, ⟨1, 2, 3, 4⟩, 2048, 4095, 4, "EFI 😀"⟩ :
    Partition).isUsed = true ∧ Spec.Storable "EFI 😀".toList := by
  refine ⟨by decide, by decide, by decide⟩

/-- **C03**. For every name, what is read back is `Spec.storedName 36`: a prefix of the name, cut at the first NUL and at
36 units, followed by one U+FFFD exactly when the cut splits a surrogate pair. The entry always has the entry size, so
nothing spills into a neighbour. -/
theorem c03_name_truncation (p : Partition) (n : UInt32) :
    (partitionOfBytes (p.asBytes 128)).name.toList = Spec.storedName 36 p.name.toList ∧
    (p.asBytes n).length = n.toNat := by
  rw [Partition.partitionOfBytes_asBytes]
  simp

theorem c03_name_prefix (p : Partition) : ∃ pre rest, p.name.toList = pre ++ rest ∧
    ((partitionOfBytes (p.asBytes 128)).name.toList = pre ∨
     ((partitionOfBytes (p.asBytes 128)).name.toList = pre ++ [Char.ofNat 0xFFFD] ∧ Spec.totalWidth pre + 1 = 36 ∧
       ∃ c tl, rest = c :: tl ∧ Spec.width c = 2)) := by
  rw [(c03_name_truncation p 128).1]
  exact Spec.storedName_prefix 36 _

/-- A name that is cut in the middle of a pair. -/
example : Spec.storedName 36 (List.replicate 35 'x' ++ ['😀', 'y']) = List.replicate 35 'x' ++ [Char.ofNat 0xFFFD] := by
  decide

end Gpt
