import Verif.Spec.Codec
import Verif.Lemmas.Codec
/-!
# C01: GUID disk encoding, C51: block sizes, C10: size arithmetic
-/

namespace Gpt

theorem le32_bytes (x : UInt32) : (le32 x).map UInt8.toNat =
    [x.toNat % 256, x.toNat / 256 % 256, x.toNat / 65536 % 256, x.toNat / 16777216 % 256] := by
  simp [le32, leBytes, Nat.div_div_eq_div_mul]

theorem le16_bytes (x : UInt16) : (le16 x).map UInt8.toNat = [x.toNat % 256, x.toNat / 256 % 256] := by
  simp [le16, leBytes]

theorem be64_bytes (x : UInt64) : (be64 x).map UInt8.toNat =
    [x.toNat / 256 ^ 7 % 256, x.toNat / 256 ^ 6 % 256, x.toNat / 256 ^ 5 % 256, x.toNat / 256 ^ 4 % 256,
     x.toNat / 256 ^ 3 % 256, x.toNat / 256 ^ 2 % 256, x.toNat / 256 % 256, x.toNat % 256] := by
  simp [be64, leBytes, Nat.div_div_eq_div_mul]

/-- **C01** (encoding). The 16 bytes written for a UUID are the GUID bytes of the UEFI specification. -/
theorem c01_guid_bytes (u : Uuid) : u.toDisk.map UInt8.toNat = Spec.guidBytes u := by
  have h1 := u.d1.toNat_lt
  have h2 := u.d2.toNat_lt
  have h3 := u.d3.toNat_lt
  have h4 := u.d4.toNat_lt
  simp only [Uuid.toDisk, List.map_append, le32_bytes, le16_bytes, be64_bytes, Spec.guidBytes, Spec.guidOrder,
    Spec.byteOf, Spec.uuidNum, List.map_cons, List.map_nil, List.cons_append, List.nil_append, List.cons.injEq]
  norm_num only
  refine ⟨?_, ?_, ?_, ?_, ?_, ?_, ?_, ?_, ?_, ?_, ?_, ?_, ?_, ?_, ?_, ?_, trivial⟩ <;> omega

/-- **C01** (round trip). Parsing what was written gives the UUID back, with the rest of the input untouched. -/
theorem c01_parse_write (u : Uuid) (rest : Bytes) : Uuid.parse (u.toDisk ++ rest) = .ok (u, rest) := by
  have hl : ¬ (u.toDisk ++ rest).length < 16 := by simp
  have hs : slice (u.toDisk ++ rest) 0 16 = u.toDisk := slice_head (by simp)
  rw [Uuid.parse, if_neg hl, Uuid.ofDisk_eq, hs, Uuid.ofDisk_toDisk]
  simp

/-- **C01** (bijection). Re-encoding the UUID parsed from any 16 bytes gives those bytes. -/
theorem c01_write_parse (b : Bytes) (u : Uuid) (rest : Bytes) (h : Uuid.parse b = .ok (u, rest)) :
    b = u.toDisk ++ rest := by
  unfold Uuid.parse at h
  split at h
  · simp at h
  · simp only [Res.ok.injEq, Prod.mk.injEq] at h
    rw [← h.1, ← h.2, Uuid.toDisk_ofDisk (by omega)]
    simp [slice]

/-- **C01** (short input). Fewer than 16 bytes are an `UnexpectedEof` error, 16 or more always parse. -/
theorem c01_short (b : Bytes) : (b.length < 16 ↔ Uuid.parse b = .err .unexpectedEof) ∧
    (16 ≤ b.length ↔ ∃ u rest, Uuid.parse b = .ok (u, rest)) := by
  unfold Uuid.parse
  by_cases h : b.length < 16
  · simp [h]
  · simp [h]; omega

/-- The EFI system partition type as in the UEFI specification's own example. -/
example : (⟨0xC12A7328, 0xF81F, 0x11D2, 0xBA4B00A0C93EC93B⟩ : Uuid).toDisk =
    [0x28, 0x73, 0x2A, 0xC1, 0x1F, 0xF8, 0xD2, 0x11, 0xBA, 0x4B, 0x00, 0xA0, 0xC9, 0x3E, 0xC9, 0x3B] := by decide

/-! ## C51 -/

/-- **C51**. `try_from` accepts exactly 512 and 4096 and inverts the conversions. -/
theorem c51_try_from (v : UInt64) : (∃ lb, LbSize.tryFrom v = .ok lb) ↔ v.toNat = 512 ∨ v.toNat = 4096 := by
  have h1 : v = 512 ↔ v.toNat = 512 := by rw [← UInt64.toNat_inj]; rfl
  have h2 : v = 4096 ↔ v.toNat = 4096 := by rw [← UInt64.toNat_inj]; rfl
  unfold LbSize.tryFrom
  split
  · simp_all
  · split <;> simp_all

theorem c51_inverse (v : UInt64) (lb : LbSize) : LbSize.tryFrom v = .ok lb ↔ lb.u64 = v := by
  unfold LbSize.tryFrom
  constructor
  · intro h
    split at h
    · simp at h; subst h; simp_all [LbSize.u64]
    · split at h
      · simp at h; subst h; simp_all [LbSize.u64]
      · simp at h
  · rintro rfl
    cases lb <;> decide

theorem c51_agree (lb : LbSize) : lb.u64.toNat = lb.usize ∧ (lb.usize = 512 ∨ lb.usize = 4096) := by
  cases lb <;> decide

theorem c51_no_panic (v : UInt64) : LbSize.tryFrom v ≠ .panic := by
  unfold LbSize.tryFrom; split
  · simp
  · split <;> simp

/-! ## C10 -/

/-- **C10** (`sectors_len`). The value returned is exactly `last - first + 1`, and it is returned whenever the partition
is ordered and that number is representable (`n` ranges over the 64-bit numbers). -/
theorem c10_sectors_len (p : Partition) (n : UInt64) : p.sectorsLen = .ok n ↔
    p.firstLba.toNat ≤ p.lastLba.toNat ∧ n.toNat = p.lastLba.toNat - p.firstLba.toNat + 1 := by
  have h1 : (1 : UInt64).toNat = 1 := rfl
  have hn := n.toNat_lt
  unfold Partition.sectorsLen
  rw [Res.bind_eq_ok]
  simp only [Res.ofOption_eq_ok, checkedSub64_some, checkedAdd64_some, h1]
  constructor
  · rintro ⟨d, ⟨ha, hb⟩, hc, hd⟩
    exact ⟨ha, by omega⟩
  · rintro ⟨ha, hb⟩
    have hf := p.firstLba.toNat_lt
    have hl := p.lastLba.toNat_lt
    refine ⟨p.lastLba - p.firstLba, ⟨ha, u64_sub_toNat ha⟩, ?_, ?_⟩ <;> rw [u64_sub_toNat ha] <;> omega

/-- **C10** (`bytes_len`). -/
theorem c10_bytes_len (p : Partition) (lb : LbSize) (n : UInt64) : p.bytesLen lb = .ok n ↔
    p.firstLba.toNat ≤ p.lastLba.toNat ∧ n.toNat = (p.lastLba.toNat - p.firstLba.toNat + 1) * lb.usize := by
  have hn := n.toNat_lt
  have hlb := lb_pos lb
  unfold Partition.bytesLen
  rw [Res.bind_eq_ok]
  simp only [Res.ofOption_eq_ok, checkedMul64_some, c10_sectors_len, lb_u64_toNat]
  constructor
  · rintro ⟨d, ⟨ha, hb⟩, hc, hd⟩
    exact ⟨ha, by rw [hd, hb]⟩
  · rintro ⟨ha, hb⟩
    have hle : p.lastLba.toNat - p.firstLba.toNat + 1 ≤ n.toNat := by rw [hb]; exact Nat.le_mul_of_pos_right _ hlb
    have hd : (UInt64.ofNat (p.lastLba.toNat - p.firstLba.toNat + 1)).toNat = p.lastLba.toNat - p.firstLba.toNat + 1 := by
      rw [UInt64.toNat_ofNat', Nat.mod_eq_of_lt (by omega)]
    refine ⟨UInt64.ofNat (p.lastLba.toNat - p.firstLba.toNat + 1), ⟨ha, hd⟩, ?_, ?_⟩ <;> rw [hd]
    · rw [← hb]; exact hn
    · exact hb

/-- **C10** (`bytes_start`). -/
theorem c10_bytes_start (p : Partition) (lb : LbSize) (n : UInt64) : p.bytesStart lb = .ok n ↔
    n.toNat = p.firstLba.toNat * lb.usize := by
  have hn := n.toNat_lt
  unfold Partition.bytesStart
  simp only [Res.ofOption_eq_ok, checkedMul64_some, lb_u64_toNat]
  constructor
  · exact fun h => h.2
  · intro h; exact ⟨by omega, h⟩

/-- **C10** (no panic): together with the above, everything else is an error. -/
theorem c10_no_panic (p : Partition) (lb : LbSize) :
    p.sectorsLen ≠ .panic ∧ p.bytesLen lb ≠ .panic ∧ p.bytesStart lb ≠ .panic := by
  have h1 : p.sectorsLen ≠ .panic := by
    unfold Partition.sectorsLen
    rw [Ne, Res.bind_eq_panic]
    simp
  refine ⟨h1, ?_, by simp [Partition.bytesStart]⟩
  unfold Partition.bytesLen
  rw [Ne, Res.bind_eq_panic]
  simp [h1]

/-- The largest partition: its length in sectors is not representable, so an error and not 0. -/
example : (⟨PType.unused, Uuid.nil, 0, 0xFFFFFFFFFFFFFFFF, 0, ""⟩ : Partition).sectorsLen =
    .err (.other "partition length overflow - sectors") := by decide
/-- The hypotheses of the exact case are met by an ordinary partition. -/
example : (⟨PType.unused, Uuid.nil, 34, 2047, 0, ""⟩ : Partition).bytesLen .lb512 = .ok 1031168 := by decide

end Gpt
