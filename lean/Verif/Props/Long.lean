import Verif.Props.FewBits
import Verif.Props.Paths
import Mathlib.Order.Interval.Finset.Nat
/-!
# What the library looks at in a header: C117

The UEFI specification lets a header be longer than 92 bytes (field `HeaderSize`, up to a block), and the checksum covers that many bytes.
The library computes it over 92 bytes, whatever the field says.
-/

namespace Gpt

open Spec

/-- The `size` bytes of a header at `off` with the checksum field read as zero. -/
def Spec.longWithoutCrc (c : Bytes) (off size : Nat) : Bytes := slice c off 16 ++ [0, 0, 0, 0] ++ slice c (off + 20) (size - 20)

/-- A header of `size` bytes at `off`, by the rules: the field says so, the signature is right, the checksum is that of `size` bytes, and
what follows the 92 bytes is zero. -/
structure Spec.LongHeader (c : Bytes) (off size : Nat) : Prop where
  fits : off + size ≤ c.length
  field : num c (off + 12) 4 = size
  signature : slice c off 8 = Spec.signature
  checksum : num c (off + 16) 4 = (crc32 (longWithoutCrc c off size)).toNat
  rest : ∀ i, 92 ≤ i → i < size → byteAt c (off + i) = 0

/-! ## Zeros at the end -/

/-- Every polynomial but zero is a power of `x`. -/
theorem exists_xpow {v : BitVec 32} (hv : v ≠ 0#32) : ∃ k, v = xpow k := by
  have hsurj := Finset.surj_on_of_inj_on_of_card_le (s := Finset.range (2 ^ 32 - 1)) (t := Finset.Ioo 0 (2 ^ 32))
    (fun k _ => (xpow k).toNat)
    (fun k _ => by
      rw [Finset.mem_Ioo]
      refine ⟨Nat.pos_of_ne_zero fun h => xpow_ne_zero k (BitVec.eq_of_toNat_eq ?_), (xpow k).isLt⟩
      rw [h]; rfl)
    (fun a b ha hb h => by
      rw [Finset.mem_range] at ha hb
      have h := BitVec.eq_of_toNat_eq h
      rcases Nat.lt_trichotomy a b with hab | hab | hab
      · exact absurd h (xpow_inj hab (by omega))
      · exact hab
      · exact absurd h.symm (xpow_inj hab (by omega)))
    (by rw [Nat.card_Ioo, Finset.card_range, Nat.sub_zero])
  obtain ⟨k, -, h⟩ := hsurj v.toNat (by
    rw [Finset.mem_Ioo]
    refine ⟨Nat.pos_of_ne_zero fun h => hv (BitVec.eq_of_toNat_eq ?_), v.isLt⟩
    rw [h]; rfl)
  exact ⟨k, BitVec.eq_of_toNat_eq h⟩

/-- Multiplying by a power of `x` changes every polynomial but zero. -/
theorem crcBit_iterate_fixed {t : Nat} (h0 : 0 < t) (ht : t < 2 ^ 32 - 1) {v : BitVec 32} : crcBit^[t] v = v ↔ v = 0#32 := by
  constructor
  · intro h
    by_contra hv
    obtain ⟨k, rfl⟩ := exists_xpow hv
    rw [← xpow_add] at h
    exact xpow_inj (a := k) (b := t + k) (by omega) (by omega) h.symm
  · rintro rfl
    exact crcBit_iterate_zero t

/-- Zeros at the end show in the checksum, unless it is 0xFFFFFFFF. -/
theorem crc32_zeros {bs : Bytes} {n : Nat} (h0 : 0 < n) (hn : 8 * n < 2 ^ 32 - 1) : crc32 (bs ++ zeros n) = crc32 bs ↔ crc32 bs = 0xFFFFFFFF := by
  have hx : ∀ a b : BitVec 32, a ^^^ 0xFFFFFFFF#32 = b ^^^ 0xFFFFFFFF#32 ↔ a = b := by
    intro a b
    refine ⟨fun h => ?_, fun h => by rw [h]⟩
    have := congrArg (· ^^^ 0xFFFFFFFF#32) h
    simpa [BitVec.xor_assoc] using this
  have h1 : crc32 (bs ++ zeros n) = crc32 bs ↔ crcUpdate 0xFFFFFFFF#32 (bs ++ zeros n) = crcUpdate 0xFFFFFFFF#32 bs := by
    unfold crc32
    rw [← UInt32.toBitVec_inj, hx]
  have h2 : crc32 bs = 0xFFFFFFFF ↔ crcUpdate 0xFFFFFFFF#32 bs = 0#32 := by
    unfold crc32
    rw [← hx _ 0#32, ← UInt32.toBitVec_inj]
    rfl
  rw [h1, h2, crcUpdate_append, crcUpdate_zeros, crcBit_iterate_fixed (by omega) hn]

/-! ## C117 -/

theorem longWithoutCrc_eq {c : Bytes} {off size : Nat} (h92 : 92 ≤ size) (hfit : off + size ≤ c.length)
    (hrest : ∀ i, 92 ≤ i → i < size → byteAt c (off + i) = 0) : longWithoutCrc c off size = withoutCrc c off ++ zeros (size - 92) := by
  unfold longWithoutCrc withoutCrc
  rw [show size - 20 = 72 + (size - 92) by omega, slice_add, ← List.append_assoc]
  congr 1
  refine slice_eq_of_byteAt (by omega) (zeros_length _) fun i hi => ?_
  rw [byteAt_zeros, show off + 20 + 72 + i = off + (92 + i) by omega]
  exact hrest _ (by omega) (by omega)

/-- **C117**, long headers: of the headers that are longer than 92 bytes, the library takes exactly those with the checksum 0xFFFFFFFF for
valid. -/
theorem c117_long {c : Bytes} {off size : Nat} (hl : LongHeader c off size) (h92 : 92 < size) (hsz : size < 2 ^ 29) :
    ValidAt c off ↔ num c (off + 16) 4 = 0xFFFFFFFF := by
  have hck := hl.checksum
  rw [longWithoutCrc_eq (by omega) hl.fits hl.rest] at hck
  have hz := crc32_zeros (bs := withoutCrc c off) (n := size - 92) (by omega) (by omega)
  have hfit := hl.fits
  constructor
  · intro hv
    have e := hz.mp (UInt32.toNat_inj.mp (hck.symm.trans hv.checksum))
    rw [hv.checksum, e]
    rfl
  · intro hn
    have hff : crc32 (withoutCrc c off ++ zeros (size - 92)) = 0xFFFFFFFF := UInt32.toNat_inj.mp (hck.symm.trans hn)
    refine ⟨by omega, hl.signature, ?_⟩
    rw [hn]
    have h2 : crcUpdate (crcUpdate 0xFFFFFFFF#32 (withoutCrc c off)) (zeros (size - 92)) = 0#32 := by
      have := congrArg UInt32.toBitVec hff
      unfold crc32 at this
      rw [crcUpdate_append] at this
      have := congrArg (· ^^^ 0xFFFFFFFF#32) this
      simpa [BitVec.xor_assoc] using this
    rw [crcUpdate_zeros] at h2
    have h3 := crcBit_iterate_inj _ (h2.trans (crcBit_iterate_zero (8 * (size - 92))).symm)
    unfold crc32
    rw [h3]
    rfl

/-- **C117**, long headers of the ordinary size: with 92 bytes the rule and the library agree. -/
theorem c117_short {c : Bytes} {off : Nat} (hl : LongHeader c off 92) : ValidAt c off := by
  have hck := hl.checksum
  rw [longWithoutCrc_eq (Nat.le_refl _) hl.fits hl.rest, Nat.sub_self, show zeros 0 = [] from rfl, List.append_nil] at hck
  exact ⟨hl.fits, hl.signature, hck⟩

/-- **C117**, reading: `read_header_from_arbitrary_device` refuses a long header for its checksum. -/
theorem c117_read {lb : LbSize} {d : Dev} {size : Nat} (hf : d.faults = []) (hp : d.pos < 2 ^ 64)
    (hl : LongHeader d.data lb.usize size) (h92 : 92 < size) (hsz : size < 2 ^ 29) (hn : num d.data (lb.usize + 16) 4 ≠ 0xFFFFFFFF) :
    (readHeaderFromArbitraryDevice lb d).1 = .err .invalidCrc32Checksum := by
  have hfit := hl.fits
  show (readPrimaryHeader lb d).1 = _
  rw [readPrimaryHeader_nil hf hp]
  refine (readHeaderAt_spec _ _).2.2.2.mpr ⟨by omega, hl.signature, fun h => hn ?_⟩
  exact (c117_long hl h92 hsz).mp ⟨by omega, hl.signature, h⟩

/-- **C117**, opening: a disk on which both headers are long is refused, under every configuration. -/
theorem c117_open (m : Mode) {cfg : GptConfig} {d : Dev} {size size' : Nat} (hf : d.faults = []) (hp : d.pos < 2 ^ 64)
    (hlen : d.data.length < 2 ^ 64) (hl : LongHeader d.data cfg.lbSize.usize size) (h92 : 92 < size) (hsz : size < 2 ^ 29)
    (hn : num d.data (cfg.lbSize.usize + 16) 4 ≠ 0xFFFFFFFF)
    (hl' : LongHeader d.data (lastBlockOffset cfg.lbSize d.data) size') (h92' : 92 < size') (hsz' : size' < 2 ^ 29)
    (hn' : num d.data (lastBlockOffset cfg.lbSize d.data + 16) 4 ≠ 0xFFFFFFFF) :
    (openFromDevice m cfg d).1 = .err (.header .invalidCrc32Checksum) := by
  have hv : ¬ PrimaryValid cfg.lbSize d.data := fun h => hn ((c117_long hl h92 hsz).mp h)
  have hv' : ¬ BackupValid cfg.lbSize d.data := fun h => hn' ((c117_long hl' h92' hsz').mp h.2)
  obtain ⟨h1, h2⟩ := c44_refused m cfg d hf hp hlen
  obtain ⟨e, he⟩ := h1.mpr (.inl ⟨hv, hv'⟩)
  have := (h2 e he).1 hv
  have h3 : (readPrimaryHeader cfg.lbSize d).1 = .err .invalidCrc32Checksum := c117_read hf hp hl h92 hsz hn
  rw [h3] at this
  rw [he, ← Res.err.inj this]

/-- The content with `v` as the checksum of the header at `off`. -/
def Spec.withChecksum (c : Bytes) (off : Nat) (v : UInt32) : Bytes := patch c (off + 16) (le32 v)

/-- **C117**, what is looked at: of the header fields only the signature and the checksum matter for validity. Whatever the others hold
(revision, size, reserved, both LBAs, the usable range, the array), there is exactly one checksum with which the header is valid. -/
theorem c117_blind {c : Bytes} {off : Nat} (hfit : off + 92 ≤ c.length) (hsig : slice c off 8 = Spec.signature) (v : UInt32) :
    ValidAt (withChecksum c off v) off ↔ v = crc32 (withoutCrc c off) := by
  have hl : (withChecksum c off v).length = c.length := by
    unfold withChecksum
    rw [patch_length, le32_length]
    omega
  have hout : ∀ a n, a + n ≤ 92 → a + n ≤ 16 ∨ 20 ≤ a → slice (withChecksum c off v) (off + a) n = slice c (off + a) n := by
    intro a n h1 h2
    refine slice_eq_of_byteAt (by omega) (slice_length_of_le (by omega)) fun i hi => ?_
    rw [byteAt_slice, if_pos hi]
    exact byteAt_patch_outside (by rw [le32_length]; omega)
  have hwc : withoutCrc (withChecksum c off v) off = withoutCrc c off := by
    unfold withoutCrc
    rw [hout 20 72 (by omega) (by omega)]
    have := hout 0 16 (by omega) (by omega)
    rw [Nat.add_zero] at this
    rw [this]
  have hs : slice (withChecksum c off v) off 8 = slice c off 8 := by
    have := hout 0 8 (by omega) (by omega)
    rw [Nat.add_zero] at this
    exact this
  have hnum : num (withChecksum c off v) (off + 16) 4 = v.toNat := by
    unfold num withChecksum
    have := slice_patch_self c (off + 16) (le32 v)
    rw [le32_length] at this
    rw [this]
    unfold le32
    rw [leVal_leBytes]
    exact Nat.mod_eq_of_lt v.toNat_lt
  constructor
  · intro hv
    have := hv.checksum
    rw [hnum, hwc] at this
    exact UInt32.toNat_inj.mp this
  · rintro rfl
    exact ⟨by omega, by rw [hs]; exact hsig, by rw [hnum, hwc]⟩

/-- **C117**, fewer than 128 entries, which the specification allows: without permission to change the count nothing can be added, however
many slots and blocks are free, and the disk object stays as it is. -/
theorem c117_few {m : Mode} {s : GptDisk} {h : Header} (hh : s.tryHeader = .ok h) (hn : h.numParts.toNat < 128)
    (hc : s.config.changePartitionCount = false) (name : String) (size : UInt64) (i : UInt32) (first length : UInt64) (ty : PType)
    (flags : UInt64) (align : Option UInt64) (fresh fresh2 : Uuid) :
    ((∀ j, (GptDisk.addPartition m name size ty flags align fresh fresh2 s).1 ≠ .ok j) ∧
      (GptDisk.addPartition m name size ty flags align fresh fresh2 s).2 = s) ∧
    (∀ j, (GptDisk.addPartitionAt m name i first length ty flags fresh fresh2 s).1 ≠ .ok j) ∧
      (GptDisk.addPartitionAt m name i first length ty flags fresh fresh2 s).2 = s := by
  have key : ∀ {id : UInt32} {p : Partition} {r : Res GptError UInt32} {s' : GptDisk}, GptDisk.Inserted m id p fresh2 s r s' →
      (∀ j, r ≠ .ok j) ∧ s' = s := by
    intro id p r s' hi
    cases hi with
    | panic => exact ⟨(fun _ e => nomatch e), rfl⟩
    | refused => exact ⟨(fun _ e => nomatch e), rfl⟩
    | plain h' hh' hw =>
      obtain rfl := Except.ok.inj (hh.symm.trans hh')
      have := (wouldChange_false _ _).mp hw
      omega
    | rebuilt _ _ _ _ _ hp => rw [hc] at hp; cases hp
  constructor
  · rcases GptDisk.addPartition_any m name size ty flags align fresh fresh2 s with ⟨e1, e2 | e2⟩ | ⟨_, _, _, _, hi⟩
    · exact ⟨(fun j => by rw [e2]; exact fun e => nomatch e), e1⟩
    · exact ⟨(fun j => by rw [e2]; exact fun e => nomatch e), e1⟩
    · exact key hi
  · rcases GptDisk.addPartitionAt_any m name i first length ty flags fresh fresh2 s with ⟨e1, e2 | e2 | e2⟩ | ⟨-, -, -, -, hi⟩
    · exact ⟨(fun j => by rw [e2]; exact fun e => nomatch e), e1⟩
    · exact ⟨(fun j => by rw [e2]; exact fun e => nomatch e), e1⟩
    · exact ⟨(fun j => by rw [e2]; exact fun e => nomatch e), e1⟩
    · exact key hi

/-- A table with 56 slots and nothing in it. -/
example : { exDisk with primaryHeader := .ok { exHeader with numParts := 56 }, partitions := [] }.tryHeader = .ok { exHeader with numParts := 56 } ∧
    ({ exHeader with numParts := 56 } : Header).numParts.toNat < 128 ∧ exDisk.config.changePartitionCount = false := ⟨rfl, by decide, rfl⟩

/-- A header of 96 bytes. -/
@[irreducible] def longBlock : Bytes :=
  let c := resize ({ sampleHeader with headerSizeLe := 96 }.encode 0) 512
  withChecksum c 0 (crc32 (longWithoutCrc c 0 96))

/-- A disk of three blocks with it as both headers. -/
@[irreducible] def longData : Bytes := zeros 512 ++ longBlock ++ longBlock

theorem longData_rest : ∀ j, j < 4 → byteAt longData (604 + j) = 0 ∧ byteAt longData (1116 + j) = 0 := by decide +kernel

theorem longData_first : num longData (512 + 16) 4 = (crc32 (longWithoutCrc longData 512 96)).toNat := by decide +kernel

theorem longData_second : num longData (1024 + 16) 4 = (crc32 (longWithoutCrc longData 1024 96)).toNat := by decide +kernel

theorem longData_fields : longData.length = 1536 ∧ num longData (512 + 12) 4 = 96 ∧ slice longData 512 8 = Spec.signature ∧
    num longData (1024 + 12) 4 = 96 ∧ slice longData 1024 8 = Spec.signature := by decide +kernel

theorem longData_headers : LongHeader longData 512 96 ∧ LongHeader longData 1024 96 := by
  obtain ⟨h1, h2, h3, h4, h5⟩ := longData_fields
  refine ⟨⟨by omega, h2, h3, longData_first, fun i h6 h7 => ?_⟩, ⟨by omega, h4, h5, longData_second, fun i h6 h7 => ?_⟩⟩
  · have := (longData_rest (i - 92) (by omega)).1
    rwa [show 604 + (i - 92) = 512 + i by omega] at this
  · have := (longData_rest (i - 92) (by omega)).2
    rwa [show 1116 + (i - 92) = 1024 + i by omega] at this

example (m : Mode) : ¬ ValidAt longData 512 ∧
    (readHeaderFromArbitraryDevice .lb512 ⟨longData, 0, 1536, [], []⟩).1 = .err .invalidCrc32Checksum ∧
    (openFromDevice m GptConfig.new ⟨longData, 0, 1536, [], []⟩).1 = .err (.header .invalidCrc32Checksum) := by
  obtain ⟨hl, hl'⟩ := longData_headers
  have hn : num longData (512 + 16) 4 ≠ 0xFFFFFFFF ∧ num longData (1024 + 16) 4 ≠ 0xFFFFFFFF := by decide +kernel
  have hlen := longData_fields.1
  have ho : lastBlockOffset .lb512 longData = 1024 := by
    unfold lastBlockOffset
    rw [hlen]
    rfl
  exact ⟨fun h => hn.1 ((c117_long hl (by decide) (by decide)).mp h),
    c117_read (lb := .lb512) (d := ⟨longData, 0, 1536, [], []⟩) rfl (by show 0 < 2 ^ 64; decide) hl (by decide) (by decide) hn.1,
    c117_open m (cfg := GptConfig.new) (d := ⟨longData, 0, 1536, [], []⟩) rfl (by show 0 < 2 ^ 64; decide) (by rw [hlen]; decide) hl (by decide)
      (by decide) hn.1 (by rw [show GptConfig.new.lbSize = .lb512 from rfl, ho]; exact hl') (by decide) (by decide)
      (by rw [show GptConfig.new.lbSize = .lb512 from rfl, ho]; exact hn.2)⟩

/-- A header in block 1 that claims to be 7 bytes long and in block 5 is valid with the right checksum. -/
example : ValidAt (withChecksum (zeros 512 ++ { sampleHeader with headerSizeLe := 7, currentLba := 5 }.encode 0) 512
    (crc32 (withoutCrc (zeros 512 ++ { sampleHeader with headerSizeLe := 7, currentLba := 5 }.encode 0) 512))) 512 :=
  (c117_blind (by decide +kernel) (by decide +kernel) _).mpr rfl

end Gpt
