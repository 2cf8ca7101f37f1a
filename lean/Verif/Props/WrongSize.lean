import Verif.Props.Write
import Verif.Props.Create
import Verif.Props.Table
import Verif.Props.Panic
/-!
# Opening with the wrong block size: C122
-/

namespace Gpt

open Spec GptDisk

/-- The first eight bytes of the GUID, as stored, are not `"EFI PART"`: the GUID is not `20494645-4150-5452-…`. -/
def Spec.NotSignature (g : Uuid) : Prop := ¬ (g.d1 = 0x20494645 ∧ g.d2 = 0x4150 ∧ g.d3 = 0x5452)

theorem notSignature_bytes {g : Uuid} (h : NotSignature g) : slice g.toDisk 0 8 ≠ signature := by
  intro e
  have hu := Uuid.ofDisk_toDisk g
  have e8 : ∀ i, i < 8 → byteAt g.toDisk i = byteAt signature i := fun i hi => by
    rw [← e, byteAt_slice, if_pos hi, Nat.zero_add]
  refine h ⟨?_, ?_, ?_⟩
  · rw [← congrArg Uuid.d1 hu]
    show rd32 g.toDisk 0 = _
    refine rd32_eq ((slice_eq_of_byteAt (n := 4) ?_ rfl ?_).trans (rfl : ([0x45, 0x46, 0x49, 0x20] : Bytes) = _))
    · rw [Uuid.toDisk_length]; omega
    · intro i hi; rw [Nat.zero_add, e8 i (by omega)]
      exact (by decide : ∀ i, i < 4 → byteAt signature i = byteAt [0x45, 0x46, 0x49, 0x20] i) i hi
  · rw [← congrArg Uuid.d2 hu]
    show rd16 g.toDisk 4 = _
    refine rd16_eq ((slice_eq_of_byteAt (n := 2) ?_ rfl ?_).trans (rfl : ([0x50, 0x41] : Bytes) = _))
    · rw [Uuid.toDisk_length]; omega
    · intro i hi; rw [e8 (4 + i) (by omega)]
      exact (by decide : ∀ i, i < 2 → byteAt signature (4 + i) = byteAt [0x50, 0x41] i) i hi
  · rw [← congrArg Uuid.d3 hu]
    show rd16 g.toDisk 6 = _
    refine rd16_eq ((slice_eq_of_byteAt (n := 2) ?_ rfl ?_).trans (rfl : ([0x52, 0x54] : Bytes) = _))
    · rw [Uuid.toDisk_length]; omega
    · intro i hi; rw [e8 (6 + i) (by omega)]
      exact (by decide : ∀ i, i < 2 → byteAt signature (6 + i) = byteAt [0x52, 0x54] i) i hi

/-- The beginning of a slot is never the signature. -/
theorem slot_not_signature {ps : List Partition} {n j : Nat} (hj : j < n)
    (hg : ∀ p ∈ ps, NotSignature p.partType.guid) : slice (tableBytes ps n) (j * 128) 8 ≠ signature := by
  have e8 : slice (tableBytes ps n) (j * 128) 8 = slice (slice (tableBytes ps n) (j * 128) 128) 0 8 := by
    rw [slice_slice (by omega), Nat.add_zero]
  rw [e8]
  by_cases h : j < ps.length
  · rw [slice_table_entry h]
    have e16 : slice (ps[j].asBytes 128) 0 8 = slice (slice (ps[j].asBytes 128) 0 16) 0 8 := by rw [slice_slice (by omega)]
    rw [e16, Partition.slice_type]
    exact notSignature_bytes (hg _ (List.getElem_mem h))
  · rw [slice_table_zero (by omega) hj]
    decide

/-- Neither place holds a signature: opening reports that of the first. -/
theorem open_no_signature {m : Mode} {cfg : GptConfig} {d : Dev} (hf : d.faults = []) (hp : d.pos < 2 ^ 64) (hlen : d.data.length < 2 ^ 64)
    (h92 : cfg.lbSize.usize + 92 ≤ d.data.length) (h1 : slice d.data cfg.lbSize.usize 8 ≠ signature)
    (h2 : slice d.data (lastBlockOffset cfg.lbSize d.data) 8 ≠ signature) :
    openFromDevice m cfg d = (.err (.header .invalidGptSignature), d) := by
  obtain ⟨a, b, -, cb, ca, -, e⟩ := open_headers (m := m) (cfg := cfg) hf hp hlen
  have ha : a = .error .invalidGptSignature := by
    rw [ca, readPrimaryHeader_nil hf hp]
    exact ((readHeaderAt_spec _ _).2.2.1).mpr ⟨h92, h1⟩
  have hb : ∃ x, b = .error x := by
    cases hb : b with
    | error x => exact ⟨x, rfl⟩
    | ok h => exact absurd ((cb h).mp hb).1.2.signature h2
  obtain ⟨x, rfl⟩ := hb
  subst ha
  rw [e]
  rfl

/-- **C122**, blocks of 512 bytes opened as blocks of 4096. -/
theorem c122_512 (m m' : Mode) (s s' : GptDisk) (h : Header) (k B : Nat) (cfg : GptConfig) (d : Dev) (hs : SaneDisk s h k B)
    (h5 : s.config.lbSize = .lb512) (hok : writeInplace m s = (.ok (), s')) (hr : s.config.readonlyBackup = false)
    (hB : B + 1 = s.device.data.length / 512) (hn : 56 ≤ h.numParts.toNat)
    (hg : ∀ i p, (i, p) ∈ s.partitions → NotSignature p.partType.guid) (hd : d.data = s'.device.data) (hf : d.faults = []) (hp : d.pos < 2 ^ 64)
    (h4 : cfg.lbSize = .lb4096) : openFromDevice m' cfg d = (.err (.header .invalidGptSignature), d) := by
  have w := write_ok hs hok
  have r := w.regions hs
  rw [← hd] at r
  have hlen := hs.length
  have hlen' : d.data.length = s.device.data.length := by rw [hd, w.length]
  have hk := hs.sane.arrays
  have hmin := hk.minimal (k - 1)
  have hen := hk.enough
  have h1 := hs.sane.first
  have h2 := hs.sane.usable
  have h3 := hs.sane.last
  rw [h5] at hen hmin
  have r1 := r.array
  have r2 := (r.backup hr).2
  rw [h5] at r1 r2
  have u5 : LbSize.lb512.usize = 512 := rfl
  have u4 : LbSize.lb4096.usize = 4096 := rfl
  rw [u5] at hen hmin r1 r2
  have hused : ∀ p ∈ Spec.used s.partitions, NotSignature p.partType.guid := by
    intro p hp
    obtain ⟨e, he, rfl⟩ := List.mem_map.mp (List.mem_filter.mp hp).1
    exact hg e.1 e.2 he
  refine open_no_signature hf hp (by omega) (by rw [h4, u4]; omega) ?_ ?_
  · rw [h4, u4]
    have e : slice d.data 4096 8 = slice (slice d.data (2 * 512) (h.numParts.toNat * 128)) (24 * 128) 8 := by rw [slice_slice (by omega)]
    rw [e, r1]
    exact slot_not_signature (by omega) hused
  · unfold lastBlockOffset
    rw [h4, u4]
    have e : ∃ j, j < h.numParts.toNat ∧ (d.data.length / 4096 - 1) * 4096 = (B - k) * 512 + j * 128 :=
      ⟨(8 * (d.data.length / 4096 - 1) - (B - k)) * 4, by omega, by omega⟩
    obtain ⟨j, hj, e⟩ := e
    rw [e]
    have e : slice d.data ((B - k) * 512 + j * 128) 8 = slice (slice d.data ((B - k) * 512) (h.numParts.toNat * 128)) (j * 128) 8 := by
      rw [slice_slice (by omega)]
    rw [e, r2]
    exact slot_not_signature hj hused

/-- What is before LBA 1 is not written. -/
theorem write_front {s s' : GptDisk} {h : Header} {k B : Nat} (hs : SaneDisk s h k B) (w : Written s h k B s') {off n : Nat}
    (hn : off + n ≤ s.config.lbSize.usize) : slice s'.device.data off n = slice s.device.data off n := by
  have hl := hs.fits
  have hl2 := w.length
  have hkB : k + 3 ≤ B := by
    have h1 := hs.sane.first
    have h2 := hs.sane.usable
    have h3 := hs.sane.last
    omega
  have e1 : s.config.lbSize.usize ≤ (B - k) * s.config.lbSize.usize := Nat.le_mul_of_pos_left _ (by omega)
  have e2 : s.config.lbSize.usize ≤ B * s.config.lbSize.usize := Nat.le_mul_of_pos_left _ (by omega)
  have e3 : s.config.lbSize.usize ≤ (B + 1) * s.config.lbSize.usize := Nat.le_mul_of_pos_left _ (by omega)
  refine slice_congr (by omega) (by omega) fun i hi hi2 => ?_
  rw [w.bytes]
  refine finalByte_outside (fun hc => ?_) fun _ hc => ?_
  · have := hc.1; omega
  · unfold InBackup at hc; omega

/-- **C122**, blocks of 4096 bytes opened as blocks of 512. -/
theorem c122_4096 (m m' : Mode) (s s' : GptDisk) (h : Header) (k B : Nat) (cfg : GptConfig) (d : Dev) (hs : SaneDisk s h k B)
    (h4 : s.config.lbSize = .lb4096) (hok : writeInplace m s = (.ok (), s')) (hr : s.config.readonlyBackup = false)
    (hB : s.device.data.length < (B + 1) * 4096 + 512) (h0 : slice s.device.data 512 8 ≠ signature)
    (hd : d.data = s'.device.data) (hf : d.faults = []) (hp : d.pos < 2 ^ 64)
    (h5 : cfg.lbSize = .lb512) : openFromDevice m' cfg d = (.err (.header .invalidGptSignature), d) := by
  have w := write_ok hs hok
  have r := w.regions hs
  rw [← hd] at r
  have hlen := hs.length
  have hfits := hs.fits
  have hlen' : d.data.length = s.device.data.length := by rw [hd, w.length]
  have u5 : LbSize.lb512.usize = 512 := rfl
  have u4 : LbSize.lb4096.usize = 4096 := rfl
  rw [h4, u4] at hfits
  refine open_no_signature hf hp (by omega) (by rw [h5, u5]; omega) ?_ ?_
  · rw [h5, u5, hd, write_front hs w (by rw [h4, u4]; omega)]
    exact h0
  · unfold lastBlockOffset
    rw [h5, u5]
    obtain ⟨r1, -⟩ := r.backup hr
    rw [h4, u4] at r1
    have e : slice d.data ((d.data.length / 512 - 1) * 512) 8 = slice (slice d.data (B * 4096) 4096) 3584 8 := by
      rw [slice_slice (by omega), show (d.data.length / 512 - 1) * 512 = B * 4096 + 3584 by omega]
    rw [e, r1]
    have : slice ((rebuiltB k B h).block (Gpt.crc32 (tableBytes (Spec.used s.partitions) h.numParts.toNat)) .lb4096) 3584 8 = zeros 8 := by
      refine slice_eq_of_byteAt (by rw [Header.block_length]; decide) (zeros_length _) fun i hi => ?_
      rw [byteAt_zeros]
      unfold Header.block
      rw [byteAt_resize]
      split
      · rw [byteAt_of_length_le]
        rw [Header.encode_length rfl]
        omega
      · rfl
    rw [this]
    decide

/-- **C122**, the exception: a table with blocks of 512 bytes that was there before, with its array in the first 4096 bytes, is still found after
a table with blocks of 4096 bytes was written. -/
theorem c122_stale (m m' m2 : Mode) (s s' : GptDisk) (h : Header) (k B : Nat) (cfg : GptConfig) (d0 d1 d : Dev) (old : GptDisk) (h0 : Header)
    (hs : SaneDisk s h k B) (h4 : s.config.lbSize = .lb4096) (hok : writeInplace m s = (.ok (), s'))
    (h5 : cfg.lbSize = .lb512) (hv : cfg.onlyValidHeaders = false) (hd0 : d0.data = s.device.data) (hf0 : d0.faults = []) (hp0 : d0.pos < 2 ^ 64)
    (hopen : openFromDevice m' cfg d0 = (.ok old, d1)) (hh : old.primaryHeader = .ok h0)
    (harr : h0.partStart.toNat * 512 + 128 * h0.numParts.toNat ≤ 4096)
    (hd : d.data = s'.device.data) (hf : d.faults = []) (hp : d.pos < 2 ^ 64) :
    ∃ s2 d2, openFromDevice m2 cfg d = (.ok s2, d2) ∧ s2.partitions = old.partitions ∧ s2.guid = old.guid ∧ s2.primaryHeader = .ok h0 := by
  have w := write_ok hs hok
  have hlen := hs.length
  have hlen' := w.length
  have u5 : LbSize.lb512.usize = 512 := rfl
  have u4 : LbSize.lb4096.usize = 4096 := rfl
  have front : ∀ {off n}, off + n ≤ 4096 → slice d.data off n = slice d0.data off n := fun {off n} hn => by
    rw [hd, hd0]; exact write_front hs w (by rw [h4, u4]; exact hn)
  have hfits := hs.fits
  rw [h4, u4] at hfits
  have hl0 : d0.data.length = s.device.data.length := by rw [hd0]
  have hl : d.data.length = s.device.data.length := by rw [hd, hlen']
  obtain ⟨a, b, ca, -, -, -, e⟩ := open_headers (m := m2) (cfg := cfg) (d := d) hf hp (by omega)
  obtain ⟨hp1, -⟩ := c44_selected m' cfg d0 d1 old hf0 hp0 (by omega) hopen
  obtain ⟨v0, f0⟩ := (hp1 h0).mp hh
  rw [h5, u5] at f0
  have rd : readHeaderAt d.data 512 = readHeaderAt d0.data 512 := by
    unfold readHeaderAt
    rw [front (by omega), hl, hl0]
  have ha : a = .ok h0 := by
    rw [ca h0, h5]
    exact ((readHeaderAt_spec _ _).1 h0).mp (rd.trans (((readHeaderAt_spec _ _).1 h0).mpr ⟨by rw [h5] at v0; exact v0, f0⟩))
  obtain ⟨h', d2', -, -, -, ht, hg, -, -, -, hdd, hread⟩ := openFromDevice_ok hopen
  obtain rfl : h' = h0 := Except.ok.inj (ht.symm.trans (tryHeader_of_primary hh))
  obtain ⟨q1, q2, -, q3, q4, q5⟩ := fileReadPartitions_ok hread
  rw [hdd] at q4 q5
  rw [h5, u5] at q1 q4 q5
  obtain ⟨p, er⟩ := fileReadPartitions_nil (m := m2) (lb := .lb512) (d := d) hf (by rw [u5]; exact q1) q2 (by rw [u5]; omega) (.inr (by omega))
  rw [u5, front harr, if_pos q4] at er
  have et : tableAt d.data (h'.partStart.toNat * 512) h'.numParts.toNat 0 = old.partitions := by
    rw [q5]
    refine tableAt_congr _ _ fun j _ hj => ?_
    have hj2 : 128 * j + 128 ≤ 128 * h'.numParts.toNat := by omega
    have hb : h'.partStart.toNat * 512 + 128 * j + 128 ≤ 4096 := by
      rw [Nat.add_assoc]
      exact (Nat.add_le_add_left hj2 _).trans harr
    rw [front hb]
  rw [et] at er
  have hsel : selectHeader cfg.onlyValidHeaders a b = .ok h' := by
    rw [select_spec.1]
    exact .inl ⟨ha, fun h => by rw [hv] at h; cases h⟩
  rw [hsel] at e
  refine ⟨⟨cfg, { d with pos := p }, h'.diskGuid, a, b, old.partitions, false⟩, { d with pos := p }, ?_, rfl, hg.symm, ha⟩
  rw [e]
  unfold openRest
  simp only [M.bind_apply, M.mapErr_apply, h5, er]
  rfl

/-- A created disk of 100 blocks of 512 bytes, with two partitions. -/
def twoOn100 : GptDisk :=
  { madeDisk (GptConfig.new.setWritable true) dev100 32 99 Uuid.nil with partitions := [(1, smallPart), (7, smallPart)] }

theorem twoOn100_length : twoOn100.device.data.length = 51200 := dev100_length

theorem twoOn100_sane : SaneDisk twoOn100 (createdP 32 99 Uuid.nil) 32 99 :=
  have h0 := madeDisk_sane (cfg := GptConfig.new.setWritable true) (d := dev100) (k := 32) (B := 99) (g := Uuid.nil)
    (by rw [dev100_length]; decide) enough512 (by rw [dev100_length]; rfl) (by decide)
  ⟨h0.header, h0.sane, h0.fits, h0.length⟩

/-- C122: it is not opened as a disk of 12 blocks of 4096 bytes. -/
example (m m' : Mode) : ∃ s', writeInplace m twoOn100 = (.ok (), s') ∧
    openFromDevice m' (GptConfig.new.setLogicalBlockSize .lb4096) { s'.device with pos := 0 } =
      (.err (.header .invalidGptSignature), { s'.device with pos := 0 }) := by
  have hs := twoOn100_sane
  have hroom : (Spec.used [((1 : UInt32), smallPart), (7, smallPart)]).length ≤ 128 := by decide
  have hok := c62_write_succeeds m _ _ 32 99 hs rfl hroom rfl (by show 100 * 512 ≤ 51200; omega)
  have hf := c36_faults m _ _ 32 99 hs rfl
  rcases hx : writeInplace m twoOn100 with ⟨r, s'⟩
  rw [hx] at hok hf
  obtain rfl : r = .ok () := hok
  refine ⟨s', rfl, c122_512 m m' _ s' _ 32 99 _ _ hs rfl hx rfl ?_ (by show 56 ≤ 128; omega) ?_ rfl hf (by show 0 < 2 ^ 64; decide) rfl⟩
  · have := twoOn100_length
    omega
  intro i p hp
  have hp : (i, p) ∈ [((1 : UInt32), smallPart), (7, smallPart)] := hp
  have : p = smallPart := by
    simp only [List.mem_cons, List.not_mem_nil, or_false, Prod.mk.injEq] at hp
    rcases hp with ⟨-, h⟩ | ⟨-, h⟩ <;> exact h
  rw [this]
  unfold NotSignature
  decide

theorem enough4096 : JustEnough .lb4096 (128 * 128) 4 :=
  ⟨by decide, fun j hj => by have hj : 128 * 128 ≤ j * 4096 := hj; omega⟩

/-- A device of 12 blocks of 4096 bytes with a table of 512-byte blocks. -/
def usedBefore : Bytes := imageOf sampleHeader (crc32 (tableBytes [smallPart] 8)) (tableBytes [smallPart] 8 ++ zeros 47104)

theorem usedBefore_length : usedBefore.length = 49152 := by
  unfold usedBefore
  rw [imageOf_length rfl, List.length_append, tableBytes_length (by decide), zeros_length]

/-- A new table of 4096-byte blocks on a device. -/
def anew (data : Bytes) : GptDisk := madeDisk ((GptConfig.new.setWritable true).setLogicalBlockSize .lb4096) ⟨data, 0, 49152, [], []⟩ 4 11 Uuid.nil

theorem anew_sane {data : Bytes} (hd : data.length = 49152) : SaneDisk (anew data) (createdP 4 11 Uuid.nil) 4 11 :=
  madeDisk_sane (by show data.length < _; omega) enough4096 (by show data.length / 4096 = _; omega) (by decide)

theorem anew_written (m : Mode) {data : Bytes} (hd : data.length = 49152) :
    ∃ s', writeInplace m (anew data) = (.ok (), s') ∧ s'.device.faults = [] := by
  have hs := anew_sane hd
  have hok := c62_write_succeeds m _ _ 4 11 hs rfl (Nat.zero_le _) rfl (by show 12 * 4096 ≤ 49152; omega)
  have hf := c36_faults m _ _ 4 11 hs rfl
  rcases hx : writeInplace m (anew data) with ⟨r, s'⟩
  rw [hx] at hok hf
  obtain rfl : r = .ok () := hok
  exact ⟨s', rfl, hf⟩

/-- C122: a new table of 4096-byte blocks on an empty device is not found with 512-byte blocks. -/
example (m m' : Mode) : ∃ s', writeInplace m (anew (zeros 49152)) = (.ok (), s') ∧
    openFromDevice m' GptConfig.new { s'.device with pos := 0 } = (.err (.header .invalidGptSignature), { s'.device with pos := 0 }) := by
  obtain ⟨s', hx, hf⟩ := anew_written m (zeros_length 49152)
  refine ⟨s', hx, c122_4096 m m' _ s' _ 4 11 _ _ (anew_sane (zeros_length _)) rfl hx rfl ?_ ?_ rfl hf (by show 0 < 2 ^ 64; decide) rfl⟩
  · show (zeros 49152).length < _; rw [zeros_length]; decide
  · show slice (zeros 49152) 512 8 ≠ signature
    have : slice (zeros 49152) 512 8 = zeros 8 := slice_eq_of_byteAt (by rw [zeros_length]; decide) (zeros_length _) fun i _ => by
      rw [byteAt_zeros, byteAt_zeros]
    rw [this]
    decide

/-- C122: written on the device used before, the old partition is found. -/
example (m m' : Mode) : ∃ s' s2 d2, writeInplace m (anew usedBefore) = (.ok (), s') ∧
    openFromDevice m' GptConfig.new { s'.device with pos := 0 } = (.ok s2, d2) ∧ s2.partitions = numberFrom 0 [smallPart] := by
  obtain ⟨s', hx, hf⟩ := anew_written m usedBefore_length
  obtain ⟨arr, ha⟩ : ∃ arr, tableBytes [smallPart] 8 = arr := ⟨_, rfl⟩
  have hal : arr.length = 1024 := by rw [← ha, tableBytes_length (by decide)]
  have hu : usedBefore = imageOf sampleHeader (crc32 arr) (arr ++ zeros 47104) := by unfold usedBefore; rw [ha]
  have hul := usedBefore_length
  obtain ⟨b, e⟩ := open_image (m := m') (cfg := GptConfig.new) (h := sampleHeader) rfl (c := crc32 arr) rfl (rest := arr ++ zeros 47104) rfl rfl
    (cap := 49152) (by rw [List.length_append, zeros_length]; omega)
  have sl : slice usedBefore 1024 1024 = arr := by
    rw [hu, slice_imageOf rfl, slice_append_left (by omega), slice_zero_length hal]
  rw [← hu] at e
  obtain ⟨p, e2⟩ := openRest_stored (m := m') (cfg := GptConfig.new) (h1 := .ok (sampleHeader.sealed (crc32 arr))) (h2 := b)
    (h := sampleHeader.sealed (crc32 arr)) (d := ⟨usedBefore, 0, 49152, [], []⟩) (ps := [smallPart]) (off := 1024) rfl
    (by show 2 * 512 = 1024; omega) rfl (by show 8 * 128 < 2 ^ 32; omega) (by show 1 ≤ 8; omega) (by decide) (by show 1024 + 8 * 128 ≤ usedBefore.length; omega)
    (by show usedBefore.length < _; omega) (by show slice usedBefore 1024 1024 = tableBytes [smallPart] 8; rw [sl, ha])
    (by show crc32 arr = crc32 (tableBytes [smallPart] 8); rw [ha])
  obtain ⟨s2, d2, h1, h2, -⟩ := c122_stale m m' m' _ s' _ 4 11 GptConfig.new ⟨usedBefore, 0, 49152, [], []⟩ _ { s'.device with pos := 0 } _
    (sampleHeader.sealed (crc32 arr)) (anew_sane usedBefore_length) rfl hx rfl rfl rfl rfl (by show 0 < 2 ^ 64; decide) (e.trans e2) rfl
    (by show 2 * 512 + 128 * 8 ≤ 4096; omega) rfl hf (by show 0 < 2 ^ 64; decide)
  exact ⟨s', s2, d2, hx, h1, h2⟩

end Gpt
