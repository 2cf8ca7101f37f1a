import Verif.Lemmas.HeaderIo
/-!
# C04, C05, C08, C15, C57, C60: reading and writing headers
-/

namespace Gpt

/-! ## C04 -/

/-- The UEFI layout of a header gives its bytes back when the header is stored with `encode`. -/
theorem headerAt_of_read {data : Bytes} {off : Nat} {h : Header} (hr : readHeaderAt data off = .ok h) :
    Spec.ValidAt data off ∧ Spec.HeaderAt data off h := ((readHeaderAt_spec data off).1 h).mp hr

/-- The stored header is read back from the block it was written to. -/
theorem read_written {lba : UInt64} {lb : LbSize} {h : Header} {d : Dev} {n : Nat} {s' : Header × Dev}
    (hs : h.signature = Spec.signature) (hr : Header.fileWriteHeader lba lb (h, d) = (.ok n, s')) :
    readHeaderAt s'.2.data (lba.toNat * lb.usize) = .ok { s'.1 with reserved := 0 } := by
  have hl : h.signature.length = 8 := by rw [hs]; rfl
  obtain ⟨_, e2, e3, _, _, _, _, _, _⟩ := Header.fileWriteHeader_ok hl hr
  rw [e3, readHeaderAt_ok]
  have h512 := lb_le lb
  constructor
  · rw [patch_length, Header.block_length]; omega
  · have : slice (patch d.data (lba.toNat * lb.usize) (h.block (crc32 (slice d.data (h.arrayStart lb) h.arrayLen)) lb))
        (lba.toNat * lb.usize) 92 = h.encode (crc32 (slice d.data (h.arrayStart lb) h.arrayLen)) := by
      rw [← Header.slice_block hl _ lb]
      conv_rhs => rw [← slice_patch_self d.data (lba.toNat * lb.usize) (h.block _ lb), Header.block_length]
      rw [slice_slice (by omega), Nat.add_zero]
    rw [this, Header.parse_encode hs, e2]

/-- **C04**. A header (with the GPT signature) that was written to block `lba`, whatever the state of the device before:
the in-memory header keeps every field except the two checksums, `crc32_parts` is the checksum of the partition array
that was on the device, and reading the block back – from any device with the resulting content – succeeds and returns
exactly that header (`reserved` is always stored as 0, as it is in every header the library builds or stored itself). -/
theorem c04_write_read (lba off : UInt64) (lb : LbSize) (h h' : Header) (d d' r : Dev) (n : Nat)
    (hs : h.signature = Spec.signature) (hw : Header.fileWriteHeader lba lb (h, d) = (.ok n, (h', d')))
    (hoff : off.toNat = lba.toNat * lb.usize) (hr : r.data = d'.data) (hf : r.faults = []) :
    (fileReadHeader off r).1 = .ok { h' with reserved := 0 } ∧
    h' = { h with
      crc32 := h'.crc32
      crc32Parts := crc32 (slice d.data (h.partStart.toNat * lb.usize) (h.numParts.toNat * h.partSize.toNat)) } ∧
    h'.crc32 = crc32 (Spec.withoutCrc d'.data (lba.toNat * lb.usize)) ∧
    Spec.ValidAt d'.data (lba.toNat * lb.usize) ∧ Spec.HeaderAt d'.data (lba.toNat * lb.usize) { h' with reserved := 0 } := by
  have hl : h.signature.length = 8 := by rw [hs]; rfl
  have hread := read_written hs hw
  obtain ⟨hv, hat⟩ := headerAt_of_read hread
  obtain ⟨_, e2, _⟩ := Header.fileWriteHeader_ok hl hw
  obtain ⟨p, e⟩ := fileReadHeader_nil (off := off) hf
  refine ⟨?_, ?_, ?_, hv, hat⟩
  · rw [e, hr, hoff]; exact hread
  · simp only at e2
    rw [e2]; rfl
  · apply UInt32.toNat_inj.mp
    rw [← hv.checksum]
    exact hat.crc32

/-- The public writers are `fileWriteHeader` at the header's own LBA, guarded by a check of the LBA order. -/
theorem c04_primary_backup (lb : LbSize) (h : Header) (d : Dev) :
    (h.currentLba < h.backupLba → Header.writePrimary lb (h, d) = Header.fileWriteHeader h.currentLba lb (h, d)) ∧
    (¬ h.currentLba < h.backupLba → Header.writePrimary lb (h, d) = (.err .writingToWrongLba, (h, d))) ∧
    (h.backupLba < h.currentLba → Header.writeBackup lb (h, d) = Header.fileWriteHeader h.currentLba lb (h, d)) ∧
    (¬ h.backupLba < h.currentLba → Header.writeBackup lb (h, d) = (.err .writingToWrongLba, (h, d))) := by
  unfold Header.writePrimary Header.writeBackup
  simp only [M.bind_apply, M.get_apply]
  refine ⟨fun e => ?_, fun e => ?_, fun e => ?_, fun e => ?_⟩
  · rw [if_neg (by rw [ge_iff_le, UInt64.not_le]; exact e)]
  · rw [if_pos (by rw [ge_iff_le]; exact UInt64.not_lt.mp e)]; rfl
  · rw [if_neg (by rw [UInt64.not_le]; exact e)]
  · rw [if_pos (UInt64.not_lt.mp e)]; rfl

/-- A header for the examples: 8 entries of 128 bytes at LBA 2 on a disk of 101 blocks. -/
def sampleHeader : Header where
  signature := Spec.signature
  revision := (1, 0)
  headerSizeLe := 92
  crc32 := 0
  reserved := 0
  currentLba := 1
  backupLba := 100
  firstUsable := 4
  lastUsable := 97
  diskGuid := ⟨1, 2, 3, 4⟩
  partStart := 2
  numParts := 8
  partSize := 128
  crc32Parts := 0

def sampleDev : Dev := ⟨zeros 4096, 0, 4096, [], []⟩

/-- The hypotheses of C04 are met: the sample header can be written to the sample device. -/
theorem sample_written : ∃ s', Header.fileWriteHeader 1 .lb512 (sampleHeader, sampleDev) = (.ok 512, s') ∧ s'.2.faults = [] :=
  Header.fileWriteHeader_nil rfl rfl (by decide) (by decide) (by simp only [sampleDev, zeros_length]; decide) (by decide) (by decide)

example : ∃ h' d', Header.fileWriteHeader 1 .lb512 (sampleHeader, sampleDev) = (.ok 512, (h', d')) ∧ d'.faults = [] ∧
    (fileReadHeader 512 d').1 = .ok { h' with reserved := 0 } := by
  obtain ⟨⟨h', d'⟩, e, f⟩ := sample_written
  exact ⟨h', d', e, f, (c04_write_read 1 512 .lb512 sampleHeader h' sampleDev d' d' 512 rfl e rfl rfl f).1⟩

/-! ## C05 -/

/-- **C05**. Without I/O faults, reading a header at `off` succeeds exactly when the bytes there are a valid header, and
then returns the fields stored there; the error otherwise names the first check that failed. The device content is never
changed. -/
theorem c05_read_header (off : UInt64) (d : Dev) (hf : d.faults = []) :
    (∀ h, (fileReadHeader off d).1 = .ok h ↔ Spec.ValidAt d.data off.toNat ∧ Spec.HeaderAt d.data off.toNat h) ∧
    ((fileReadHeader off d).1 = .err (.io .unexpectedEof) ↔ d.data.length < off.toNat + 92) ∧
    ((fileReadHeader off d).1 = .err .invalidGptSignature ↔
      off.toNat + 92 ≤ d.data.length ∧ slice d.data off.toNat 8 ≠ Spec.signature) ∧
    ((fileReadHeader off d).1 = .err .invalidCrc32Checksum ↔
      off.toNat + 92 ≤ d.data.length ∧ slice d.data off.toNat 8 = Spec.signature ∧
      Spec.num d.data (off.toNat + 16) 4 ≠ (crc32 (Spec.withoutCrc d.data off.toNat)).toNat) ∧
    (fileReadHeader off d).2.data = d.data := by
  obtain ⟨p, e⟩ := fileReadHeader_nil (off := off) hf
  obtain ⟨h1, h2, h3, h4⟩ := readHeaderAt_spec d.data off.toNat
  rw [e]
  exact ⟨h1, h2, h3, h4, rfl⟩

/-- **C05**: some header is returned exactly for valid bytes. -/
theorem c05_accepts (off : UInt64) (d : Dev) (hf : d.faults = []) :
    (∃ h, (fileReadHeader off d).1 = .ok h) ↔ Spec.ValidAt d.data off.toNat := by
  obtain ⟨h1, -⟩ := c05_read_header off d hf
  constructor
  · rintro ⟨h, e⟩; exact ((h1 h).mp e).1
  · intro hv
    exact ⟨headerOfBytes (slice d.data off.toNat 92), (h1 _).mpr ⟨hv, (headerOfBytes_iff hv.fits).mp rfl⟩⟩

/-- **C05** for the public readers: the primary header is at LBA 1, the backup header in the last whole block; position
and content of the device are as before. -/
theorem c05_primary_backup (lb : LbSize) (d : Dev) (hf : d.faults = []) (hp : d.pos < 2 ^ 64) (hlen : d.data.length < 2 ^ 64) :
    (∀ h, (readPrimaryHeader lb d).1 = .ok h ↔ Spec.ValidAt d.data lb.usize ∧ Spec.HeaderAt d.data lb.usize h) ∧
    (readPrimaryHeader lb d).2 = d ∧
    (∀ h, (readBackupHeader lb d).1 = .ok h ↔ 3 * lb.usize ≤ d.data.length ∧
      Spec.ValidAt d.data ((d.data.length / lb.usize - 1) * lb.usize) ∧
      Spec.HeaderAt d.data ((d.data.length / lb.usize - 1) * lb.usize) h) ∧
    (readBackupHeader lb d).2 = d := by
  rw [readPrimaryHeader_nil hf hp, readBackupHeader_nil hf hp hlen]
  refine ⟨(readHeaderAt_spec d.data lb.usize).1, rfl, fun h => ?_, rfl⟩
  simp only
  unfold readBackupAt
  split
  · simp; omega
  · rw [(readHeaderAt_spec d.data _).1 h]
    unfold backupOffset lastBlock
    constructor
    · intro e; exact ⟨by omega, e⟩
    · intro e; exact e.2

/-- A valid header exists (the hypothesis of C05 and C08 is met), for every offset. -/
theorem sample_valid (p q : Bytes) : Spec.ValidAt (p ++ sampleHeader.encode 7 ++ q) p.length ∧
    readHeaderAt (p ++ sampleHeader.encode 7 ++ q) p.length = .ok (sampleHeader.sealed 7) := by
  have hl : (sampleHeader.encode 7).length = 92 := Header.encode_length rfl 7
  have h : readHeaderAt (p ++ sampleHeader.encode 7 ++ q) p.length = .ok (sampleHeader.sealed 7) := by
    rw [readHeaderAt_ok]
    refine ⟨by simp only [List.length_append, hl]; omega, ?_⟩
    rw [List.append_assoc, slice_skip (Nat.le_refl _), Nat.sub_self, slice_head hl, Header.parse_encode rfl]
    rfl
  exact ⟨(headerAt_of_read h).1, h⟩

/-! ## C08 -/

theorem withoutCrc_length {data : Bytes} {off : Nat} (hl : off + 92 ≤ data.length) : (Spec.withoutCrc data off).length = 92 := by
  have l1 := slice_length_of_le (d := data) (off := off) (n := 16) (by omega)
  have l2 := slice_length_of_le (d := data) (off := off + 20) (n := 72) (by omega)
  simp [Spec.withoutCrc, l1, l2]

theorem byteAt_withoutCrc {data : Bytes} {off : Nat} (hl : off + 92 ≤ data.length) {i : Nat} (hi : i < 92) :
    byteAt (Spec.withoutCrc data off) i = if 16 ≤ i ∧ i < 20 then 0 else byteAt data (off + i) := by
  rw [← withoutCrc_eq hl, byteAt_patch]
  simp only [zeros_length, byteAt_zeros]
  split
  · rfl
  · rw [byteAt_slice, if_pos hi]

theorem leVal_inj {a b : Bytes} (hl : a.length = b.length) (h : leVal a = leVal b) : a = b := by
  rw [← leBytes_leVal a, ← leBytes_leVal b, hl, h]

/-- **C08**. Take a valid header at `off`. If the 92 bytes are changed, and all changes lie within four consecutive bytes
that are disjoint from or inside the checksum field (bytes 16..20), then there is no valid header at `off` any more, so
reading fails. -/
theorem c08_corruption (data data' : Bytes) (off k : Nat) (hv : Spec.ValidAt data off) (hlen : data'.length = data.length)
    (hk : k + 4 ≤ 16 ∨ k = 16 ∨ 20 ≤ k)
    (hout : ∀ i, i < off + k ∨ off + k + 4 ≤ i → byteAt data' i = byteAt data i)
    (hne : ∃ i, off ≤ i ∧ i < off + 92 ∧ byteAt data' i ≠ byteAt data i) : ¬ Spec.ValidAt data' off := by
  intro hv'
  obtain ⟨j, hj1, hj2, hj3⟩ := hne
  have hjk : off + k ≤ j ∧ j < off + k + 4 := by
    by_contra hc
    exact hj3 (hout j (by omega))
  have hfit := hv.fits
  have hfit' := hv'.fits
  have c1 := hv.checksum
  have c2 := hv'.checksum
  by_cases h16 : k = 16
  · subst h16
    have hw : Spec.withoutCrc data' off = Spec.withoutCrc data off := by
      refine bytes_ext (by rw [withoutCrc_length hfit, withoutCrc_length hfit']) fun i hi => ?_
      rw [withoutCrc_length hfit'] at hi
      rw [byteAt_withoutCrc hfit' hi, byteAt_withoutCrc hfit hi]
      split
      · rfl
      · exact hout _ (by omega)
    rw [hw, ← c1] at c2
    have hs := leVal_inj (by rw [slice_length_of_le (by omega), slice_length_of_le (by omega)]) c2
    have := congrArg (fun b => byteAt b (j - (off + 16))) hs
    simp only [byteAt_slice] at this
    rw [if_pos (by omega), if_pos (by omega), show off + 16 + (j - (off + 16)) = j by omega] at this
    exact hj3 this
  · have hs : slice data' (off + 16) 4 = slice data (off + 16) 4 :=
      slice_congr (by omega) (by omega) fun i h1 h2 => hout i (by omega)
    have hcrc : crc32 (Spec.withoutCrc data' off) = crc32 (Spec.withoutCrc data off) := by
      apply UInt32.toNat_inj.mp
      rw [← c1, ← c2]
      unfold Spec.num
      rw [hs]
    refine crc32_ne (k := k) (by rw [withoutCrc_length hfit, withoutCrc_length hfit']) (fun i hi => ?_) (fun e => ?_) hcrc
    · by_cases h92 : i < 92
      · rw [byteAt_withoutCrc hfit' h92, byteAt_withoutCrc hfit h92]
        split
        · rfl
        · exact hout _ (by omega)
      · rw [byteAt_of_length_le (by rw [withoutCrc_length hfit']; omega),
          byteAt_of_length_le (by rw [withoutCrc_length hfit]; omega)]
    · have := congrArg (fun b => byteAt b (j - off)) e
      rw [byteAt_withoutCrc hfit' (by omega), byteAt_withoutCrc hfit (by omega), if_neg (by omega), if_neg (by omega),
        show off + (j - off) = j by omega] at this
      exact hj3 this

/-- **C08** for the reader: a fault-free read at `off` returns no header from the altered device. -/
theorem c08_read_fails (off : UInt64) (k : Nat) (d d' : Dev) (h h' : Header) (hf : d.faults = []) (hf' : d'.faults = [])
    (hv : (fileReadHeader off d).1 = .ok h) (hlen : d'.data.length = d.data.length)
    (hk : k + 4 ≤ 16 ∨ k = 16 ∨ 20 ≤ k)
    (hout : ∀ i, i < off.toNat + k ∨ off.toNat + k + 4 ≤ i → byteAt d'.data i = byteAt d.data i)
    (hne : ∃ i, off.toNat ≤ i ∧ i < off.toNat + 92 ∧ byteAt d'.data i ≠ byteAt d.data i) :
    (fileReadHeader off d').1 ≠ .ok h' := by
  intro e
  exact c08_corruption d.data d'.data off.toNat k (((c05_read_header off d hf).1 h).mp hv).1 hlen hk hout hne
    (((c05_read_header off d' hf').1 h').mp e).1

/-- C08 on the sample header: flip a bit of the partition count. -/
example : Spec.ValidAt (sampleHeader.encode 7) 0 ∧
    ¬ Spec.ValidAt (patch (sampleHeader.encode 7) 80 [9]) 0 := by
  have hl : (sampleHeader.encode 7).length = 92 := Header.encode_length rfl 7
  have hv : Spec.ValidAt (sampleHeader.encode 7) 0 := by simpa using (sample_valid [] []).1
  refine ⟨hv, c08_corruption (sampleHeader.encode 7) _ 0 80 hv (by rw [patch_length, hl]; simp) (by omega) (fun i hi => ?_)
    ⟨80, by omega, by omega, ?_⟩⟩
  · exact byteAt_patch_outside (by simp only [List.length_cons, List.length_nil]; omega)
  · rw [byteAt_patch_inside (by omega) (by simp)]
    have h1 := Header.slice_encode (h := sampleHeader) rfl 7 (a := 80) (n := 4) (by omega) (by omega)
    rw [Header.sl_num (h := sampleHeader) rfl] at h1
    have h2 := congrArg (fun b => byteAt b 0) h1
    simp only [byteAt_slice] at h2
    rw [if_pos (by omega)] at h2
    rw [h2]
    decide

/-! ## C15 -/

/-- **C15**. Whenever `find_backup_lba` succeeds – whatever I/O calls were made to fail – the answer is the last whole
block of the device; content and position are unchanged. -/
theorem c15_location (lb : LbSize) (d d' : Dev) (b : UInt64) (hp : d.pos < 2 ^ 64) (hlen : d.data.length < 2 ^ 64)
    (h : findBackupLba lb d = (.ok b, d')) :
    lb.usize * (b.toNat + 1) ≤ d.data.length ∧ d.data.length < lb.usize * (b.toNat + 2) ∧ 2 ≤ b.toNat ∧
    d'.data = d.data ∧ d'.pos = d.pos := by
  obtain ⟨e1, e2, e3, e4⟩ := findBackupLba_ok hp hlen h
  obtain ⟨l1, l2, l3⟩ := lastBlock_lt e1
  rw [e2, Nat.mul_comm, Nat.mul_comm lb.usize]
  exact ⟨l2, l3, l1, e4, e3⟩

/-- **C15** (refusal). Without faults it fails exactly on devices of fewer than three blocks, with `ToSmallForBackup`. -/
theorem c15_refusal (lb : LbSize) (d : Dev) (hf : d.faults = []) (hp : d.pos < 2 ^ 64) (hlen : d.data.length < 2 ^ 64) :
    ((findBackupLba lb d).1 = .err .toSmallForBackup ↔ d.data.length < 3 * lb.usize) ∧
    ((∃ b, (findBackupLba lb d).1 = .ok b) ↔ 3 * lb.usize ≤ d.data.length) ∧ (findBackupLba lb d).2 = d := by
  rw [findBackupLba_nil hf hp hlen]
  by_cases h : d.data.length < 3 * lb.usize
  · simp [h]
  · simp [h]; omega

/-- **C15** (every outcome). The device content is never changed and nothing panics. -/
theorem c15_content (lb : LbSize) (d : Dev) :
    (findBackupLba lb d).2.data = d.data ∧ (findBackupLba lb d).1 ≠ .panic :=
  ⟨(findBackupLba_quiet lb d).data, findBackupLba_noPanic lb d⟩

example : (findBackupLba .lb512 ⟨zeros 5200, 3, 5200, [], []⟩).1 = .ok 9 := by
  rw [findBackupLba_nil rfl (by decide) (by simp only [zeros_length]; decide)]
  simp only [zeros_length]
  decide

/-! ## C60 -/

/-- The full claim of C60: a successful read returned the header stored at the requested offset. -/
def C60 : Prop := ∀ (off : UInt64) (d d' : Dev) (h : Header), fileReadHeader off d = (.ok h, d') →
  Spec.HeaderAt d.data off.toNat h ∧ Spec.ValidAt d.data off.toNat

/-- **C60 is false**: `file_read_header` ignores the result of its `seek`. When that one call fails, the header is read
from wherever the stream happens to be. -/
theorem c60_fails : ¬ C60 := by
  intro hc
  have hv := (sample_valid [] (zeros 100)).2
  simp only [List.nil_append, List.length_nil] at hv
  have hl : (sampleHeader.encode 7).length = 92 := Header.encode_length rfl 7
  obtain ⟨hlen, hparse⟩ := readHeaderAt_ok.mp hv
  have hrun : fileReadHeader 100 ⟨sampleHeader.encode 7 ++ zeros 100, 0, 192, [.fail 0], []⟩ =
      (.ok (sampleHeader.sealed 7), ⟨sampleHeader.encode 7 ++ zeros 100, 92, 192, [], []⟩) := by
    unfold fileReadHeader
    simp only [M.bind_apply, M.attempt_apply, M.mapErr_apply]
    have hs : Dev.seekStart 100 ⟨sampleHeader.encode 7 ++ zeros 100, 0, 192, [.fail 0], []⟩ =
        (.err .device, ⟨sampleHeader.encode 7 ++ zeros 100, 0, 192, [], []⟩) := rfl
    rw [hs]
    simp only
    rw [Dev.readExact_nil rfl (by simpa using hlen)]
    simp only [Res.mapErr_ok, M.lift_apply, hparse, Nat.zero_add]
  have := (hc _ _ _ _ hrun).2.signature
  have hz : slice (sampleHeader.encode 7 ++ zeros 100) 100 8 = zeros 8 := by
    rw [slice_skip (by omega), hl]
    decide
  have e100 : (100 : UInt64).toNat = 100 := rfl
  simp only [e100, hz] at this
  revert this
  decide

/-- **C60**, what holds (missing: a failing `seek`). If the seek does not fail, a successful read – whatever else fails –
returned the header at the requested offset. -/
theorem c60_partial (off : UInt64) (d d' : Dev) (h : Header) (hn : d.nextFault = .none)
    (hr : fileReadHeader off d = (.ok h, d')) : Spec.HeaderAt d.data off.toNat h ∧ Spec.ValidAt d.data off.toNat := by
  obtain ⟨h1, h2⟩ := fileReadHeader_ok hn hr
  obtain ⟨h3, h4⟩ := headerAt_of_read (readHeaderAt_ok.mpr ⟨h2, h1⟩)
  exact ⟨h4, h3⟩

/-- **C60**, exactly: a successful read returned the valid header at the requested offset if the seek worked, and the one at the
position of the stream if it failed. -/
theorem c60_exact (off : UInt64) (d d' : Dev) (h : Header) (hr : fileReadHeader off d = (.ok h, d')) :
    Spec.HeaderAt d.data (if d.nextFault = .none then off.toNat else d.pos) h ∧
    Spec.ValidAt d.data (if d.nextFault = .none then off.toNat else d.pos) := by
  cases hn : d.nextFault with
  | none => exact c60_partial off d d' h hn hr
  | fail k =>
    rw [if_neg (by simp)]
    unfold fileReadHeader at hr
    simp only [M.bind_ok, M.mapErr_ok, M.lift_ok] at hr
    obtain ⟨_, d1, h1, b, d2, h2, h3, _⟩ := hr
    have hd1 : d1 = d.tick := by
      rw [M.attempt_apply] at h1
      unfold Dev.seekStart at h1
      rw [hn] at h1
      simp only [Prod.mk.injEq] at h1
      exact h1.2.symm
    subst hd1
    obtain ⟨e1, _, _, _, _, e2⟩ := Dev.readExact_ok h2
    subst e1
    obtain ⟨h5, h6⟩ := headerAt_of_read (readHeaderAt_ok.mpr ⟨e2.resolve_left (by omega), h3⟩)
    exact ⟨h6, h5⟩

/-- **C60**, without any condition: the returned header is a valid header stored at the requested offset or at the
stream position the read started from; it is never made up. -/
theorem c60_somewhere_partial (off : UInt64) (d d' : Dev) (h : Header) (hr : fileReadHeader off d = (.ok h, d')) :
    (Spec.HeaderAt d.data off.toNat h ∧ Spec.ValidAt d.data off.toNat) ∨
    (Spec.HeaderAt d.data d.pos h ∧ Spec.ValidAt d.data d.pos) := by
  have hx := c60_exact off d d' h hr
  by_cases hn : d.nextFault = .none
  · rw [if_pos hn] at hx
    exact .inl hx
  · rw [if_neg hn] at hx
    exact .inr hx

/-- The read of `c60_fails` succeeds with a failing seek. -/
example : ∃ d', fileReadHeader 100 ⟨sampleHeader.encode 7 ++ zeros 100, 0, 192, [.fail 0], []⟩ = (.ok (sampleHeader.sealed 7), d') := by
  have hv := (sample_valid [] (zeros 100)).2
  simp only [List.nil_append, List.length_nil] at hv
  obtain ⟨hlen, hparse⟩ := readHeaderAt_ok.mp hv
  unfold fileReadHeader
  simp only [M.bind_apply, M.attempt_apply, M.mapErr_apply]
  have hs : Dev.seekStart 100 ⟨sampleHeader.encode 7 ++ zeros 100, 0, 192, [.fail 0], []⟩ =
      (.err .device, ⟨sampleHeader.encode 7 ++ zeros 100, 0, 192, [], []⟩) := rfl
  rw [hs]
  simp only
  rw [Dev.readExact_nil rfl (by simpa using hlen)]
  simp only [Res.mapErr_ok, M.lift_apply, hparse]
  exact ⟨_, rfl⟩

end Gpt
