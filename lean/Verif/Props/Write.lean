import Verif.Lemmas.Reopen
import Verif.Lemmas.Frame
/-!
# Writing: C30 – C33, C38 – C41, C62, C64
-/

namespace Gpt

open Spec GptDisk

/-! ## A small disk

Ten blocks of 512 bytes: LBA 1 header, LBA 2 an array of four entries, 3..=7 usable, LBA 8 backup array, LBA 9 backup header. -/

def smallHeader : Header where
  signature := efiPart
  revision := (1, 0)
  headerSizeLe := 92
  crc32 := 0
  reserved := 0
  currentLba := 1
  backupLba := 9
  firstUsable := 3
  lastUsable := 7
  diskGuid := ⟨1, 2, 3, 4⟩
  partStart := 2
  numParts := 4
  partSize := 128
  crc32Parts := 0

def smallPart : Partition := ⟨⟨⟨9, 9, 9, 9⟩, .none⟩, ⟨5, 6, 7, 8⟩, 3, 4, 0, "data"⟩

def smallDisk (t : PMap) : GptDisk where
  config := GptConfig.new.setWritable true
  device := ⟨zeros 5120, 0, 5120, [], []⟩
  guid := ⟨1, 2, 3, 4⟩
  primaryHeader := .ok smallHeader
  backupHeader := .error .invalidGptSignature
  partitions := t
  syncAll := false

theorem smallSane : SaneHeader .lb512 1 9 smallHeader where
  entry := rfl
  count := by decide
  arrays := ⟨by decide, fun j hj => by
    have e : smallHeader.numParts.toNat * 128 = 512 := rfl
    have e2 : LbSize.lb512.usize = 512 := rfl
    rw [e, e2] at hj; omega⟩
  lbas := .inl ⟨rfl, rfl⟩
  first := by decide
  usable := by decide
  last := by decide

theorem smallDisk_sane (t : PMap) : SaneDisk (smallDisk t) smallHeader 1 9 where
  header := rfl
  sane := smallSane
  fits := by show 10 * 512 ≤ (zeros 5120).length; rw [zeros_length]
  length := by show (zeros 5120).length < _; rw [zeros_length]; decide

/-! ## C62 -/

/-- **C62**. -/
theorem c62_write_succeeds (m : Mode) (s : GptDisk) (h : Header) (k B : Nat) (hs : SaneDisk s h k B)
    (hw : s.config.writable = true) (hroom : (Spec.used s.partitions).length ≤ h.numParts.toNat) (hf : s.device.faults = [])
    (hcap : (B + 1) * s.config.lbSize.usize ≤ s.device.cap) : (writeInplace m s).1 = .ok () :=
  write_nil hs hw hroom hf hcap

/-- The converse for the count: with too many used partitions, or without write permission, `write_inplace` never succeeds,
whatever the device does. -/
theorem c62_conditions (m : Mode) (s : GptDisk) (h : Header) (k B : Nat) (hs : SaneDisk s h k B)
    (hok : (writeInplace m s).1 = .ok ()) : s.config.writable = true ∧ (Spec.used s.partitions).length ≤ h.numParts.toNat := by
  have w := write_ok hs (Prod.ext hok rfl : writeInplace m s = (.ok (), _))
  exact ⟨w.writable, w.room⟩

theorem smallDisk_writes (m : Mode) (t : PMap) (ht : (Spec.used t).length ≤ 4) : (writeInplace m (smallDisk t)).1 = .ok () :=
  c62_write_succeeds m _ smallHeader 1 9 (smallDisk_sane t) rfl ht rfl (by show 10 * 512 ≤ 5120; decide)

/-- Two partitions, one slot between them free. -/
example : (writeInplace .debug (smallDisk [(1, smallPart), (3, { smallPart with firstLba := 5, lastLba := 7 })])).1 = .ok () :=
  smallDisk_writes _ _ (by decide)

/-! ## C30 -/

/-- **C30**. Any device with the content left by a successful write opens (for `only_valid_headers`: if a valid backup header is
in its last block). The header in use is the one the written disk holds; it keeps GUID, count and first usable block, and ends
the usable range right before the backup array. The table holds exactly the used partitions, in order, numbered from 1. -/
theorem c30_write_open (m m' : Mode) (s s' : GptDisk) (h : Header) (k B : Nat) (cfg : GptConfig) (d : Dev) (hs : SaneDisk s h k B)
    (hok : writeInplace m s = (.ok (), s')) (hd : d.data = s'.device.data) (hf : d.faults = []) (hp : d.pos < 2 ^ 64)
    (hlb : cfg.lbSize = s.config.lbSize) (hv : cfg.onlyValidHeaders = true → BackupValid cfg.lbSize d.data) :
    ∃ s2 d2 h2, openFromDevice m' cfg d = (.ok s2, d2) ∧ d2.data = d.data ∧ s2.config = cfg ∧
      s2.header (ε := Empty) = .ok h2 ∧ s'.header (ε := Empty) = .ok h2 ∧ s2.guid = h.diskGuid ∧ h2.diskGuid = h.diskGuid ∧
      h2.numParts = h.numParts ∧ h2.firstUsable = h.firstUsable ∧ h2.lastUsable.toNat + k + 1 = B ∧
      (h.lastUsable.toNat + k + 1 = B → h2.lastUsable = h.lastUsable) ∧
      Numbered (Spec.used s.partitions) s2.partitions := by
  have w := write_ok hs hok
  have r := w.regions hs
  have g := geo_sane hs.sane hs.fits s.config
  obtain ⟨hB, hkB⟩ := sane_bounds hs.sane
  have s1 := g.sep
  have s2 := g.sepB
  have s3 := g.fits
  have hn : (rebuiltP k B h).numParts = h.numParts := rfl
  rw [hn] at s1 s2
  have hcount := hs.sane.count
  have hlen := hs.length
  have hlen' := w.length
  rw [← hd] at r hlen'
  obtain ⟨h2, p, -, e⟩ := open_primary (m := m') (cfg := cfg) (d := d) (P := rebuiltP k B h) (ps := Spec.used s.partitions) hf hp
    (by omega) rfl rfl rfl rfl hcount w.room (fun p hp => used_isUsed hp) (by rw [hlb, hn]; omega) (by rw [hlb]; exact r.head)
    (by rw [hlb]; exact r.array) hv
  have hroom := w.room
  have hlast : ((rebuiltP k B h).lastUsable).toNat = B - k - 1 := ofNat64 (by omega)
  refine ⟨_, _, _, e, rfl, rfl, rfl, ?_, rfl, rfl, rfl, rfl, ?_, fun hl => ?_, ?_⟩
  · unfold GptDisk.header tryHeader
    rw [w.primary]
    rfl
  · show (rebuiltP k B h).lastUsable.toNat + k + 1 = B
    omega
  · show (rebuiltP k B h).lastUsable = _
    rw [← UInt64.toNat_inj]
    omega
  · exact numbered_numberFrom (by omega)

/-- The same for `write`, which hands the device back. -/
theorem c30_write_returns (m : Mode) (s s' : GptDisk) (d : Dev) :
    write m s = (.ok d, s') ↔ writeInplace m s = (.ok (), s') ∧ d = s'.device := by
  unfold GptDisk.write
  simp only [M.bind_ok, M.get_ok, M.pure_ok]
  constructor
  · rintro ⟨u, s1, h1, _, _, ⟨rfl, rfl⟩, rfl, rfl⟩
    exact ⟨h1, rfl⟩
  · rintro ⟨h1, rfl⟩
    exact ⟨(), s', h1, s', s', ⟨rfl, rfl⟩, rfl, rfl⟩

/-- A backup header in the last block is valid after a write that includes the backup. -/
theorem c30_backup_valid (m : Mode) (s s' : GptDisk) (h : Header) (k B : Nat) (hs : SaneDisk s h k B)
    (hok : writeInplace m s = (.ok (), s')) (hro : s.config.readonlyBackup = false)
    (hB : s.device.data.length / s.config.lbSize.usize = B + 1) : BackupValid s.config.lbSize s'.device.data := by
  have w := write_ok hs hok
  have r := w.regions hs
  obtain ⟨-, hkB⟩ := sane_bounds hs.sane
  have hfit := hs.fits
  have hlen := w.length
  have hfit' : B * s.config.lbSize.usize + s.config.lbSize.usize ≤ s'.device.data.length := by
    rw [Nat.add_mul, Nat.one_mul] at hfit; omega
  constructor
  · have : 3 * s.config.lbSize.usize ≤ (B + 1) * s.config.lbSize.usize := Nat.mul_le_mul_right _ (by omega)
    omega
  · have hr := read_block (h := rebuiltB k B h) rfl rfl hfit' (r.backup hro).1
    unfold lastBlockOffset
    rw [hlen, hB, Nat.add_sub_cancel]
    exact (((readHeaderAt_spec _ _).1 _).mp hr).1

theorem smallDisk_written (m : Mode) (t : PMap) (ht : (Spec.used t).length ≤ 4) :
    ∃ s', writeInplace m (smallDisk t) = (.ok (), s') ∧ s'.device.data.length = 5120 ∧ (smallDisk t).device.data.length = 5120 := by
  have hw := smallDisk_writes m t ht
  rcases hx : writeInplace m (smallDisk t) with ⟨r, s'⟩
  rw [hx] at hw
  simp only at hw
  subst hw
  have hlen := (write_ok (smallDisk_sane _) hx).length
  have hz : (smallDisk t).device.data.length = 5120 := zeros_length _
  exact ⟨s', rfl, by rw [hlen, hz], hz⟩

/-- Writing the small disk with partitions 1 and 3 and opening it gives partitions 1 and 2. -/
example : ∃ s' s2 d2, writeInplace .debug (smallDisk [(1, smallPart), (3, { smallPart with firstLba := 5, lastLba := 7 })]) = (.ok (), s') ∧
    openFromDevice .release (GptConfig.new.setOnlyValidHeaders true) ⟨s'.device.data, 0, 5120, [], []⟩ = (.ok s2, d2) ∧
    Numbered [smallPart, { smallPart with firstLba := 5, lastLba := 7 }] s2.partitions := by
  obtain ⟨s', hw, hl, hz⟩ := smallDisk_written .debug [(1, smallPart), (3, { smallPart with firstLba := 5, lastLba := 7 })] (by decide)
  have hb := c30_backup_valid .debug _ _ _ 1 9 (smallDisk_sane _) hw rfl (by rw [hz]; rfl)
  obtain ⟨s2, d2, h2, e, -, -, -, -, -, -, -, -, -, -, hn⟩ := c30_write_open .debug .release _ _ _ 1 9
    (GptConfig.new.setOnlyValidHeaders true) ⟨s'.device.data, 0, 5120, [], []⟩
    (smallDisk_sane _) hw rfl rfl (by show 0 < 2 ^ 64; decide) rfl (fun _ => hb)
  exact ⟨s', s2, d2, hw, e, hn⟩

/-! ## C31 -/

/-- **C31**, partial (missing: a device on which the backup LBA of the header is not the last block, where the claim is false, see
`c31_fails`). After a successful write of both copies, on a device whose last block is the backup LBA: whatever is then done
outside the backup array and backup header block, as long as the primary header is left invalid, the device opens with the same
table, GUID, count and usable range. -/
theorem c31_partial (m m' : Mode) (s s' : GptDisk) (h : Header) (k B : Nat) (cfg : GptConfig) (d : Dev)
    (hs : SaneDisk s h k B) (hok : writeInplace m s = (.ok (), s')) (hro : s.config.readonlyBackup = false)
    (hB : s.device.data.length / s.config.lbSize.usize = B + 1)
    (hlen : d.data.length = s'.device.data.length)
    (hsame : ∀ i, InBackup s.config.lbSize h.numParts.toNat k B i → byteAt d.data i = byteAt s'.device.data i)
    (hinv : ¬ PrimaryValid s.config.lbSize d.data) (hf : d.faults = []) (hp : d.pos < 2 ^ 64)
    (hlb : cfg.lbSize = s.config.lbSize) (hv : cfg.onlyValidHeaders = false) :
    ∃ s2 d2 h2, openFromDevice m' cfg d = (.ok s2, d2) ∧ d2.data = d.data ∧
      s2.header (ε := Empty) = .ok h2 ∧ s'.backupHeader = .ok h2 ∧ s2.guid = h.diskGuid ∧ h2.diskGuid = h.diskGuid ∧
      h2.numParts = h.numParts ∧ h2.firstUsable = h.firstUsable ∧ h2.lastUsable.toNat + k + 1 = B ∧
      Numbered (Spec.used s.partitions) s2.partitions := by
  have w := write_ok hs hok
  obtain ⟨r1, r2⟩ := (w.regions hs).backup hro
  have g := geo_sane hs.sane hs.fits s.config
  obtain ⟨hB', hkB⟩ := sane_bounds hs.sane
  have q1 := g.sep
  have q2 := g.sepB
  have q3 := g.fits
  have hn : (rebuiltP k B h).numParts = h.numParts := rfl
  have hnb : (rebuiltB k B h).numParts = h.numParts := rfl
  rw [hn] at q1 q2
  have hcount := hs.sane.count
  have hlen1 := hs.length
  have hlen2 := w.length
  rw [← slice_congr (by omega) (by omega) (fun i h1 h2 => hsame i (.inr ⟨h1, by rw [Nat.add_mul, Nat.one_mul]; omega⟩))] at r1
  rw [← slice_congr (by omega) (by omega) (fun i h1 h2 => hsame i (.inl ⟨h1, h2⟩))] at r2
  obtain ⟨e, p, eq⟩ := open_backup (m := m') (cfg := cfg) (d := d) (P := rebuiltB k B h) (ps := Spec.used s.partitions) (B := B)
    (oB := (B - k) * s.config.lbSize.usize) hf hp
    (by omega) rfl rfl (by rw [hlb]; show (UInt64.ofNat (B - k)).toNat * _ = _; rw [ofNat64 (by omega)]) rfl hcount w.room
    (fun p hp => used_isUsed hp) (by rw [hnb]; omega) (by omega) (by rw [hlb, hlen, hlen2]; exact hB)
    (by rw [hlb]; exact r1) r2 (by rw [hlb]; exact hinv) hv
  have hroom := w.room
  have hlast : ((rebuiltB k B h).lastUsable).toNat = B - k - 1 := ofNat64 (by omega)
  refine ⟨_, _, _, eq, rfl, rfl, ?_, rfl, rfl, rfl, rfl, ?_, ?_⟩
  · rw [w.backup, hro]; rfl
  · show (rebuiltB k B h).lastUsable.toNat + k + 1 = B
    omega
  · exact numbered_numberFrom (by omega)

theorem smallDisk_overwritten (m : Mode) (z : Bytes) (hzl : z.length = 4096) (hbad : slice z 512 8 ≠ Spec.signature) :
    ∃ s' s2 d2, writeInplace .debug (smallDisk [(1, smallPart)]) = (.ok (), s') ∧
    openFromDevice m GptConfig.new ⟨z ++ s'.device.data.drop 4096, 0, 5120, [], []⟩ = (.ok s2, d2) ∧
    Numbered [smallPart] s2.partitions := by
  obtain ⟨s', hw, hlen, hz⟩ := smallDisk_written .debug [(1, smallPart)] (by decide)
  obtain ⟨s2, d2, h2, e, -, -, -, -, -, -, -, -, hn⟩ := c31_partial .debug m (smallDisk [(1, smallPart)]) s' _ 1 9
    GptConfig.new ⟨z ++ s'.device.data.drop 4096, 0, 5120, [], []⟩ (smallDisk_sane _) hw rfl
    (by rw [hz]; rfl) (by simp only [List.length_append, hzl, List.length_drop, hlen]) (by
      intro i hi
      have h1 : 4096 ≤ i := by
        rcases hi with ⟨h1, -⟩ | ⟨h1, -⟩
        · exact h1
        · exact Nat.le_trans (by decide) h1
      show byteAt (z ++ s'.device.data.drop 4096) i = _
      rw [byteAt_append, hzl, if_neg (by omega)]
      unfold byteAt
      rw [List.getElem?_drop]
      have : 4096 + (i - 4096) = i := by omega
      rw [this]) (by
      intro hv
      have := hv.signature
      rw [show (smallDisk [(1, smallPart)]).config.lbSize.usize = 512 from rfl, slice_append_left (by omega)] at this
      exact hbad this) rfl (by show 0 < 2 ^ 64; decide) rfl rfl
  exact ⟨s', s2, d2, hw, e, hn⟩

/-- After writing the small disk, blocks 0 to 7 can be overwritten with zeros. -/
example (m : Mode) : ∃ s' s2 d2, writeInplace .debug (smallDisk [(1, smallPart)]) = (.ok (), s') ∧
    openFromDevice m GptConfig.new ⟨zeros 4096 ++ s'.device.data.drop 4096, 0, 5120, [], []⟩ = (.ok s2, d2) ∧
    Numbered [smallPart] s2.partitions :=
  smallDisk_overwritten m (zeros 4096) (zeros_length _) (by
    have : slice (zeros 4096) 512 8 = zeros 8 :=
      slice_eq_of_byteAt (by rw [zeros_length]; omega) (zeros_length _) fun i _ => by rw [byteAt_zeros, byteAt_zeros]
    rw [this]
    decide)

/-! ## C32 -/

/-- **C32**. Whatever the outcome (the device's fault list ranges over every failing or cut-short call, hence every point at which
the writing can stop): every byte outside the two header blocks and the two arrays is what it was, and the length is. -/
theorem c32_confined (m : Mode) (s : GptDisk) (h : Header) (k B : Nat) (hs : SaneDisk s h k B) (i : Nat)
    (h1 : ¬ InPrimary s.config.lbSize h.numParts.toNat i) (h2 : ¬ InBackup s.config.lbSize h.numParts.toNat k B i) :
    byteAt (writeInplace m s).2.device.data i = byteAt s.device.data i ∧
    (writeInplace m s).2.device.data.length = s.device.data.length := by
  refine ⟨?_, write_length m hs⟩
  rcases write_bytes m hs i with e | e
  · exact e
  · rw [e]; exact finalByte_outside h1 fun _ => h2

/-- **C32**, for the blocks that matter: LBA 0 and the usable range. -/
theorem c32_user_blocks (m : Mode) (s : GptDisk) (h : Header) (k B : Nat) (hs : SaneDisk s h k B) (i : Nat)
    (hi : i < s.config.lbSize.usize ∨
      (h.firstUsable.toNat * s.config.lbSize.usize ≤ i ∧ i < (h.lastUsable.toNat + 1) * s.config.lbSize.usize)) :
    byteAt (writeInplace m s).2.device.data i = byteAt s.device.data i := by
  obtain ⟨hB, hkB⟩ := sane_bounds hs.sane
  have e := hs.sane.arrays.enough
  have hf := hs.sane.first
  have hl := hs.sane.last
  have hpos := lb_pos s.config.lbSize
  have q1 : (2 + k) * s.config.lbSize.usize ≤ h.firstUsable.toNat * s.config.lbSize.usize := Nat.mul_le_mul_right _ hf
  have q2 : (h.lastUsable.toNat + 1) * s.config.lbSize.usize ≤ (B - k) * s.config.lbSize.usize := Nat.mul_le_mul_right _ (by omega)
  have q3 : (B - k) * s.config.lbSize.usize ≤ B * s.config.lbSize.usize := Nat.mul_le_mul_right _ (by omega)
  have q4 : 1 * s.config.lbSize.usize ≤ (B - k) * s.config.lbSize.usize := Nat.mul_le_mul_right _ (by omega)
  rw [Nat.add_mul] at q1
  refine (c32_confined m s h k B hs i ?_ ?_).1
  · unfold InPrimary; omega
  · unfold InBackup; omega

/-- Block 5 of the small disk under any faults, full of any data. -/
example (m : Mode) (t : PMap) (fs : List Fault) (data : Bytes) (hd : data.length = 5120) (i : Nat) (hi : i < 512) :
    byteAt (writeInplace m { smallDisk t with device := ⟨data, 0, 5120, fs, []⟩ }).2.device.data (5 * 512 + i) = byteAt data (5 * 512 + i) :=
  c32_user_blocks m { smallDisk t with device := ⟨data, 0, 5120, fs, []⟩ } smallHeader 1 9
    ⟨rfl, smallSane, by show 10 * 512 ≤ data.length; omega, by show data.length < _; omega⟩ _
    (.inr (by
      show (3 : UInt64).toNat * 512 ≤ _ ∧ _ < ((7 : UInt64).toNat + 1) * 512
      have e1 : (3 : UInt64).toNat = 3 := rfl
      have e2 : (7 : UInt64).toNat = 7 := rfl
      omega))

/-- C31 in full: the write returned `Ok` with the backup enabled; everything from the backup array on is left alone. -/
def C31 : Prop :=
  ∀ (m m' : Mode) (s s' : GptDisk) (h : Header) (k B : Nat) (cfg : GptConfig) (d : Dev), SaneDisk s h k B →
    writeInplace m s = (.ok (), s') → s.config.readonlyBackup = false → d.data.length = s'.device.data.length →
    (∀ i, (B - k) * s.config.lbSize.usize ≤ i → byteAt d.data i = byteAt s'.device.data i) →
    ¬ PrimaryValid s.config.lbSize d.data → d.faults = [] → d.pos < 2 ^ 64 → cfg.lbSize = s.config.lbSize →
    cfg.onlyValidHeaders = false →
    ∃ s2 d2, openFromDevice m' cfg d = (.ok s2, d2) ∧ Numbered (Spec.used s.partitions) s2.partitions

/-- **C31** is false on a device that is longer than the header says (an enlarged disk): the backup is written to the backup LBA
of the header, opening looks for it in the last block. The small header on eleven blocks. -/
theorem c31_fails : ¬ C31 := by
  intro hc
  have hz : ∀ i, byteAt (zeros 5632) i = 0 := fun i => byteAt_zeros ..
  have hzl : (zeros 5632).length = 5632 := zeros_length _
  have hnl : (zeros 4096).length = 4096 := zeros_length _
  have hnz : ∀ i, byteAt (zeros 4096) i = 0 := fun i => byteAt_zeros ..
  generalize zeros 5632 = data at hz hzl
  generalize zeros 4096 = nul at hnl hnz
  have hs : SaneDisk { smallDisk [(1, smallPart)] with device := ⟨data, 0, 5632, [], []⟩ } smallHeader 1 9 := by
    refine ⟨rfl, smallSane, ?_, ?_⟩
    · show 10 * 512 ≤ data.length; omega
    · show data.length < _; omega
  have hw := c62_write_succeeds .debug _ smallHeader 1 9 hs rfl (by show 1 ≤ 4; decide) rfl (by show 10 * 512 ≤ 5632; decide)
  have hk := c32_confined .debug _ smallHeader 1 9 hs
  have hl := write_length .debug hs
  rcases hx : writeInplace .debug { smallDisk [(1, smallPart)] with device := ⟨data, 0, 5632, [], []⟩ } with ⟨r, s'⟩
  rw [hx] at hw hk hl
  simp only at hw hk hl
  subst hw
  rw [hzl] at hl
  have hlen : (nul ++ s'.device.data.drop 4096).length = 5632 := by
    rw [List.length_append, List.length_drop, hnl, hl]
  have hbyte : ∀ i, byteAt (nul ++ s'.device.data.drop 4096) i = if i < 4096 then 0 else byteAt s'.device.data i := by
    intro i
    rw [byteAt_append, hnl]
    split
    · exact hnz i
    · unfold byteAt
      rw [List.getElem?_drop]
      have : 4096 + (i - 4096) = i := by omega
      rw [this]
  have hlast : ∀ i, 5120 ≤ i → byteAt (nul ++ s'.device.data.drop 4096) i = 0 := by
    intro i hi
    rw [hbyte, if_neg (by omega)]
    have e := (hk i (by
      rintro ⟨-, h2⟩
      have h2 : i < 2 * 512 + 4 * 128 := h2
      omega) (by
      rintro (⟨-, h2⟩ | ⟨-, h2⟩)
      · have h2 : i < 8 * 512 + 4 * 128 := h2
        omega
      · have h2 : i < 10 * 512 := h2
        omega)).1
    rw [e]
    exact hz i
  have hnosig : ∀ off, off + 8 ≤ 4096 ∨ 5120 ≤ off → off + 8 ≤ 5632 → ¬ ValidAt (nul ++ s'.device.data.drop 4096) off := by
    intro off h1 h2 hv
    have := hv.signature
    have e : slice (nul ++ s'.device.data.drop 4096) off 8 = zeros 8 :=
      slice_eq_of_byteAt (by rw [hlen]; omega) (zeros_length _) fun i hi => by
        rw [byteAt_zeros]
        rcases h1 with h1 | h1
        · rw [hbyte, if_pos (by omega)]
        · exact hlast _ (by omega)
    rw [e] at this
    revert this
    decide
  have hp1 : ¬ PrimaryValid .lb512 (nul ++ s'.device.data.drop 4096) := hnosig 512 (.inl (by decide)) (by decide)
  have hb1 : ¬ BackupValid .lb512 (nul ++ s'.device.data.drop 4096) := by
    intro hv
    have := hv.2
    unfold lastBlockOffset at this
    rw [hlen] at this
    exact hnosig 5120 (.inr (by decide)) (by decide) this
  obtain ⟨s2, d2, e, -⟩ := hc .debug .debug _ s' smallHeader 1 9 GptConfig.new ⟨nul ++ s'.device.data.drop 4096, 0, 5632, [], []⟩ hs hx rfl
    (by show (nul ++ s'.device.data.drop 4096).length = _; rw [hlen, hl]) (by
      intro i hi
      have hi : 8 * 512 ≤ i := hi
      show byteAt (nul ++ s'.device.data.drop 4096) i = _
      rw [hbyte, if_neg (by omega)]) hp1 rfl (by show 0 < 2 ^ 64; decide) rfl rfl
  obtain ⟨x, hx⟩ := (c44_refused .debug GptConfig.new ⟨nul ++ s'.device.data.drop 4096, 0, 5632, [], []⟩ rfl (by show 0 < 2 ^ 64; decide)
    (by show (nul ++ s'.device.data.drop 4096).length < _; rw [hlen]; decide)).1.mpr (.inl ⟨hp1, hb1⟩)
  rw [e] at hx
  cases hx

/-! ## C33 -/

/-- **C33**. -/
theorem c33_readonly_backup (m : Mode) (s : GptDisk) (h : Header) (k B : Nat) (hs : SaneDisk s h k B)
    (hro : s.config.readonlyBackup = true) :
    (∀ i, ¬ InPrimary s.config.lbSize h.numParts.toNat i → byteAt (writeInplace m s).2.device.data i = byteAt s.device.data i) ∧
    (writeInplace m s).2.backupHeader = s.backupHeader := by
  constructor
  · intro i hi
    rcases write_bytes m hs i with e | e
    · exact e
    · rw [e]; exact finalByte_outside hi fun hc => by rw [hro] at hc; cases hc
  · rcases (writeInplace_mem m s).headers with ⟨-, e⟩ | ⟨_, _, _, -, -, -, -, e | ⟨hc, -⟩⟩
    · exact e
    · exact e
    · rw [hro] at hc; cases hc

/-- In memory the backup header is left alone on any disk, sane or not. -/
theorem c33_memory (m : Mode) (s : GptDisk) (hro : s.config.readonlyBackup = true) :
    (writeInplace m s).2.backupHeader = s.backupHeader := by
  rcases (writeInplace_mem m s).headers with ⟨-, e⟩ | ⟨_, _, _, -, -, -, -, e | ⟨hc, -⟩⟩
  · exact e
  · exact e
  · rw [hro] at hc; cases hc

/-- The small disk with `readonly_backup`: the last two blocks are kept, the write succeeds. -/
example (m : Mode) : ∃ s', writeInplace m { smallDisk [(1, smallPart)] with config := (GptConfig.new.setWritable true).setReadonlyBackup true } = (.ok (), s') ∧
    ∀ i, 4096 ≤ i → byteAt s'.device.data i = 0 := by
  have hz : ∀ i, byteAt (smallDisk [(1, smallPart)]).device.data i = 0 := fun i => byteAt_zeros ..
  have hsane : SaneDisk { smallDisk [(1, smallPart)] with config := (GptConfig.new.setWritable true).setReadonlyBackup true } smallHeader 1 9 :=
    ⟨rfl, smallSane, (smallDisk_sane [(1, smallPart)]).fits, (smallDisk_sane [(1, smallPart)]).length⟩
  have hw := c62_write_succeeds m _ smallHeader 1 9 hsane rfl (by decide) rfl (by show 10 * 512 ≤ 5120; decide)
  have hk := (c33_readonly_backup m _ smallHeader 1 9 hsane rfl).1
  rcases hx : writeInplace m { smallDisk [(1, smallPart)] with config := (GptConfig.new.setWritable true).setReadonlyBackup true } with ⟨r, s'⟩
  rw [hx] at hw hk
  simp only at hw hk
  refine ⟨s', by rw [hw], fun i hi => ?_⟩
  rw [hk i (by
    rintro ⟨-, h2⟩
    have h2 : i < 2 * 512 + (4 : UInt32).toNat * 128 := h2
    have e1 : (4 : UInt32).toNat = 4 := rfl
    omega)]
  exact hz i

/-! ## C38 -/

/-- **C38**. -/
theorem c38_erased (m : Mode) (s s' : GptDisk) (h : Header) (k B : Nat) (hs : SaneDisk s h k B)
    (hok : writeInplace m s = (.ok (), s')) :
    (∀ i, (Spec.used s.partitions).length * 128 ≤ i → i < h.numParts.toNat * 128 →
      byteAt s'.device.data (2 * s.config.lbSize.usize + i) = 0 ∧
      (s.config.readonlyBackup = false → byteAt s'.device.data ((B - k) * s.config.lbSize.usize + i) = 0)) ∧
    (∀ i, 92 ≤ i → i < s.config.lbSize.usize →
      byteAt s'.device.data (s.config.lbSize.usize + i) = 0 ∧
      (s.config.readonlyBackup = false → byteAt s'.device.data (B * s.config.lbSize.usize + i) = 0)) := by
  have w := write_ok hs hok
  have r := w.regions hs
  have fromSlice : ∀ {off n i : Nat} {b : Bytes}, slice s'.device.data off n = b → i < n → byteAt s'.device.data (off + i) = byteAt b i := by
    intro off n i b e hi
    rw [← e, byteAt_slice, if_pos hi]
  constructor
  · intro i h1 h2
    exact ⟨by rw [fromSlice r.array h2]; exact byteAt_table_zero h1,
      fun hro => by rw [fromSlice (r.backup hro).2 h2]; exact byteAt_table_zero h1⟩
  · intro i h1 h2
    exact ⟨by rw [fromSlice r.head h2]; exact Header.byteAt_block_tail rfl _ _ h1,
      fun hro => by rw [fromSlice (r.backup hro).1 h2]; exact Header.byteAt_block_tail rfl _ _ h1⟩

/-- A disk full of 0xFF: after writing one partition, the last byte of the array is zero. -/
example (m : Mode) (s' : GptDisk)
    (hok : writeInplace m { smallDisk [(1, smallPart)] with device := ⟨List.replicate 5120 0xFF, 0, 5120, [], []⟩ } = (.ok (), s')) :
    byteAt s'.device.data (1024 + 511) = 0 :=
  ((c38_erased m _ s' smallHeader 1 9 ⟨rfl, smallSane, by show 10 * 512 ≤ (List.replicate 5120 0xFF).length; rw [List.length_replicate],
    by show (List.replicate 5120 0xFF).length < _; rw [List.length_replicate]; decide⟩ hok).1 511 (by decide) (by decide)).1

/-! ## C39 -/

theorem logged_frame : Dev.Frame Dev.Logged where
  chain := Dev.logged_chain
  seekStart n d := (Dev.seekStart_quiet n d).logged
  seekEnd d := (Dev.seekEnd_quiet d).logged
  streamPosition d := (Dev.streamPosition_quiet d).logged
  readExact n d := (Dev.readExact_quiet n d).logged
  writeAll := Dev.writeAll_logged
  flush d := by
    unfold Dev.flush
    split
    · exact ⟨[.flush], rfl, rfl⟩
    · exact ⟨[], by simp [Dev.tick], rfl⟩
  syncAll d := by
    unfold Dev.syncAll
    split
    · exact ⟨[.sync], rfl, rfl⟩
    · exact ⟨[], by simp [Dev.tick], rfl⟩

/-- The log after a successful writing part. -/
theorem writeRest_log {m : Mode} {lb : LbSize} {ph : Header} {bh : Option Header} {parts : List Partition} {sync : Bool}
    {s s' : GptDisk} (hr : writeRest m lb ph bh parts sync s = (.ok (), s')) :
    ∃ l, s'.device.log = s.device.log ++ l ++ (if sync then [.flush, .sync] else [.flush]) ∧
      s'.device.data = l.foldl Event.replay s.device.data := by
  have F := logged_frame
  have C := F.onDisk
  have htail : ∀ s3 : GptDisk, (do
      onPrimary ph (Header.writePrimary lb)
      onDev GptError.io Dev.flush
      if sync = true then onDev GptError.io Dev.syncAll else pure () : M GptDisk GptError Unit) s3 = (.ok (), s') →
      Dev.Logged s.device s3.device →
      ∃ l, s'.device.log = s.device.log ++ l ++ (if sync then [.flush, .sync] else [.flush]) ∧
        s'.device.data = l.foldl Event.replay s.device.data := by
    intro s3 h h3
    rw [M.bind_ok] at h
    obtain ⟨u4, s4, h4, h⟩ := h
    rw [M.bind_ok] at h
    obtain ⟨u5, s5, h5, h⟩ := h
    have l4 : Dev.Logged s3.device s4.device := by
      have := F.writePrimary lb (ph, s3.device)
      have e : (onPrimary ph (Header.writePrimary lb) s3).2.device = s4.device := by rw [h4]
      rw [← e]
      exact this
    obtain ⟨l, l1, l2⟩ := h3.trans l4
    obtain ⟨x5, -⟩ := onDev_ok h5
    have g5 := Dev.flush_ok x5
    refine ⟨l, ?_⟩
    cases sync with
    | false =>
      simp only [Bool.false_eq_true, if_false, M.pure_ok] at h
      obtain ⟨-, rfl⟩ := h
      rw [g5]
      exact ⟨by simp [l1], l2⟩
    | true =>
      simp only [if_true] at h
      obtain ⟨x6, -⟩ := onDev_ok h
      have g6 : s'.device = { s5.device with faults := s5.device.faults.tail, log := s5.device.log ++ [.sync] } := by
        unfold Dev.syncAll at x6
        split at x6
        · simp only [Prod.mk.injEq] at x6; exact x6.2.symm
        · simp at x6
      rw [g6, g5]
      exact ⟨by simp [l1], l2⟩
  unfold writeRest at hr
  rw [M.bind_ok] at hr
  obtain ⟨next, s1, h1, hr⟩ := hr
  rw [M.bind_ok] at hr
  obtain ⟨u2, s2, h2, hr⟩ := hr
  have l1 : Dev.Logged s.device s1.device := by
    have := F.writeEntries m lb ph bh parts 0 0 s.device
    rwa [(onDev_ok h1).1] at this
  have l2 : Dev.Logged s1.device s2.device := by
    have := F.writeZeros m lb ph next s1.device
    rwa [(onDev_ok h2).1] at this
  cases bh with
  | none => exact htail s2 hr (l1.trans l2)
  | some b =>
    simp only [M.bind_ok] at hr
    obtain ⟨u3, s3, h3, u4, s4, h4, hr⟩ := hr
    have l3 : Dev.Logged s2.device s3.device := by
      have := F.writeZeros m lb b next s2.device
      rwa [(onDev_ok h3).1] at this
    have l4 : Dev.Logged s3.device s4.device := by
      have := F.writeBackup lb (b, s3.device)
      have e : (onBackup b (Header.writeBackup lb) s3).2.device = s4.device := by rw [h4]
      rw [← e]
      exact this
    refine htail s4 ?_ (((l1.trans l2).trans l3).trans l4)
    simp only [M.bind_ok]
    exact hr

/-- **C39**. After a successful `write_inplace`, the log of what was done to the medium is what was there before, the writes of
this call (they account for the whole content), then the flush and, for a disk opened by path, the sync. -/
theorem c39_flushed (m : Mode) (s s' : GptDisk) (hok : writeInplace m s = (.ok (), s')) :
    ∃ l, s'.device.log = s.device.log ++ l ++ (if s.syncAll then [.flush, .sync] else [.flush]) ∧
      s'.device.data = l.foldl Event.replay s.device.data := by
  have q := findBackupLba_quiet s.config.lbSize s.device
  rw [writeInplace_eq] at hok
  split at hok
  · simp at hok
  · rcases hx : findBackupLba s.config.lbSize s.device with ⟨r, d1⟩
    rw [hx] at hok q
    have key : ∀ ph bh s1, s1.device = d1 → writeRest m s.config.lbSize ph bh (usedParts s.partitions) s.syncAll s1 = (.ok (), s') →
        ∃ l, s'.device.log = s.device.log ++ l ++ (if s.syncAll then [.flush, .sync] else [.flush]) ∧
          s'.device.data = l.foldl Event.replay s.device.data := by
      intro ph bh s1 e h
      obtain ⟨l, e1, e2⟩ := writeRest_log h
      refine ⟨l, ?_, ?_⟩
      · rw [e1, e, q.log]
      · rw [e2, e, q.data]
    cases r with
    | err e => simp at hok
    | panic => simp at hok
    | ok b =>
      simp only at hok
      split at hok
      · simp at hok
      · split at hok
        · simp at hok
        · simp at hok
        · split at hok
          · exact key _ _ _ (by exact rfl) hok
          · split at hok
            · simp at hok
            · simp at hok
            · exact key _ _ _ (by exact rfl) hok

/-- A disk opened by path: the log ends with flush and sync. -/
example (m : Mode) : ∃ s' l, writeInplace m { smallDisk [(1, smallPart)] with syncAll := true } = (.ok (), s') ∧
    s'.device.log = l ++ [.flush, .sync] := by
  have hsane : SaneDisk { smallDisk [(1, smallPart)] with syncAll := true } smallHeader 1 9 :=
    ⟨rfl, smallSane, (smallDisk_sane [(1, smallPart)]).fits, (smallDisk_sane [(1, smallPart)]).length⟩
  have hw := c62_write_succeeds m _ smallHeader 1 9 hsane rfl (by decide) rfl (by show 10 * 512 ≤ 5120; decide)
  rcases hx : writeInplace m { smallDisk [(1, smallPart)] with syncAll := true } with ⟨r, s'⟩
  rw [hx] at hw
  simp only at hw
  subst hw
  obtain ⟨l, h1, -⟩ := c39_flushed m _ s' hx
  exact ⟨s', _, rfl, h1⟩

/-! ## C40 -/

/-- **C40**. After a successful write the in-memory primary header is the valid header at LBA 1; when the backup is written, the
in-memory backup header is the valid header at the backup LBA. Both carry the checksum of their array as stored. -/
theorem c40_memory (m : Mode) (s s' : GptDisk) (h : Header) (k B : Nat) (hs : SaneDisk s h k B)
    (hok : writeInplace m s = (.ok (), s')) :
    (∃ hp, s'.primaryHeader = .ok hp ∧ ValidAt s'.device.data s.config.lbSize.usize ∧
      HeaderAt s'.device.data s.config.lbSize.usize hp ∧
      hp.crc32Parts = crc32 (slice s'.device.data (hp.partStart.toNat * s.config.lbSize.usize) (hp.numParts.toNat * 128))) ∧
    (s.config.readonlyBackup = false → ∃ hb, s'.backupHeader = .ok hb ∧ ValidAt s'.device.data (B * s.config.lbSize.usize) ∧
      HeaderAt s'.device.data (B * s.config.lbSize.usize) hb ∧
      hb.crc32Parts = crc32 (slice s'.device.data (hb.partStart.toNat * s.config.lbSize.usize) (hb.numParts.toNat * 128))) := by
  have w := write_ok hs hok
  have r := w.regions hs
  obtain ⟨hB, hkB⟩ := sane_bounds hs.sane
  have hfit := hs.fits
  have hlen := w.length
  have e2 : (2 : UInt64).toNat = 2 := rfl
  have hfit' : B * s.config.lbSize.usize + s.config.lbSize.usize ≤ s'.device.data.length := by
    rw [Nat.add_mul, Nat.one_mul] at hfit; omega
  have h3 : 3 * s.config.lbSize.usize ≤ (B + 1) * s.config.lbSize.usize := Nat.mul_le_mul_right _ (by omega)
  constructor
  · have hr := read_block (h := rebuiltP k B h) rfl rfl (by omega) r.head
    obtain ⟨a1, a2⟩ := ((readHeaderAt_spec _ _).1 _).mp hr
    refine ⟨_, w.primary, a1, a2, ?_⟩
    show _ = crc32 (slice _ ((2 : UInt64).toNat * _) (h.numParts.toNat * 128))
    rw [e2, r.array]
    rfl
  · intro hro
    obtain ⟨r1, r2⟩ := r.backup hro
    have hr := read_block (h := rebuiltB k B h) rfl rfl hfit' r1
    obtain ⟨a1, a2⟩ := ((readHeaderAt_spec _ _).1 _).mp hr
    refine ⟨_, by rw [w.backup, hro]; rfl, a1, a2, ?_⟩
    show _ = crc32 (slice _ ((UInt64.ofNat (B - k)).toNat * _) (h.numParts.toNat * 128))
    rw [ofNat64 (by omega), r2]
    rfl

/-- **C40**, through the API: reading the headers from the written device gives the in-memory headers. -/
theorem c40_read_back (m : Mode) (s s' : GptDisk) (h : Header) (k B : Nat) (d : Dev) (hs : SaneDisk s h k B)
    (hok : writeInplace m s = (.ok (), s')) (hd : d.data = s'.device.data) (hf : d.faults = []) (hp : d.pos < 2 ^ 64) :
    (∀ x, s'.primaryHeader = .ok x ↔ (readPrimaryHeader s.config.lbSize d).1 = .ok x) ∧
    (s.config.readonlyBackup = false → s.device.data.length / s.config.lbSize.usize = B + 1 →
      ∀ x, s'.backupHeader = .ok x ↔ (readBackupHeader s.config.lbSize d).1 = .ok x) := by
  obtain ⟨⟨hp1, p1, p2, p3, -⟩, hb⟩ := c40_memory m s s' h k B hs hok
  have hlen := (write_ok hs hok).length
  have hlt := hs.length
  obtain ⟨-, hkB⟩ := sane_bounds hs.sane
  constructor
  · intro x
    rw [readPrimaryHeader_nil hf hp, hd]
    have := ((readHeaderAt_spec s'.device.data s.config.lbSize.usize).1 hp1).mpr ⟨p2, p3⟩
    rw [p1, this]
    simp
  · intro hro hB x
    obtain ⟨hb1, b1, b2, b3, -⟩ := hb hro
    have h3 : 3 * s.config.lbSize.usize ≤ s'.device.data.length :=
      (Nat.le_div_iff_mul_le (lb_pos _)).mp (by rw [hlen, hB]; omega)
    rw [readBackupHeader_nil hf hp (by rw [hd]; omega), hd]
    have := ((readHeaderAt_spec s'.device.data (B * s.config.lbSize.usize)).1 hb1).mpr ⟨b2, b3⟩
    unfold readBackupAt backupOffset lastBlock
    rw [if_neg (by omega), hlen, hB, Nat.add_sub_cancel, b1, this]
    simp

/-- The hypotheses are met by the small disk. -/
example (m : Mode) : ∃ s' hb, writeInplace m (smallDisk [(2, smallPart)]) = (.ok (), s') ∧ s'.backupHeader = .ok hb ∧
    (readBackupHeader .lb512 ⟨s'.device.data, 0, 5120, [], []⟩).1 = .ok hb := by
  obtain ⟨s', hw, hl, hz⟩ := smallDisk_written m [(2, smallPart)] (by decide)
  obtain ⟨hb, h1, -⟩ := (c40_memory m _ s' smallHeader 1 9 (smallDisk_sane _) hw).2 rfl
  exact ⟨s', hb, hw, h1, ((c40_read_back m _ s' smallHeader 1 9 ⟨s'.device.data, 0, 5120, [], []⟩ (smallDisk_sane _) hw rfl rfl
    (by show 0 < 2 ^ 64; decide)).2 rfl (by rw [hz]; rfl) hb).mp h1⟩

/-! ## C41 -/

theorem arrayHolds_of_bytes {data : Bytes} {off n : Nat} {ps : List Partition} (hfit : off + n * 128 ≤ data.length)
    (hb : ∀ i, off ≤ i → i < off + n * 128 → byteAt data i = byteAt (tableBytes (ps.take n) n) (i - off)) :
    ArrayHolds data off n ps := by
  have hl : (ps.take n).length ≤ n := by rw [List.length_take]; exact Nat.min_le_left _ _
  have ht := tableBytes_length hl
  have hs : slice data off (n * 128) = tableBytes (ps.take n) n :=
    slice_eq_of_byteAt hfit ht fun i hi => by rw [hb _ (by omega) (by omega), Nat.add_sub_cancel_left]
  intro j hj
  have e : slice data (off + 128 * j) 128 = slice (tableBytes (ps.take n) n) (j * 128) 128 := by
    rw [← hs, slice_slice (by omega)]
    congr 2; omega
  rw [e]
  by_cases hjl : j < ps.length
  · rw [slice_table_entry (by rw [List.length_take]; omega), List.getElem?_eq_getElem hjl, List.getElem_take]
  · rw [slice_table_zero (by rw [List.length_take]; omega) hj, List.getElem?_eq_none (by omega)]

/-- **C41**. Whatever the outcome: if a byte of the backup header block changed, both arrays hold the new table; if a byte of the
primary header block changed, the primary array holds the new table and, when the backup is written, so does the backup array,
and the backup header block holds a valid header that describes it. -/
theorem c41_order (m : Mode) (s : GptDisk) (h : Header) (k B : Nat) (hs : SaneDisk s h k B) :
    let lb := s.config.lbSize.usize
    let new := (writeInplace m s).2.device.data
    ((∃ i, B * lb ≤ i ∧ i < (B + 1) * lb ∧ byteAt new i ≠ byteAt s.device.data i) →
      s.config.readonlyBackup = false ∧ ArrayHolds new (2 * lb) h.numParts.toNat (Spec.used s.partitions) ∧
      ArrayHolds new ((B - k) * lb) h.numParts.toNat (Spec.used s.partitions)) ∧
    ((∃ i, lb ≤ i ∧ i < 2 * lb ∧ byteAt new i ≠ byteAt s.device.data i) →
      ArrayHolds new (2 * lb) h.numParts.toNat (Spec.used s.partitions) ∧
      (s.config.readonlyBackup = false →
        ArrayHolds new ((B - k) * lb) h.numParts.toNat (Spec.used s.partitions) ∧ ValidAt new (B * lb) ∧
        ∃ hb, HeaderAt new (B * lb) hb ∧ hb.currentLba.toNat = B ∧ hb.partStart.toNat = B - k ∧ hb.numParts = h.numParts ∧
          hb.diskGuid = h.diskGuid ∧ hb.crc32Parts = crc32 (slice new ((B - k) * lb) (h.numParts.toNat * 128)))) := by
  intro lb new
  have g := geo_sane hs.sane hs.fits s.config
  obtain ⟨hB, hkB⟩ := sane_bounds hs.sane
  have s1 : 2 * lb + h.numParts.toNat * 128 ≤ (B - k) * lb := g.sep
  have s2 : (B - k) * lb + h.numParts.toNat * 128 ≤ B * lb := g.sepB
  have s3 : B * lb + lb ≤ s.device.data.length := g.fits
  have hlen : new.length = s.device.data.length := write_length m hs
  have hmul : (B + 1) * lb = B * lb + lb := by rw [Nat.add_mul, Nat.one_mul]
  have hpos : 0 < lb := lb_pos _
  have hn : (rebuiltP k B h).numParts = h.numParts := rfl
  have hlt : ((Spec.used s.partitions).take h.numParts.toNat).length ≤ h.numParts.toNat := by
    rw [List.length_take]; exact Nat.min_le_left _ _
  -- the arrays, once complete
  have harrP : (∀ i, ¬ (lb ≤ i ∧ i < 2 * lb) → ¬ (B * lb ≤ i ∧ i < B * lb + lb) → byteAt new i =
      finalByte s.config.lbSize (rebuiltP k B h) (bakOf s.config k B h) ((Spec.used s.partitions).take h.numParts.toNat)
        ((B - k) * lb) (B * lb) s.device.data i) →
      ArrayHolds new (2 * lb) h.numParts.toNat (Spec.used s.partitions) ∧
      (s.config.readonlyBackup = false → ArrayHolds new ((B - k) * lb) h.numParts.toNat (Spec.used s.partitions)) := by
    intro hall
    constructor
    · refine arrayHolds_of_bytes (by omega) fun i h1 h2 => ?_
      rw [hall i (by omega) (by omega)]
      unfold finalByte
      rw [if_neg (fun hc => by have : i < 2 * lb := hc.2; omega), if_pos ⟨h1, h2⟩]
      rfl
    · intro hro
      refine arrayHolds_of_bytes (by omega) fun i h1 h2 => ?_
      rw [hall i (by omega) (by omega)]
      have hb : bakOf s.config k B h = some (rebuiltB k B h) := by unfold bakOf; rw [hro]; rfl
      unfold finalByte
      rw [hb, if_neg (fun hc => by have : i < 2 * lb := hc.2; omega),
        if_neg (fun hc => by have : i < 2 * lb + h.numParts.toNat * 128 := hc.2; omega)]
      simp only
      rw [if_pos ⟨h1, h2⟩]
      rfl
  constructor
  · rintro ⟨i, i1, i2, hne⟩
    have hro : s.config.readonlyBackup = false := by
      cases hr : s.config.readonlyBackup with
      | false => rfl
      | true =>
        refine absurd ((c33_readonly_backup m s h k B hs hr).1 i ?_) hne
        rintro ⟨-, h2⟩
        have h2 : i < 2 * lb + h.numParts.toNat * 128 := h2
        omega
    rcases write_stage m hs with hst | ⟨-, hst⟩ | hst
    · exact absurd (hst i (.inr ⟨i1, by have := i2; rw [hmul] at this; exact this⟩)) hne
    · exact ⟨hro, (harrP hst).1, (harrP hst).2 hro⟩
    · have := harrP fun i h1 _ => hst i h1
      exact ⟨hro, this.1, this.2 hro⟩
  · rintro ⟨i, i1, i2, hne⟩
    rcases write_stage m hs with hst | ⟨hst, -⟩ | hst
    · exact absurd (hst i (.inl ⟨i1, i2⟩)) hne
    · exact absurd (hst i i1 i2) hne
    · have ha := harrP fun i h1 _ => hst i h1
      refine ⟨ha.1, fun hro => ⟨ha.2 hro, ?_⟩⟩
      have hb : bakOf s.config k B h = some (rebuiltB k B h) := by unfold bakOf; rw [hro]; rfl
      have htab : slice new ((B - k) * lb) (h.numParts.toNat * 128) =
          tableBytes ((Spec.used s.partitions).take h.numParts.toNat) h.numParts.toNat := by
        refine slice_eq_of_byteAt (by omega) (tableBytes_length hlt) fun i hi => ?_
        rw [hst _ (by omega), hb]
        unfold finalByte
        rw [if_neg (fun hc => by have : (B - k) * lb + i < 2 * lb := hc.2; omega),
          if_neg (fun hc => by have : (B - k) * lb + i < 2 * lb + h.numParts.toNat * 128 := hc.2; omega)]
        simp only
        rw [if_pos ⟨Nat.le_add_right _ _, by show _ < (B - k) * lb + h.numParts.toNat * 128; omega⟩, Nat.add_sub_cancel_left]
        rfl
      have hblk : slice new (B * lb) lb = (rebuiltB k B h).block (crc32 (tableBytes ((Spec.used s.partitions).take h.numParts.toNat) h.numParts.toNat)) s.config.lbSize := by
        refine slice_eq_of_byteAt (by omega) (Header.block_length ..) fun i hi => ?_
        rw [hst _ (by omega), hb]
        unfold finalByte
        rw [if_neg (fun hc => by have : B * lb + i < 2 * lb := hc.2; omega),
          if_neg (fun hc => by have : B * lb + i < 2 * lb + h.numParts.toNat * 128 := hc.2; omega)]
        simp only
        rw [if_neg (fun hc => by have : B * lb + i < (B - k) * lb + h.numParts.toNat * 128 := hc.2; omega),
          if_pos ⟨Nat.le_add_right _ _, by show _ < B * lb + lb; omega⟩, Nat.add_sub_cancel_left]
        rfl
      have hr := read_block (h := rebuiltB k B h) rfl rfl (by show B * lb + lb ≤ new.length; omega) hblk
      obtain ⟨a1, a2⟩ := ((readHeaderAt_spec _ _).1 _).mp hr
      refine ⟨a1, _, a2, ofNat64 hB, ofNat64 (by omega), rfl, rfl, ?_⟩
      rw [htab]
      rfl

/-- On the small disk, written without faults, the primary header block does change, so the second part applies. -/
example (m : Mode) : ∃ i, 512 ≤ i ∧ i < 2 * 512 ∧
    byteAt (writeInplace m (smallDisk [(1, smallPart)])).2.device.data i ≠ byteAt (smallDisk [(1, smallPart)]).device.data i := by
  obtain ⟨s', hw, hl, hz⟩ := smallDisk_written m [(1, smallPart)] (by decide)
  obtain ⟨hp, -, h2, -⟩ := (c40_memory m _ s' smallHeader 1 9 (smallDisk_sane _) hw).1
  have hsig : slice s'.device.data 512 8 = Spec.signature := h2.signature
  refine ⟨512, by omega, by omega, ?_⟩
  have e : byteAt s'.device.data 512 = 0x45 := by
    have : byteAt (slice s'.device.data 512 8) 0 = 0x45 := by rw [hsig]; rfl
    rw [byteAt_slice, if_pos (by omega)] at this
    exact this
  rw [hw]
  simp only
  rw [e]
  have : byteAt (smallDisk [(1, smallPart)]).device.data 512 = 0 := byteAt_zeros ..
  rw [this]
  decide

/-! ## C64 -/

/-- The full statement of C64: ids survive a write and an open. -/
def C64 : Prop := ∀ (m : Mode) (s s' s2 : GptDisk) (h : Header) (k B : Nat) (d d2 : Dev), SaneDisk s h k B →
  writeInplace m s = (.ok (), s') → d.data = s'.device.data → d.faults = [] → d.pos < 2 ^ 64 →
  openFromDevice m s.config d = (.ok s2, d2) →
  ∀ i p, (i, p) ∈ s.partitions → p.partType.guid ≠ Uuid.nil → ∃ q, (i, q) ∈ s2.partitions ∧ SameEntry p q

/-- C64 fails: a single partition with id 2 comes back with id 1. -/
theorem c64_fails : ¬ C64 := by
  intro hc
  obtain ⟨s', hw, hl, hz⟩ := smallDisk_written .debug [(2, smallPart)] (by decide)
  obtain ⟨s2, d2, h2, e, -, -, -, -, -, -, -, -, -, -, hn⟩ := c30_write_open .debug .debug _ s' smallHeader 1 9
    (GptConfig.new.setWritable true) ⟨s'.device.data, 0, 5120, [], []⟩ (smallDisk_sane _) hw rfl rfl (by show 0 < 2 ^ 64; decide) rfl
    (fun hc => by cases hc)
  obtain ⟨q, hq, -⟩ := hc .debug (smallDisk [(2, smallPart)]) s' s2 smallHeader 1 9 ⟨s'.device.data, 0, 5120, [], []⟩ d2
    (smallDisk_sane _) hw rfl rfl (by show 0 < 2 ^ 64; decide) e 2 smallPart (List.mem_singleton.mpr rfl) (by decide)
  have hlen : s2.partitions.length = 1 := hn.length
  obtain ⟨j, r, h1, h2, -⟩ := hn.entries 0 (by decide)
  obtain ⟨x, hx⟩ := List.length_eq_one_iff.mp hlen
  rw [hx] at h1 hq
  simp only [List.getElem?_cons_zero, Option.some.injEq] at h1
  rw [List.mem_singleton] at hq
  rw [h1] at hq
  have := congrArg Prod.fst hq
  simp only at this
  rw [← this] at h2
  revert h2; decide

/-- **C64**, what holds: if the used partitions are numbered 1, 2, … without gap and there are no unused entries, every id
survives. Missing for the full statement: ids with gaps, which a write compacts. -/
theorem c64_partial (m m' : Mode) (s s' s2 : GptDisk) (h : Header) (k B : Nat) (cfg : GptConfig) (d d2 : Dev) (hs : SaneDisk s h k B)
    (hok : writeInplace m s = (.ok (), s')) (hd : d.data = s'.device.data) (hf : d.faults = []) (hp : d.pos < 2 ^ 64)
    (hlb : cfg.lbSize = s.config.lbSize) (hopen : openFromDevice m' cfg d = (.ok s2, d2))
    (hids : ∀ j (hj : j < s.partitions.length), (s.partitions[j]).1.toNat = j + 1)
    (hused : ∀ e ∈ s.partitions, e.2.partType.guid ≠ Uuid.nil) :
    s2.partitions.length = s.partitions.length ∧
    ∀ i p, (i, p) ∈ s.partitions → ∃ q, (i, q) ∈ s2.partitions ∧ SameEntry p q := by
  have hv : cfg.onlyValidHeaders = true → BackupValid cfg.lbSize d.data := by
    intro ho
    have hlen := hs.length
    have hlen' := (write_ok hs hok).length
    exact ((c44_selected m' cfg d d2 s2 hf hp (by rw [hd]; omega) hopen).2.2.2.2.2.1 ho).2
  obtain ⟨s3, d3, h2, e, -, -, -, -, -, -, -, -, -, -, hn⟩ := c30_write_open m m' s s' h k B cfg d hs hok hd hf hp hlb hv
  rw [hopen] at e
  simp only [Prod.mk.injEq, Res.ok.injEq] at e
  obtain ⟨rfl, rfl⟩ := e
  have hu : Spec.used s.partitions = s.partitions.map Prod.snd := by
    unfold Spec.used
    rw [List.filter_eq_self]
    intro p hp
    obtain ⟨e, he, rfl⟩ := List.mem_map.mp hp
    simpa using hused e he
  rw [hu] at hn
  refine ⟨by rw [hn.length, List.length_map], fun i p hm => ?_⟩
  obtain ⟨j, hj, he⟩ := List.mem_iff_getElem.mp hm
  obtain ⟨i', q, h1, h2, h3⟩ := hn.entries j (by rw [List.length_map]; exact hj)
  refine ⟨q, ?_, ?_⟩
  · have hi : i' = i := by
      rw [← UInt32.toNat_inj, h2]
      have := hids j hj
      rw [he] at this
      exact this.symm
    rw [← hi]
    exact List.mem_of_getElem? h1
  · rw [List.getElem_map, he] at h3
    exact h3

/-- Two partitions with ids 1 and 2. -/
example (m : Mode) : ∃ s' s2 d2, writeInplace m (smallDisk [(1, smallPart), (2, { smallPart with firstLba := 5, lastLba := 7 })]) = (.ok (), s') ∧
    openFromDevice m GptConfig.new ⟨s'.device.data, 0, 5120, [], []⟩ = (.ok s2, d2) ∧
    ∃ q, (2, q) ∈ s2.partitions ∧ SameEntry { smallPart with firstLba := 5, lastLba := 7 } q := by
  obtain ⟨s', hw, hl, hz⟩ := smallDisk_written m [(1, smallPart), (2, { smallPart with firstLba := 5, lastLba := 7 })] (by decide)
  obtain ⟨s2, d2, h2, e, -⟩ := c30_write_open m m _ s' smallHeader 1 9 GptConfig.new ⟨s'.device.data, 0, 5120, [], []⟩
    (smallDisk_sane _) hw rfl rfl (by show 0 < 2 ^ 64; decide) rfl (fun hc => by cases hc)
  exact ⟨s', s2, d2, hw, e, (c64_partial m m _ s' s2 smallHeader 1 9 GptConfig.new ⟨s'.device.data, 0, 5120, [], []⟩ d2
    (smallDisk_sane _) hw rfl rfl (by show 0 < 2 ^ 64; decide) rfl e (by
      intro j hj
      have : j = 0 ∨ j = 1 := by
        have : j < 2 := hj
        omega
      rcases this with rfl | rfl <;> rfl) (by decide)).2 2 _ (by decide)⟩

end Gpt
