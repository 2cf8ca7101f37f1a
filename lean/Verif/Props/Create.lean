import Verif.Lemmas.Create
import Verif.Props.Rewrite
/-!
# Creating: C61. Growing the device and changing the GUID: C31, C43
-/

namespace Gpt

open Spec GptDisk

/-! ## C61 -/

theorem create_small (m : Mode) (cfg : GptConfig) (guid : Option Uuid) (fresh fresh2 : Uuid) {d : Dev}
    (hf : d.faults = []) (hp : d.pos < 2 ^ 64) (hlen : d.data.length < 3 * cfg.lbSize.usize) :
    createFromDevice m cfg guid fresh fresh2 d = (.err (.header .toSmallForBackup), d) := by
  have h := lb_ge cfg.lbSize
  have hfind := findBackupLba_nil (lb := cfg.lbSize) hf hp (by omega)
  rw [if_pos hlen] at hfind
  unfold createFromDevice
  rw [initHeaders_find_err (s := blankDisk cfg d (guid.getD fresh)) hfind]

/-- **C61**, when. With `k` blocks for an array of 128 entries: LBA 0, two headers, two arrays and one usable block. -/
theorem c61_when (m : Mode) (cfg : GptConfig) (guid : Option Uuid) (fresh fresh2 : Uuid) (d : Dev) (k : Nat)
    (hf : d.faults = []) (hp : d.pos < 2 ^ 64) (hlen : d.data.length < 2 ^ 64) (hk : JustEnough cfg.lbSize (128 * 128) k) :
    ((∃ s, (createFromDevice m cfg guid fresh fresh2 d).1 = .ok s) ↔ 2 * k + 4 ≤ d.data.length / cfg.lbSize.usize) ∧
    (createFromDevice m cfg guid fresh fresh2 d).1 ≠ .panic := by
  cases hB : d.data.length / cfg.lbSize.usize with
  | zero =>
    have hpos := lb_pos cfg.lbSize
    have : d.data.length < cfg.lbSize.usize := (Nat.div_eq_zero_iff_lt hpos).mp hB
    rw [create_small m cfg guid fresh fresh2 hf hp (by omega)]
    simp
  | succ B =>
    rw [createFromDevice_nil m cfg guid fresh fresh2 hf hp hlen hk hB]
    by_cases hok : 2 * k + 3 ≤ B
    · rw [if_pos hok]
      refine ⟨⟨fun _ => by omega, fun _ => ⟨_, rfl⟩⟩, by simp⟩
    · rw [if_neg hok]
      refine ⟨⟨fun ⟨s, hc⟩ => by simp at hc, fun _ => by omega⟩, by simp⟩

/-- The numbers of blocks: 68 blocks of 512 bytes or 12 of 4096. -/
example (m : Mode) (g f f2 : Uuid) (data : Bytes) (hd : data.length < 2 ^ 64) :
    ((∃ s, (createFromDevice m GptConfig.new (some g) f f2 ⟨data, 0, data.length, [], []⟩).1 = .ok s) ↔ 68 ≤ data.length / 512) ∧
    ((∃ s, (createFromDevice m (GptConfig.new.setLogicalBlockSize .lb4096) (some g) f f2 ⟨data, 0, data.length, [], []⟩).1 = .ok s) ↔
      12 ≤ data.length / 4096) :=
  ⟨(c61_when m GptConfig.new (some g) f f2 ⟨data, 0, data.length, [], []⟩ 32 rfl (by show 0 < 2 ^ 64; decide) hd
      ⟨by decide, fun j hj => by have : LbSize.lb512.usize = 512 := rfl; have hj : 128 * 128 ≤ j * 512 := hj; omega⟩).1,
   (c61_when m (GptConfig.new.setLogicalBlockSize .lb4096) (some g) f f2 ⟨data, 0, data.length, [], []⟩ 4 rfl
      (by show 0 < 2 ^ 64; decide) hd ⟨by decide, fun j hj => by have hj : 128 * 128 ≤ j * 4096 := hj; omega⟩).1⟩

/-- The headers describe the whole device: the arrays right after LBA 1 and right before the last block, everything between them
usable. -/
structure Spec.WholeDevice (lb : LbSize) (len k : Nat) (g : Uuid) (p : Header) : Prop where
  guid : p.diskGuid = g
  count : p.numParts = 128
  entry : p.partSize = 128
  at_ : p.currentLba.toNat = 1
  backup : p.backupLba.toNat + 1 = len / lb.usize
  array : p.partStart.toNat = 2
  first : p.firstUsable.toNat = 2 + k
  last : p.lastUsable.toNat + k + 2 = len / lb.usize

theorem createdP_whole {lb : LbSize} {len k B : Nat} {g : Uuid} (hB : len / lb.usize = B + 1) (hB64 : B < 2 ^ 64)
    (hkB : 2 * k + 3 ≤ B) : WholeDevice lb len k g (createdP k B g) := by
  refine ⟨rfl, rfl, rfl, rfl, ?_, rfl, ofNat64 (by omega), ?_⟩
  · show (UInt64.ofNat B).toNat + 1 = _
    rw [ofNat64 hB64, hB]
  · show (UInt64.ofNat (B - k - 1)).toNat + k + 2 = _
    rw [ofNat64 (by omega), hB]; omega

/-- **C61**, what. For every fault schedule: if creating succeeds, the table is empty, the GUID is the given (or drawn) one, the
primary header covers the whole device, the backup header (unless left alone) mirrors it, and the content is untouched. -/
theorem c61_created (m : Mode) (cfg : GptConfig) (guid : Option Uuid) (fresh fresh2 : Uuid) (d d' : Dev) (k : Nat) (s : GptDisk)
    (hp : d.pos < 2 ^ 64) (hlen : d.data.length < 2 ^ 64) (hk : JustEnough cfg.lbSize (128 * 128) k)
    (hok : createFromDevice m cfg guid fresh fresh2 d = (.ok s, d')) :
    s.config = cfg ∧ s.device = d' ∧ d'.data = d.data ∧ s.guid = guid.getD fresh ∧ s.partitions = [] ∧ s.syncAll = false ∧
    ∃ p, s.primaryHeader = .ok p ∧ WholeDevice cfg.lbSize d.data.length k (guid.getD fresh) p ∧
      (cfg.readonlyBackup = true → s.backupHeader = .error .invalidGptSignature) ∧
      (cfg.readonlyBackup = false → ∃ b, s.backupHeader = .ok b ∧ Layout cfg.lbSize k p b ∧ b.backupLba = p.currentLba ∧
        b.firstUsable = p.firstUsable ∧ b.lastUsable = p.lastUsable ∧ b.diskGuid = p.diskGuid) := by
  unfold createFromDevice at hok
  rcases hx : initHeaders m fresh2 (blankDisk cfg d (guid.getD fresh)) with ⟨r, s1⟩
  rw [hx] at hok
  have hmem := initHeaders_same hx
  cases r with
  | err e => simp at hok
  | panic => simp at hok
  | ok u =>
    simp only [Prod.mk.injEq, Res.ok.injEq] at hok
    obtain ⟨rfl, rfl⟩ := hok
    rcases initHeaders_any hx with ⟨-, -, hc⟩ | ⟨bak, h1, hfind, hb, hp1, hrest⟩
    · exact absurd rfl hc
    obtain ⟨f1, f2, -, f4⟩ := findBackupLba_ok (lb := cfg.lbSize) hp hlen hfind
    have hpos := lb_pos cfg.lbSize
    have h3 : 3 ≤ d.data.length / cfg.lbSize.usize := (Nat.le_div_iff_mul_le hpos).mpr f1
    obtain ⟨B, hB⟩ : ∃ B, d.data.length / cfg.lbSize.usize = B + 1 := ⟨d.data.length / cfg.lbSize.usize - 1, by omega⟩
    have hB64 : B < 2 ^ 64 := by have := Nat.div_le_self d.data.length cfg.lbSize.usize; omega
    have hbak : bak = UInt64.ofNat B := by
      apply UInt64.toNat_inj.mp
      rw [f2, ofNat64 hB64]; unfold lastBlock; omega
    subst hbak
    have hbuild := create_build m (s := blankDisk cfg d (guid.getD fresh)) (fresh := fresh2) (B := B) (e := HeaderError.invalidGptSignature) rfl (by simp [blankDisk]) hk hB64
    rw [show (blankDisk cfg d (guid.getD fresh)).config = cfg from rfl] at hb hbuild hrest
    rw [hb] at hbuild
    have hkB : 2 * k + 3 ≤ B := by
      by_contra hc
      rw [if_neg hc] at hbuild
      split at hbuild <;> simp at hbuild
    rw [if_pos hkB] at hbuild
    simp only [Res.ok.injEq] at hbuild
    subst hbuild
    have hs := createdP_sane (g := guid.getD fresh) hk hB64 hkB
    have hbk := backupOf_sane m hs
    refine ⟨hmem.config, rfl, f4, hmem.guid, hmem.partitions, hmem.syncAll, _, hp1, createdP_whole hB hB64 hkB, ?_, ?_⟩
    · intro hro
      rcases hrest with ⟨-, e, -⟩ | ⟨hc, -⟩ | ⟨hc, -⟩
      · exact e
      · rw [hro] at hc; cases hc
      · rw [hro] at hc; cases hc
    · intro hro
      rcases hrest with ⟨hc, -⟩ | ⟨-, h2, e1, e2, -⟩ | ⟨-, hc, -⟩
      · rw [hro] at hc; cases hc
      · rw [show (blankDisk cfg d (guid.getD fresh)).guid = guid.getD fresh from rfl] at e1
        rw [show backupOf m (createdP k B (guid.getD fresh)) cfg.lbSize = _ from hbk] at e1
        simp only [Res.ok.injEq] at e1
        subst e1
        refine ⟨_, e2, ⟨hk, rfl, rfl, rfl, rfl, ?_, ?_, ?_, ?_, rfl⟩, rfl, rfl, rfl, rfl⟩
        · show 2 + k ≤ (UInt64.ofNat (2 + k)).toNat
          rw [ofNat64 (by omega)]
        · show (UInt64.ofNat (2 + k)).toNat ≤ (UInt64.ofNat (B - k - 1)).toNat
          rw [ofNat64 (by omega), ofNat64 (by omega)]; omega
        · show (UInt64.ofNat (B - k - 1)).toNat < (UInt64.ofNat (B - k)).toNat
          rw [ofNat64 (by omega), ofNat64 (by omega)]; omega
        · show (UInt64.ofNat (B - k)).toNat + k ≤ (UInt64.ofNat B).toNat
          rw [ofNat64 (by omega), ofNat64 hB64]; omega
      · exact absurd hbk (hc _)

/-! ## A created disk -/

/-- What `create_from_device` returns on `d`. -/
def madeDisk (cfg : GptConfig) (d : Dev) (k B : Nat) (g : Uuid) : GptDisk where
  config := cfg
  device := d
  guid := g
  primaryHeader := .ok (createdP k B g)
  backupHeader := if cfg.readonlyBackup then .error .invalidGptSignature else .ok (rebuiltB k B (createdP k B g))
  partitions := []
  syncAll := false

theorem madeDisk_sane {cfg : GptConfig} {d : Dev} {k B : Nat} {g : Uuid} (hlen : d.data.length < 2 ^ 64)
    (hk : JustEnough cfg.lbSize (128 * 128) k) (hB : d.data.length / cfg.lbSize.usize = B + 1) (hkB : 2 * k + 3 ≤ B) :
    SaneDisk (madeDisk cfg d k B g) (createdP k B g) k B := by
  have hB64 : B < 2 ^ 64 := by have := Nat.div_le_self d.data.length cfg.lbSize.usize; omega
  exact ⟨rfl, createdP_sane hk hB64 hkB, by rw [← hB]; exact Nat.div_mul_le_self _ _, hlen⟩

/-- **C61**, with the write and open theorems: on a working device that is large enough, creating, writing and opening all
succeed, and the opened disk has an empty table, the given GUID and the headers of the created disk. -/
theorem c61_write_open (m m' : Mode) (cfg cfg' : GptConfig) (g fresh fresh2 : Uuid) (d : Dev) (k : Nat)
    (hf : d.faults = []) (hp : d.pos < 2 ^ 64) (hlen : d.data.length < 2 ^ 64) (hcap : d.data.length ≤ d.cap)
    (hk : JustEnough cfg.lbSize (128 * 128) k) (hroom : 2 * k + 4 ≤ d.data.length / cfg.lbSize.usize) (hw : cfg.writable = true)
    (hlb : cfg'.lbSize = cfg.lbSize) (hv : cfg'.onlyValidHeaders = false) :
    ∃ s s1 s2 d2, createFromDevice m cfg (some g) fresh fresh2 d = (.ok s, d) ∧ writeInplace m s = (.ok (), s1) ∧
      openFromDevice m' cfg' { s1.device with pos := 0 } = (.ok s2, d2) ∧ s2.guid = g ∧ s2.partitions = [] ∧
      s2.primaryHeader = s1.primaryHeader ∧
      ∃ h, s2.primaryHeader = .ok h ∧ WholeDevice cfg.lbSize d.data.length k g h := by
  obtain ⟨B, hB⟩ : ∃ B, d.data.length / cfg.lbSize.usize = B + 1 := ⟨d.data.length / cfg.lbSize.usize - 1, by omega⟩
  have hkB : 2 * k + 3 ≤ B := by omega
  have hB64 : B < 2 ^ 64 := by have := Nat.div_le_self d.data.length cfg.lbSize.usize; omega
  have hc := createFromDevice_nil m cfg (some g) fresh fresh2 hf hp hlen hk hB
  rw [if_pos hkB] at hc
  have hs := madeDisk_sane (g := g) hlen hk hB hkB
  have hok := c62_write_succeeds m _ _ k B hs hw (Nat.zero_le _) hf (hs.fits.trans hcap)
  have hfaults := c36_faults m _ _ k B hs hf
  rcases hx : writeInplace m (madeDisk cfg d k B g) with ⟨r, s1⟩
  rw [hx] at hok hfaults
  simp only at hok hfaults
  subst hok
  obtain ⟨h2, p, e⟩ := open_written (m' := m') (cfg := cfg') (d := { s1.device with pos := 0 }) hs hx rfl hfaults
    (by show 0 < 2 ^ 64; decide) hlb (fun hc => by rw [hv] at hc; cases hc)
  refine ⟨_, s1, _, _, hc, hx, e, rfl, rfl, (write_ok hs hx).primary.symm, _, rfl, ?_⟩
  obtain ⟨a1, a2, a3, a4, a5, a6, a7, a8⟩ := createdP_whole (g := g) hB hB64 hkB
  exact ⟨a1, a2, a3, a4, a5, a6, a7, a8⟩

/-- A device of 100 blocks of 512 bytes. -/
def dev100 : Dev := ⟨zeros 51200, 0, 51200, [], []⟩

theorem dev100_length : dev100.data.length = 51200 := zeros_length _

theorem enough512 : JustEnough .lb512 (128 * 128) 32 :=
  ⟨by decide, fun j hj => by have hj : 128 * 128 ≤ j * 512 := hj; omega⟩

example (m m' : Mode) (g : Uuid) : ∃ s s1 s2 d2, createFromDevice m (GptConfig.new.setWritable true) (some g) g g dev100 = (.ok s, dev100) ∧
    writeInplace m s = (.ok (), s1) ∧ openFromDevice m' GptConfig.new { s1.device with pos := 0 } = (.ok s2, d2) ∧ s2.guid = g := by
  obtain ⟨s, s1, s2, d2, h1, h2, h3, h4, -⟩ := c61_write_open m m' (GptConfig.new.setWritable true) GptConfig.new g g g dev100 32 rfl
    (by show 0 < 2 ^ 64; decide) (by rw [dev100_length]; decide) (by rw [dev100_length]; exact Nat.le_refl _) enough512
    (by rw [dev100_length]; decide) rfl rfl rfl
  exact ⟨s, s1, s2, d2, h1, h2, h3, h4⟩

/-! ## C43 -/

/-- **C43** in full. -/
def C43 : Prop := ∀ (m m' : Mode) (s s1 s2 s3 : GptDisk) (h : Header) (k B : Nat) (g fresh : Uuid) (cfg : GptConfig) (d d' : Dev),
  updateGuid (ε := GptError) (some g) fresh s = (.ok (), s1) → SaneDisk s1 h k B → writeInplace m s1 = (.ok (), s2) →
  d.data = s2.device.data → d.faults = [] → d.pos < 2 ^ 64 → cfg.lbSize = s1.config.lbSize →
  openFromDevice m' cfg d = (.ok s3, d') → s3.guid = g

/-- **C43** is false: `write_inplace` takes the GUID from the header, which `update_guid` leaves alone. -/
theorem c43_fails : ¬ C43 := by
  intro hc
  have hs : SaneDisk { smallDisk [(1, smallPart)] with guid := ⟨7, 7, 7, 7⟩ } smallHeader 1 9 :=
    ⟨rfl, smallSane, (smallDisk_sane [(1, smallPart)]).fits, (smallDisk_sane [(1, smallPart)]).length⟩
  have hok := c62_write_succeeds .release _ smallHeader 1 9 hs rfl (by decide) rfl (by show 10 * 512 ≤ 5120; decide)
  rcases hx : writeInplace .release { smallDisk [(1, smallPart)] with guid := ⟨7, 7, 7, 7⟩ } with ⟨r, s2⟩
  rw [hx] at hok
  simp only at hok
  subst hok
  obtain ⟨s3, d3, h3, e, -, -, -, -, hg, -⟩ := c30_write_open .release .release _ s2 _ 1 9 GptConfig.new ⟨s2.device.data, 0, 5120, [], []⟩
    hs hx rfl rfl (by show 0 < 2 ^ 64; decide) rfl (fun hc => by cases hc)
  have := hc .release .release (smallDisk [(1, smallPart)]) _ s2 s3 smallHeader 1 9 ⟨7, 7, 7, 7⟩ ⟨0, 0, 0, 0⟩ GptConfig.new
    ⟨s2.device.data, 0, 5120, [], []⟩ d3 rfl hs hx rfl rfl (by show 0 < 2 ^ 64; decide) rfl e
  rw [hg] at this
  revert this
  decide

theorem build_keeps {m : Mode} {b : HeaderBuilder} {lb : LbSize} {h : Header} (hb : b.build m lb = .ok h) :
    h.diskGuid = b.diskGuid ∧ h.numParts = b.numParts ∧ h.partSize = b.partSize := by
  unfold HeaderBuilder.build at hb
  split at hb
  · simp at hb
  · simp only [Res.bind_eq_ok] at hb
    obtain ⟨_, _, _, _, _, _, _, _, _, _, hb⟩ := hb
    split at hb
    · simp at hb
    · split at hb <;>
      · simp only [Res.bind_eq_ok] at hb
        obtain ⟨_, _, hb⟩ := hb
        simp only [Res.pure_eq, Res.ok.injEq] at hb
        subst hb
        exact ⟨rfl, rfl, rfl⟩

/-- **C43**, partial: the new GUID is stored if `update_partitions` succeeds between `update_guid` and the write (it rebuilds the
headers). What an opened disk reports is in every case the GUID of the header in use at the write (`c30_write_open`). Missing:
`update_guid` followed directly by a write, where the claim is false. -/
theorem c43_partial (m m' : Mode) (s s1 s2 s3 : GptDisk) (h : Header) (k B : Nat) (g fresh fresh' : Uuid) (pp : PMap) (cfg : GptConfig)
    (d : Dev) (h1 : updateGuid (ε := GptError) (some g) fresh s = (.ok (), s1)) (h2 : updatePartitions m pp fresh' s1 = (.ok (), s2))
    (hs : SaneDisk s2 h k B) (hok : writeInplace m s2 = (.ok (), s3)) (hd : d.data = s3.device.data) (hf : d.faults = [])
    (hp : d.pos < 2 ^ 64) (hlb : cfg.lbSize = s2.config.lbSize) (hv : cfg.onlyValidHeaders = false) :
    ∃ s4 d4, openFromDevice m' cfg d = (.ok s4, d4) ∧ s4.guid = g := by
  have hg1 : s1.guid = g := by
    unfold updateGuid at h1
    simp only [Prod.mk.injEq, true_and] at h1
    rw [← h1]; rfl
  have hguid : h.diskGuid = g := by
    rcases updatePartitions_any m pp fresh' s1 with ⟨-, hc | ⟨hc, -⟩⟩ | ⟨-, -, -, -, e⟩
    · rw [h2] at hc; simp at hc
    · rw [h2] at hc; simp at hc
    · rw [h2] at e
      rcases initHeaders_any e.symm with ⟨-, -, hc⟩ | ⟨bak, hh, -, hb, hp1, -⟩
      · exact absurd rfl hc
      · have hh' := hs.header
        unfold GptDisk.header tryHeader at hh'
        rw [hp1] at hh'
        simp only [Res.ok.injEq] at hh'
        rw [← hh', (build_keeps hb).1]
        exact hg1
  obtain ⟨s4, d4, -, e, -, -, -, -, hg, -⟩ := c30_write_open m m' s2 s3 h k B cfg d hs hok hd hf hp hlb
    (fun hc => by rw [hv] at hc; cases hc)
  exact ⟨s4, d4, e, by rw [hg, hguid]⟩

/-- A created disk: `update_guid`, `update_partitions` with one partition, write, open. -/
example (m m' : Mode) (g : Uuid) : ∃ s1 s2 s3 s4 d4,
    updateGuid (ε := GptError) (some g) g (madeDisk (GptConfig.new.setWritable true) dev100 32 99 ⟨1, 2, 3, 4⟩) = (.ok (), s1) ∧
    updatePartitions m [(1, smallPart)] g s1 = (.ok (), s2) ∧ writeInplace m s2 = (.ok (), s3) ∧
    openFromDevice m' GptConfig.new ⟨s3.device.data, 0, 51200, [], []⟩ = (.ok s4, d4) ∧ s4.guid = g := by
  have hz : dev100.data.length / (GptConfig.new.setWritable true).lbSize.usize = 99 + 1 := by rw [dev100_length]; rfl
  have hs := madeDisk_sane (cfg := GptConfig.new.setWritable true) (d := dev100) (k := 32) (B := 99) (g := ⟨1, 2, 3, 4⟩)
    (by rw [dev100_length]; decide) enough512 hz (by decide)
  have hs1 : SaneDisk { madeDisk (GptConfig.new.setWritable true) dev100 32 99 ⟨1, 2, 3, 4⟩ with guid := g } (createdP 32 99 ⟨1, 2, 3, 4⟩) 32 99 :=
    ⟨hs.header, hs.sane, hs.fits, hs.length⟩
  have hu := updatePartitions_sane (m := m) (fresh := g) (pp := [(1, smallPart)]) hs1 rfl (by decide) (by decide) rfl
    (by show 0 < 2 ^ 64; decide) hz
  have hsane2 := reinit_sane hs1 [(1, smallPart)]
  generalize hs2 : reinit { madeDisk (GptConfig.new.setWritable true) dev100 32 99 ⟨1, 2, 3, 4⟩ with guid := g } (createdP 32 99 ⟨1, 2, 3, 4⟩) 32 99
    [(1, smallPart)] = s2 at hu hsane2
  have hok := c62_write_succeeds m s2 _ 32 99 hsane2 (by rw [← hs2]; rfl) (by rw [← hs2]; show 1 ≤ 128; decide) (by rw [← hs2]; rfl)
    (by rw [← hs2]; show 100 * 512 ≤ 51200; decide)
  rcases hx : writeInplace m s2 with ⟨r, s3⟩
  rw [hx] at hok
  simp only at hok
  subst hok
  obtain ⟨s4, d4, e, hg⟩ := c43_partial m m' _ s2 s3 _ 32 99 g g g [(1, smallPart)] GptConfig.new ⟨s3.device.data, 0, 51200, [], []⟩
    (s := madeDisk (GptConfig.new.setWritable true) dev100 32 99 ⟨1, 2, 3, 4⟩) rfl hu hsane2 hx rfl rfl (by show 0 < 2 ^ 64; decide)
    (by rw [← hs2]; rfl) rfl
  exact ⟨_, s2, s3, s4, d4, rfl, hu, hx, e, hg⟩

end Gpt
