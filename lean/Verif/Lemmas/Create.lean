import Verif.Lemmas.WriteSane
import Verif.Lemmas.Steps
/-!
# `create_from_device` and `init_headers` without faults
-/

namespace Gpt

open Spec HeaderBuilder

namespace GptDisk

/-- The primary header of a new disk whose last block is `B` and whose arrays take `k` blocks. -/
def createdP (k B : Nat) (g : Uuid) : Header where
  signature := efiPart
  revision := (1, 0)
  headerSizeLe := 92
  crc32 := 0
  reserved := 0
  currentLba := 1
  backupLba := UInt64.ofNat B
  firstUsable := UInt64.ofNat (2 + k)
  lastUsable := UInt64.ofNat (B - k - 1)
  diskGuid := g
  partStart := 2
  numParts := 128
  partSize := 128
  crc32Parts := 0

theorem createdP_rebuilt (k B : Nat) (g : Uuid) : rebuiltP k B (createdP k B g) = createdP k B g := rfl

section
variable {lb : LbSize} {k B : Nat}

theorem createdP_sane {g : Uuid} (hk : JustEnough lb (128 * 128) k) (hB : B < 2 ^ 64) (hkB : 2 * k + 3 ≤ B) :
    SaneHeader lb k B (createdP k B g) := by
  have e1 : (createdP k B g).firstUsable.toNat = 2 + k := ofNat64 (by omega)
  have e2 : (createdP k B g).lastUsable.toNat = B - k - 1 := ofNat64 (by omega)
  refine ⟨rfl, by show 128 * 128 < _; decide, hk, .inl ⟨rfl, ofNat64 hB⟩, ?_, ?_, ?_⟩
  · rw [e1]
  · rw [e1, e2]; omega
  · rw [e2]; omega

theorem create_build (m : Mode) {s : GptDisk} {fresh : Uuid} {e : HeaderError} (hh : s.tryHeader = .error e)
    (hlen : s.partitions.length ≤ 128) (hk : JustEnough s.config.lbSize (128 * 128) k) (hB : B < 2 ^ 64) :
    (s.initBuilder (UInt64.ofNat B) fresh).build m s.config.lbSize =
      if 2 * k + 3 ≤ B then .ok (createdP k B s.guid) else if B = 0 then .err .missingBackupLba else .err .backupLbaToEarly := by
  have e128 : (128 : UInt32).toNat = 128 := rfl
  have e1 : (1 : UInt64).toNat = 1 := rfl
  have hN : (s.initBuilder (UInt64.ofNat B) fresh).numParts = 128 := by
    show max32 (UInt32.ofNat s.partitions.length) minNumParts = 128
    have : (UInt32.ofNat s.partitions.length).toNat = s.partitions.length := by rw [UInt32.toNat_ofNat', Nat.mod_eq_of_lt (by omega)]
    rw [← UInt32.toNat_inj, max32_toNat, this]
    show max s.partitions.length 128 = 128
    omega
  have hb : s.initBuilder (UInt64.ofNat B) fresh =
      { primary := true, diskGuid := s.guid, primaryLba := 1, backupLba := UInt64.ofNat B, firstUsable := 0, lastUsable := 0,
        numParts := 128, partSize := 128 } := by
    have : s.initBuilder (UInt64.ofNat B) fresh = { s.initBuilder (UInt64.ofNat B) fresh with numParts := 128 } := by rw [← hN]
    rw [this]
    unfold initBuilder fromMaybeHeader
    rw [hh]
    rfl
  rw [hb]
  generalize hx : ({ primary := true, diskGuid := s.guid, primaryLba := 1, backupLba := UInt64.ofNat B, firstUsable := 0, lastUsable := 0, numParts := 128, partSize := 128 } : HeaderBuilder) = b
  have b1 : b.primaryLba.toNat = 1 := by rw [← hx]; rfl
  have b2 : b.backupLba.toNat = B := by rw [← hx]; exact ofNat64 hB
  have b3 : b.firstUsable.toNat = 0 := by rw [← hx]; rfl
  have b4 : b.lastUsable.toNat = 0 := by rw [← hx]; rfl
  have b5 : b.primary = true := by rw [← hx]
  have b6 : b.numParts.toNat * b.partSize.toNat = 128 * 128 := by rw [← hx]; rfl
  have hlbs : b.lbs s.config.lbSize = k := by
    unfold lbs
    rw [b6]
    exact justEnough_unique (justEnough_blocksFor _ _) hk
  have hF : b.outFirst s.config.lbSize = 2 + k := by unfold outFirst; rw [hlbs, b3]; omega
  have hL : b.outLast s.config.lbSize = B - (k + 1) := by unfold outLast; rw [hlbs, b4, b2]; omega
  have hS : b.outStart s.config.lbSize = 2 := by unfold outStart; rw [b5, b1]; rfl
  rw [build_eq m b _ (by rw [b6]; decide), b1, b2, hlbs, hF, hL, hS]
  by_cases hok : 2 * k + 3 ≤ B
  · rw [if_neg (by omega), if_neg (by omega), if_neg (by omega), if_pos (.inl (by omega)), if_pos hok]
    unfold out createdP
    rw [hF, hL, hS, b5, ← hx]
    simp only [if_true, Res.ok.injEq]
    congr 1
  · rw [if_neg hok]
    by_cases h0 : B = 0
    · rw [if_pos (by omega), if_pos h0]
    · rw [if_neg (by omega), if_neg h0]
      split
      · rfl
      · rw [if_pos (by omega)]

/-- `create_from_device` without faults. -/
theorem createFromDevice_nil (m : Mode) (cfg : GptConfig) (guid : Option Uuid) (fresh fresh2 : Uuid) {d : Dev}
    (hf : d.faults = []) (hp : d.pos < 2 ^ 64) (hlen : d.data.length < 2 ^ 64) (hk : JustEnough cfg.lbSize (128 * 128) k)
    (hB : d.data.length / cfg.lbSize.usize = B + 1) :
    createFromDevice m cfg guid fresh fresh2 d =
      if 2 * k + 3 ≤ B then (.ok { config := cfg, device := d, guid := guid.getD fresh, primaryHeader := .ok (createdP k B (guid.getD fresh)), backupHeader := if cfg.readonlyBackup then .error .invalidGptSignature else .ok (rebuiltB k B (createdP k B (guid.getD fresh))), partitions := [], syncAll := false }, d)
      else (.err (.header (if d.data.length < 3 * cfg.lbSize.usize then .toSmallForBackup else .backupLbaToEarly)), d) := by
  have hpos := lb_pos cfg.lbSize
  have hB64 : B < 2 ^ 64 := by
    have := Nat.div_le_self d.data.length cfg.lbSize.usize
    omega
  have hlast : lastBlock d.data.length cfg.lbSize = B := by unfold lastBlock; omega
  have hfind := findBackupLba_nil (lb := cfg.lbSize) hf hp hlen
  rw [hlast] at hfind
  have h3 : d.data.length < 3 * cfg.lbSize.usize ↔ B < 2 := by
    rw [← Nat.div_lt_iff_lt_mul hpos]; omega
  have hbuild := create_build m (s := blankDisk cfg d (guid.getD fresh)) (fresh := fresh2) (B := B) (e := HeaderError.invalidGptSignature) rfl (by simp [blankDisk]) hk hB64
  unfold createFromDevice
  by_cases hsm : d.data.length < 3 * cfg.lbSize.usize
  · rw [if_pos hsm] at hfind
    rw [if_neg (by have := h3.mp hsm; omega), initHeaders_find_err (s := blankDisk cfg d (guid.getD fresh)) hfind, if_pos hsm]
  · rw [if_neg hsm] at hfind
    have hb2 : ¬ B < 2 := fun hc => hsm (h3.mpr hc)
    rw [if_neg hsm]
    by_cases hok : 2 * k + 3 ≤ B
    · rw [if_pos hok] at hbuild ⊢
      have hs := createdP_sane (g := guid.getD fresh) hk hB64 hok
      have hbak := backupOf_sane m hs
      rw [createdP_rebuilt] at hbak
      rw [initHeaders_eq (s := blankDisk cfg d (guid.getD fresh)) hfind hbuild (fun _ => hbak)]
      rfl
    · rw [if_neg hok, if_neg (by omega)] at hbuild
      rw [if_neg hok, initHeaders_build_err (s := blankDisk cfg d (guid.getD fresh)) hfind hbuild]

/-- `init_headers` on a sane disk of 128 entries whose backup LBA is the last block, without faults. -/
theorem initHeaders_sane {m : Mode} {fresh : Uuid} {s : GptDisk} {h : Header} (hs : SaneDisk s h k B) (h128 : h.numParts = 128)
    (hlen : s.partitions.length ≤ 128) (hf : s.device.faults = []) (hp : s.device.pos < 2 ^ 64)
    (hB : s.device.data.length / s.config.lbSize.usize = B + 1) :
    initHeaders m fresh s = (.ok (), { s with primaryHeader := .ok (rebuiltP k B { h with diskGuid := s.guid }), backupHeader := if s.config.readonlyBackup then s.backupHeader else .ok (rebuiltB k B { h with diskGuid := s.guid }) }) := by
  obtain ⟨hB64, hkB⟩ := sane_bounds hs.sane
  have hpos := lb_pos s.config.lbSize
  have hlast : lastBlock s.device.data.length s.config.lbSize = B := by unfold lastBlock; omega
  have hfind := findBackupLba_nil (lb := s.config.lbSize) hf hp hs.length
  rw [hlast, if_neg (by rw [Nat.not_lt, ← Nat.le_div_iff_mul_le hpos]; omega)] at hfind
  have hsane : SaneHeader s.config.lbSize k B { h with diskGuid := s.guid } := by
    obtain ⟨a1, a2, a3, a4, a5, a6, a7⟩ := hs.sane
    exact ⟨a1, a2, a3, a4, a5, a6, a7⟩
  have hN : max32 (UInt32.ofNat s.partitions.length) minNumParts = 128 := by
    have : (UInt32.ofNat s.partitions.length).toNat = s.partitions.length := by rw [UInt32.toNat_ofNat', Nat.mod_eq_of_lt (by omega)]
    rw [← UInt32.toNat_inj, max32_toNat, this]
    show max s.partitions.length 128 = 128
    omega
  have hb : s.initBuilder (UInt64.ofNat B) fresh = (fromHeader { h with diskGuid := s.guid }).setPrimary true := by
    unfold initBuilder fromMaybeHeader
    rw [header_try hs.header]
    simp only
    unfold setPrimary setDiskGuid setBackupLba setNumParts fromHeader
    simp only [hN, HeaderBuilder.mk.injEq, true_and, and_true]
    refine ⟨?_, h128.symm⟩
    apply UInt64.toNat_inj.mp
    rw [ofNat64 hB64]
    rcases hs.sane.lbas with ⟨e1, e2⟩ | ⟨e1, e2⟩
    · rw [if_pos (UInt64.lt_iff_toNat_lt.mpr (by omega)), e2]
    · rw [if_neg (fun hc => by have := UInt64.lt_iff_toNat_lt.mp hc; omega), e1]
  have hbuild : (s.initBuilder (UInt64.ofNat B) fresh).build m s.config.lbSize = .ok (rebuiltP k B { h with diskGuid := s.guid }) := by
    rw [hb]
    exact primaryOf_sane m hsane
  exact initHeaders_eq hfind hbuild (fun _ => backupOf_sane m hsane)

/-- The disk after its headers were rebuilt and its table replaced. -/
def reinit (s : GptDisk) (h : Header) (k B : Nat) (pp : PMap) : GptDisk :=
  { s with partitions := pp, primaryHeader := .ok (rebuiltP k B { h with diskGuid := s.guid }), backupHeader := if s.config.readonlyBackup then s.backupHeader else .ok (rebuiltB k B { h with diskGuid := s.guid }) }

theorem reinit_sane {s : GptDisk} {h : Header} (hs : SaneDisk s h k B) (pp : PMap) :
    SaneDisk (reinit s h k B pp) (rebuiltP k B { h with diskGuid := s.guid }) k B := by
  obtain ⟨hB64, hkB⟩ := sane_bounds hs.sane
  obtain ⟨a1, a2, a3, a4, a5, a6, a7⟩ := hs.sane
  have e : (rebuiltP k B { h with diskGuid := s.guid }).lastUsable.toNat = B - k - 1 := ofNat64 (by omega)
  refine ⟨rfl, ⟨rfl, a2, a3, .inl ⟨rfl, ofNat64 hB64⟩, a5, ?_, ?_⟩, hs.fits, hs.length⟩
  · rw [e]; show h.firstUsable.toNat ≤ _; omega
  · rw [e]; omega

/-- `update_partitions` on a sane disk of 128 entries whose backup LBA is the last block, without faults. -/
theorem updatePartitions_sane {m : Mode} {fresh : Uuid} {s : GptDisk} {h : Header} {pp : PMap} (hs : SaneDisk s h k B)
    (h128 : h.numParts = 128) (hlen : pp.length ≤ 128) (h0 : PMap.get pp 0 = none) (hf : s.device.faults = [])
    (hp : s.device.pos < 2 ^ 64) (hB : s.device.data.length / s.config.lbSize.usize = B + 1) :
    updatePartitions m pp fresh s = (.ok (), reinit s h k B pp) := by
  have hs1 : SaneDisk (s.withParts pp) h k B := ⟨hs.header, hs.sane, hs.fits, hs.length⟩
  have hi := initHeaders_sane (m := m) (fresh := fresh) hs1 h128 hlen hf hp hB
  have hch : h.numPartsWouldChange (UInt32.ofNat pp.length) = false := by
    unfold Header.numPartsWouldChange
    rw [h128]
    simp only [bne_eq_false_iff_eq]
    have : (UInt32.ofNat pp.length).toNat = pp.length := by rw [UInt32.toNat_ofNat', Nat.mod_eq_of_lt (by omega)]
    rw [← UInt32.toNat_inj, max32_toNat, max32_toNat, this]
    show 128 = max (max pp.length 128) 128
    omega
  rcases updatePartitions_any m pp fresh s with ⟨e, hc | ⟨hc, h', hh, hw, -⟩⟩ | ⟨-, -, -, -, e⟩
  · exfalso
    revert hc
    unfold updatePartitions
    rw [if_neg (by rw [h0]; simp)]
    simp only [M.bind_apply, M.get_apply, M.lift_apply]
    rw [show (s.header : Res GptError Header) = .ok h from by unfold header; rw [header_try hs.header]]
    simp only [hch, Bool.false_and, Bool.false_eq_true, if_false, M.bind_apply, M.modify_apply]
    unfold withParts at hi
    rw [hi]
    simp
  · rw [header_try hs.header] at hh
    simp only [Except.ok.injEq] at hh
    subst hh
    rw [hch] at hw
    cases hw
  · rw [e, hi]
    rfl

end

end GptDisk

end Gpt
