import Verif.Props.Session
import Verif.Props.Build
import Verif.Props.Untouched
/-!
# Moving a table to another device: C102

`with_disk_device` (src/lib.rs:439-463) keeps headers and table and only exchanges the device. The setting is that of C67 for the old
device; the new one has any content and any size.
-/

namespace Gpt

open Spec GptDisk

section
variable {m : Mode} {cfg : GptConfig} {k : Nat} {d d' : Dev} {s : GptDisk}

theorem moved_try (s : GptDisk) (d' : Dev) (w : Bool) {h : Header} (hh : s.tryHeader = .ok h) : (s.withDiskDevice d' w).tryHeader = .ok h := by
  rw [tryHeader_lossy (s := s) (s' := s.withDiskDevice d' w) rfl rfl, hh]

theorem moved_config (hs : InSession m cfg k d s) : (s.withDiskDevice d' true).config = cfg := by
  obtain ⟨_, _, _, _, _, v⟩ := hs.sound
  show { s.config with writable := true } = cfg
  rw [v.config, ← hs.writable]

/-- The header in use after the headers were rebuilt on a device of `n'` blocks: the disk had `n` blocks before. -/
structure Spec.Describes (k n n' : Nat) (g : Uuid) (p b : Header) : Prop where
  guid : p.diskGuid = g ∧ b.diskGuid = g
  count : p.numParts = 128 ∧ b.numParts = 128
  entry : p.partSize = 128 ∧ b.partSize = 128
  at_ : p.currentLba.toNat = 1 ∧ b.currentLba.toNat + 1 = n'
  other : p.backupLba.toNat + 1 = n' ∧ b.backupLba.toNat = 1
  first : p.firstUsable.toNat = 2 + k ∧ b.firstUsable.toNat = 2 + k
  last : p.lastUsable.toNat + k + 2 = max n n' ∧ b.lastUsable.toNat + k + 2 = max n n'
  arrays : p.partStart.toNat = 2 ∧ b.partStart.toNat + k + 1 = max n n'

/-- The headers themselves. -/
def movedP (k L B' : Nat) (g : Uuid) : Header where
  signature := efiPart
  revision := (1, 0)
  headerSizeLe := 92
  crc32 := 0
  reserved := 0
  currentLba := 1
  backupLba := UInt64.ofNat B'
  firstUsable := UInt64.ofNat (2 + k)
  lastUsable := UInt64.ofNat L
  diskGuid := g
  partStart := 2
  numParts := 128
  partSize := 128
  crc32Parts := 0

def movedB (k L B' : Nat) (g : Uuid) : Header :=
  { movedP k L B' g with currentLba := UInt64.ofNat B', backupLba := 1, partStart := UInt64.ofNat (L + 1) }

theorem moved_update (hs : InSession m cfg k d s) (hw : d'.Works) (hsm : d'.data.length < 2 ^ 60) (hro : cfg.readonlyBackup = false) (fresh : Uuid) :
    updatePartitions m s.partitions fresh (s.withDiskDevice d' true) =
      if k + 2 ≤ d'.data.length / cfg.lbSize.usize then
        (.ok (), { s.withDiskDevice d' true with
          primaryHeader := .ok (movedP k (max (d.data.length / cfg.lbSize.usize) (d'.data.length / cfg.lbSize.usize) - k - 2) (d'.data.length / cfg.lbSize.usize - 1) s.guid)
          backupHeader := .ok (movedB k (max (d.data.length / cfg.lbSize.usize) (d'.data.length / cfg.lbSize.usize) - k - 2) (d'.data.length / cfg.lbSize.usize - 1) s.guid) })
      else (.err (.header (if d'.data.length < 3 * cfg.lbSize.usize then .toSmallForBackup else .backupLbaToEarly)), s.withDiskDevice d' true) := by
  obtain ⟨B, h, hB, hkB, hB51, v⟩ := hs.sound
  have hcfg : (s.withDiskDevice d' true).config = cfg := moved_config hs
  have hh := moved_try s d' true (header_try v.sane.header)
  have hpos := lb_pos cfg.lbSize
  have h512 := lb_le cfg.lbSize
  have hlen64 : d'.data.length < 2 ^ 64 := by omega
  have hN' : d'.data.length / cfg.lbSize.usize < 2 ^ 51 := by
    rw [Nat.div_lt_iff_lt_mul hpos]
    have : 2 ^ 51 * 512 ≤ 2 ^ 51 * cfg.lbSize.usize := Nat.mul_le_mul_left _ h512
    omega
  have he := v.entries
  have hlenp : s.partitions.length % 2 ^ 32 = s.partitions.length := Nat.mod_eq_of_lt (by omega)
  have h0 : ∀ p, (0, p) ∉ s.partitions := fun p hm => absurd (v.ids 0 p hm).1 (by decide)
  have hcnt : h.numParts.toNat = 128 := by rw [v.count]; rfl
  have hf := v.first
  have hl := v.last
  have h1 : (1 : UInt64).toNat = 1 := rfl
  have h128 : (128 : UInt32).toNat = 128 := rfl
  have harr := hs.array
  generalize hn' : d'.data.length / cfg.lbSize.usize = n' at hN' ⊢
  have hsmall : d'.data.length < 3 * cfg.lbSize.usize ↔ n' < 3 := by
    rw [← hn', Nat.div_lt_iff_lt_mul hpos]
  rw [hB]
  have hpl : (if h.currentLba < h.backupLba then h.currentLba else h.backupLba) = 1 := by
    apply UInt64.toNat_inj.mp
    rcases v.sane.sane.lbas with ⟨e1, e2⟩ | ⟨e1, e2⟩
    · rw [if_pos (UInt64.lt_iff_toNat_lt.mpr (by omega)), e1]; rfl
    · rw [if_neg (fun hc => by have := UInt64.lt_iff_toNat_lt.mp hc; omega), e2]; rfl
  have hk0 : 0 < k := by
    rcases Nat.eq_zero_or_pos k with e | e
    · subst e; have := harr.enough; omega
    · exact e
  have hprim : primaryFrom { s.withDiskDevice d' true with partitions := s.partitions } h 128 (UInt64.ofNat (n' - 1)) =
      ⟨true, s.guid, 1, UInt64.ofNat (n' - 1), h.firstUsable, h.lastUsable, 128, 128⟩ := by
    unfold primaryFrom
    rw [hpl, v.sane.sane.entry]
    rfl
  have hmul : (128 : UInt32).toNat * (128 : UInt32).toNat % 2 ^ 32 = 128 * 128 := rfl
  have key : ∀ {r s'}, Updated m (s.withDiskDevice d' true) h s.partitions r s' → updatePartitions m s.partitions fresh (s.withDiskDevice d' true) = (r, s') :=
    (c87_update m _ _ h s.partitions fresh _ (header_ok_iff.mpr hh) hw.faults hw.pos hlen64).mpr
  have hgo : max 128 (s.partitions.length % 2 ^ 32) ≤ h.numParts.toNat := by omega
  have hc128 : (128 : UInt32).toNat = max 128 (s.partitions.length % 2 ^ 32) := by omega
  have hlast : (UInt64.ofNat (n' - 1)).toNat = n' - 1 := ofNat64 (by omega)
  by_cases hk2 : k + 2 ≤ n'
  · rw [if_pos hk2]
    have h3 : ¬ d'.data.length < 3 * cfg.lbSize.usize := by rw [hsmall]; omega
    have e1 : (UInt64.ofNat (2 + k)).toNat = 2 + k := ofNat64 (by omega)
    have e2 : (UInt64.ofNat (max (B + 1) n' - k - 2)).toNat = max (B + 1) n' - k - 2 := ofNat64 (by omega)
    have e3 : (UInt64.ofNat (max (B + 1) n' - k - 2 + 1)).toNat = max (B + 1) n' - k - 2 + 1 := ofNat64 (by omega)
    refine key (.goes _ _ h0 (.inl hgo) (.both 128 (UInt64.ofNat (n' - 1)) _ _ (by rw [show ({ s.withDiskDevice d' true with partitions := s.partitions } : GptDisk).config = cfg from hcfg]; exact Nat.not_lt.mp h3) hc128 ?_ ?_ ?_ ?_))
    · show (UInt64.ofNat (n' - 1)).toNat = d'.data.length / (s.withDiskDevice d' true).config.lbSize.usize - 1
      rw [hcfg, hn', hlast]
    · rw [hprim]
      show Built m (s.withDiskDevice d' true).config.lbSize _ _
      rw [hcfg]
      refine .header k _ (by show (1 : UInt64).toNat ≤ (UInt64.ofNat (n' - 1)).toNat; omega) (fun _ => by show (128 : UInt32).toNat * (128 : UInt32).toNat < 2 ^ 32; decide) (by rw [hmul]; exact harr) ?_ (fun _ => by simp) ?_
      · unfold HasRoom
        simp only [hlast]
        omega
      · refine ⟨by show efiPart = _; decide, rfl, rfl, ⟨rfl, rfl, rfl⟩, rfl, rfl, ?_, ?_, rfl, ?_, rfl, rfl⟩
        · show (UInt64.ofNat (2 + k)).toNat = _
          simp only [e1, hf]; omega
        · show (UInt64.ofNat _).toNat = _
          simp only [e2, hlast]; omega
        · rfl
    · show (s.withDiskDevice d' true).config.readonlyBackup = false
      rw [hcfg]; exact hro
    · show Built m (s.withDiskDevice d' true).config.lbSize _ _
      rw [hcfg]
      have hbf : backupFrom (movedP k (max (B + 1) n' - k - 2) (n' - 1) s.guid) = ⟨false, s.guid, 1, UInt64.ofNat (n' - 1), UInt64.ofNat (2 + k),
        UInt64.ofNat (max (B + 1) n' - k - 2), 128, 128⟩ := rfl
      rw [hbf]
      refine .header k _ (by show (1 : UInt64).toNat ≤ (UInt64.ofNat (n' - 1)).toNat; omega) (fun _ => by show (128 : UInt32).toNat * (128 : UInt32).toNat < 2 ^ 32; decide) (by rw [hmul]; exact harr) ?_ (fun _ => ?_) ?_
      · unfold HasRoom
        simp only [hlast, e1, e2]
        omega
      · simp only [Bool.false_eq_true, if_false, hlast, e2]
        omega
      · refine ⟨by show efiPart = _; decide, rfl, rfl, ⟨rfl, rfl, rfl⟩, rfl, rfl, ?_, ?_, rfl, ?_, rfl, rfl⟩
        · show (UInt64.ofNat (2 + k)).toNat = _
          simp only [e1]; omega
        · show (UInt64.ofNat _).toNat = _
          simp only [e2, hlast]; omega
        · show (UInt64.ofNat _).toNat = ((if false = true then _ else (UInt64.ofNat (max (B + 1) n' - k - 2)).toNat) + 1) % 2 ^ 64
          rw [e3, if_neg (by decide), e2, Nat.mod_eq_of_lt (by omega)]
  · rw [if_neg hk2]
    by_cases h3 : d'.data.length < 3 * cfg.lbSize.usize
    · rw [if_pos h3]
      exact key (.goes _ _ h0 (.inl hgo) (.small (by rw [show ({ s.withDiskDevice d' true with partitions := s.partitions } : GptDisk).config = cfg from hcfg]; exact h3)))
    · rw [if_neg h3]
      refine key (.goes _ _ h0 (.inl hgo) (.failed 128 (UInt64.ofNat (n' - 1)) _ (by rw [show ({ s.withDiskDevice d' true with partitions := s.partitions } : GptDisk).config = cfg from hcfg]; exact Nat.not_lt.mp h3) hc128 ?_ ?_))
      · show (UInt64.ofNat (n' - 1)).toNat = d'.data.length / (s.withDiskDevice d' true).config.lbSize.usize - 1
        rw [hcfg, hn', hlast]
      · rw [hprim]
        show Built m (s.withDiskDevice d' true).config.lbSize _ _
        rw [hcfg]
        rw [hsmall] at h3
        refine .noRoom k (by show (1 : UInt64).toNat ≤ (UInt64.ofNat (n' - 1)).toNat; omega) (fun _ => by show (128 : UInt32).toNat * (128 : UInt32).toNat < 2 ^ 32; decide) (by rw [hmul]; exact harr) ?_
        unfold HasRoom
        simp only [hlast]
        omega

theorem moved_describes {n n' : Nat} {g : Uuid} (hn : 2 * k + 4 ≤ n) (hn' : k + 2 ≤ n') (h1 : n < 2 ^ 60) (h2 : n' < 2 ^ 60) :
    Describes k n n' g (movedP k (max n n' - k - 2) (n' - 1) g) (movedB k (max n n' - k - 2) (n' - 1) g) := by
  have e1 : (UInt64.ofNat (2 + k)).toNat = 2 + k := ofNat64 (by omega)
  have e2 : (UInt64.ofNat (max n n' - k - 2)).toNat = max n n' - k - 2 := ofNat64 (by omega)
  have e3 : (UInt64.ofNat (max n n' - k - 2 + 1)).toNat = max n n' - k - 2 + 1 := ofNat64 (by omega)
  have e4 : (UInt64.ofNat (n' - 1)).toNat = n' - 1 := ofNat64 (by omega)
  refine ⟨⟨rfl, rfl⟩, ⟨rfl, rfl⟩, ⟨rfl, rfl⟩, ⟨rfl, ?_⟩, ⟨?_, rfl⟩, ⟨e1, e1⟩, ⟨?_, ?_⟩, ⟨rfl, ?_⟩⟩
  · show (UInt64.ofNat (n' - 1)).toNat + 1 = _
    omega
  · show (UInt64.ofNat (n' - 1)).toNat + 1 = _
    omega
  · show (UInt64.ofNat (max n n' - k - 2)).toNat + _ + _ = _
    omega
  · show (UInt64.ofNat (max n n' - k - 2)).toNat + _ + _ = _
    omega
  · show (UInt64.ofNat (max n n' - k - 2 + 1)).toNat + _ + _ = _
    omega

theorem session_blocks (hs : InSession m cfg k d s) : 2 * k + 4 ≤ d.data.length / cfg.lbSize.usize ∧ d.data.length / cfg.lbSize.usize < 2 ^ 60 := by
  obtain ⟨B, h, hB, hkB, hB51, v⟩ := hs.sound
  omega

/-- **C102**, every size: after `with_disk_device`, `update_partitions` with the table the disk has anyway fails iff the new device cannot
hold one array and both headers; otherwise the headers put the backup at the end of the new device, but never lower the last usable
block. -/
theorem c102_update (hs : InSession m cfg k d s) (hw : d'.Works) (hsm : d'.data.length < 2 ^ 60) (hro : cfg.readonlyBackup = false) (fresh : Uuid) :
    (d'.data.length / cfg.lbSize.usize < k + 2 → ∃ e, updatePartitions m s.partitions fresh (s.withDiskDevice d' true) =
      (.err (.header e), s.withDiskDevice d' true) ∧
      (if d'.data.length / cfg.lbSize.usize < 3 then e = .toSmallForBackup else e = .backupLbaToEarly)) ∧
    (k + 2 ≤ d'.data.length / cfg.lbSize.usize → ∃ p b, updatePartitions m s.partitions fresh (s.withDiskDevice d' true) =
      (.ok (), { s.withDiskDevice d' true with primaryHeader := .ok p, backupHeader := .ok b }) ∧
      Describes k (d.data.length / cfg.lbSize.usize) (d'.data.length / cfg.lbSize.usize) s.guid p b) := by
  obtain ⟨b1, b2⟩ := session_blocks hs
  have hle := Nat.div_le_self d'.data.length cfg.lbSize.usize
  have key := moved_update hs hw hsm hro fresh
  constructor
  · intro h
    rw [if_neg (by omega)] at key
    refine ⟨_, key, ?_⟩
    have hsmall : d'.data.length < 3 * cfg.lbSize.usize ↔ d'.data.length / cfg.lbSize.usize < 3 := (Nat.div_lt_iff_lt_mul (lb_pos _)).symm
    by_cases h3 : d'.data.length / cfg.lbSize.usize < 3
    · rw [if_pos h3, if_pos (hsmall.mpr h3)]
    · rw [if_neg h3, if_neg (fun h => h3 (hsmall.mp h))]
  · intro h
    rw [if_pos h] at key
    exact ⟨_, _, key, moved_describes b1 h b2 (by omega)⟩

/-- **C102**, smaller: on fewer blocks than before, `update_partitions` succeeds (if at all) with headers whose backup array reaches the
block of the backup header or lies beyond it. -/
theorem c102_smaller (hs : InSession m cfg k d s) (hw : d'.Works) (hsm : d'.data.length < 2 ^ 60) (hro : cfg.readonlyBackup = false) (fresh : Uuid)
    (hlt : d'.data.length / cfg.lbSize.usize < d.data.length / cfg.lbSize.usize) {s2 : GptDisk}
    (hok : updatePartitions m s.partitions fresh (s.withDiskDevice d' true) = (.ok (), s2)) :
    ∃ b, s2.backupHeader = .ok b ∧ b.currentLba.toNat + 1 = d'.data.length / cfg.lbSize.usize ∧ b.currentLba.toNat < b.partStart.toNat + k := by
  obtain ⟨h1, h2⟩ := c102_update hs hw hsm hro fresh
  rcases Nat.lt_or_ge (d'.data.length / cfg.lbSize.usize) (k + 2) with h | h
  · obtain ⟨e, h1, -⟩ := h1 h
    rw [hok] at h1
    cases h1
  · obtain ⟨p, b, h2, h3⟩ := h2 h
    rw [hok] at h2
    cases h2
    have := h3.at_.2
    have := h3.arrays.2
    exact ⟨b, rfl, h3.at_.2, by omega⟩

/-- **C102**, larger: on at least as many blocks, `update_partitions` gives the disk of a session on the new device, with the table and
GUID of the old one. So everything said about sessions (C67, C81, C82, C83) holds for it: the whole device is in use and its data
between the arrays is never touched. -/
theorem c102_larger (hs : InSession m cfg k d s) (hw : d'.Works) (hsm : d'.data.length < 2 ^ 60) (hro : cfg.readonlyBackup = false) (fresh : Uuid)
    (hle : d.data.length / cfg.lbSize.usize ≤ d'.data.length / cfg.lbSize.usize) :
    ∃ s2, updatePartitions m s.partitions fresh (s.withDiskDevice d' true) = (.ok (), s2) ∧ InSession m cfg k d' s2 ∧
      s2.partitions = s.partitions ∧ s2.guid = s.guid ∧ s2.device = d' := by
  have key := moved_update hs hw hsm hro fresh
  obtain ⟨b1, b2⟩ := session_blocks hs
  rw [if_pos (by omega), Nat.max_eq_right hle] at key
  refine ⟨_, key, ?_, rfl, rfl, rfl⟩
  obtain ⟨B, h, hB, hkB, hB51, v⟩ := hs.sound
  obtain ⟨B', hB'⟩ : ∃ B', d'.data.length / cfg.lbSize.usize = B' + 1 := ⟨d'.data.length / cfg.lbSize.usize - 1, by omega⟩
  have hle' := Nat.div_le_self d'.data.length cfg.lbSize.usize
  have hcr := createFromDevice_nil m cfg (some s.guid) fresh fresh hw.faults hw.pos (by omega) hs.array hB'
  rw [if_pos (by omega)] at hcr
  have hsane : SaneDisk (madeDisk cfg d' k B' s.guid) (createdP k B' s.guid) k B' := madeDisk_sane (by omega) hs.array hB' (by omega)
  have hf := v.first
  have hl := v.last
  have e1 : (createdP k B' s.guid).firstUsable.toNat = 2 + k := ofNat64 (by omega)
  have e2 : (createdP k B' s.guid).lastUsable.toNat = B' - k - 1 := ofNat64 (by omega)
  have htidy : Tidy (createdP k B' s.guid) s.partitions := tidy_wider v.table (by omega) (by omega)
  have hse : Session m (madeDisk cfg d' k B' s.guid) ((Op.updatePartitions s.partitions fresh).step m (madeDisk cfg d' k B' s.guid)).2 :=
    .call _ .start ⟨v.ids, fun h' hh' => by
      rw [header_try hsane.header] at hh'
      cases hh'
      exact htidy⟩
  have h0 : PMap.get s.partitions 0 = none := by
    cases hg : PMap.get s.partitions 0 with
    | none => rfl
    | some p => exact absurd (v.ids 0 p (PMap.mem_of_get hg)).1 (by decide)
  rw [step_updatePartitions, updatePartitions_sane hsane rfl v.entries h0 hw.faults hw.pos hB'] at hse
  refine ⟨hw, hsm, hs.array, hs.writable, hs.count, hs.headers, some s.guid, fresh, fresh, _, _, hcr, ?_⟩
  refine cast ?_ hse
  congr 1
  have hcfg : (s.withDiskDevice d' true).config = cfg := moved_config hs
  unfold reinit
  rw [GptDisk.mk.injEq]
  refine ⟨hcfg.symm, rfl, rfl, ?_, ?_, rfl, rfl⟩
  · rw [hB', show B' + 1 - k - 2 = B' - k - 1 by omega]
    rfl
  · rw [if_neg (by show ¬ cfg.readonlyBackup = true; rw [hro]; decide), hB', show B' + 1 - k - 2 = B' - k - 1 by omega,
      movedB, show B' - k - 1 + 1 = B' - k by omega]
    rfl

/-- **C102**, plain copy: written to another device with room for the old layout, whatever it holds, without `update_partitions`, the table
keeps its layout: opening gives the same partitions, but the backup stays where it was and blocks beyond it are not usable. -/
theorem c102_copy (hs : InSession m cfg k d s) (hw : d'.Works) (hsm : d'.data.length < 2 ^ 60)
    (hle : d.data.length / cfg.lbSize.usize ≤ d'.data.length / cfg.lbSize.usize) :
    ∃ s1 h, writeInplace m (s.withDiskDevice d' true) = (.ok (), s1) ∧ s.tryHeader = .ok h ∧ s1.device.data.length = d'.data.length ∧
      (∀ i, i < cfg.lbSize.usize ∨
        ((2 + k) * cfg.lbSize.usize ≤ i ∧ i < (d.data.length / cfg.lbSize.usize - 1 - k) * cfg.lbSize.usize) ∨
        d.data.length / cfg.lbSize.usize * cfg.lbSize.usize ≤ i → byteAt s1.device.data i = byteAt d'.data i) ∧
      ∀ (m' : Mode) (cfg' : GptConfig), cfg'.lbSize = cfg.lbSize → cfg'.onlyValidHeaders = false →
        ∃ s2 d2 h2, openFromDevice m' cfg' s1.device = (.ok s2, d2) ∧ s2.guid = h.diskGuid ∧ Numbered (Spec.used s.partitions) s2.partitions ∧
          s2.tryHeader = .ok h2 ∧ h2.firstUsable.toNat = 2 + k ∧ h2.lastUsable.toNat + k + 2 = d.data.length / cfg.lbSize.usize := by
  obtain ⟨B, h, hB, hkB, hB51, v⟩ := hs.sound
  have hcfg : (s.withDiskDevice d' true).config = cfg := moved_config hs
  have hh := moved_try s d' true (header_try v.sane.header)
  have hpos := lb_pos cfg.lbSize
  have hfit : (B + 1) * cfg.lbSize.usize ≤ d'.data.length := by
    rw [hB] at hle
    exact (Nat.mul_le_mul_right _ hle).trans (Nat.div_mul_le_self _ _)
  have hsd : SaneDisk (s.withDiskDevice d' true) h k B := by
    refine ⟨header_ok_iff.mpr hh, ?_, ?_, by show d'.data.length < _; omega⟩
    · have := v.sane.sane
      rw [v.config] at this
      rw [hcfg]
      exact this
    · rw [hcfg]; exact hfit
  have hok := write_nil (m := m) hsd (by rw [hcfg]; exact hs.writable) v.room hw.faults (by rw [hcfg]; exact hfit.trans hw.length)
  have hwk := Dev.works_frame.writeInplace m (s.withDiskDevice d' true) hw
  have hconf := fun i => c32_confined m (s.withDiskDevice d' true) h k B hsd i
  rcases hx : writeInplace m (s.withDiskDevice d' true) with ⟨r, s1⟩
  rw [hx] at hok hwk hconf
  simp only at hok hwk hconf
  subst hok
  refine ⟨s1, h, rfl, header_try v.sane.header, (write_ok hsd hx).length, fun i hi => ?_, fun m' cfg' hlb hv => ?_⟩
  · have e := hs.array.enough
    have h128 : h.numParts.toNat = 128 := by rw [v.count]; rfl
    rw [hB, Nat.add_sub_cancel] at hi
    have q1 : (2 + k) * cfg.lbSize.usize = 2 * cfg.lbSize.usize + k * cfg.lbSize.usize := Nat.add_mul ..
    have q2 : (B - k) * cfg.lbSize.usize + k * cfg.lbSize.usize = B * cfg.lbSize.usize := by rw [← Nat.add_mul]; congr 1; omega
    have q3 : (B + 1) * cfg.lbSize.usize = B * cfg.lbSize.usize + cfg.lbSize.usize := by rw [Nat.add_mul, Nat.one_mul]
    have q4 : 3 * cfg.lbSize.usize ≤ (B - k) * cfg.lbSize.usize := Nat.mul_le_mul_right _ (by omega)
    have q5 : (2 + k) * cfg.lbSize.usize ≤ (B - k) * cfg.lbSize.usize := Nat.mul_le_mul_right _ (by omega)
    exact (hconf i (by rw [hcfg, h128]; unfold InPrimary; omega) (by rw [hcfg, h128]; unfold InBackup; omega)).1
  · obtain ⟨s2, d2, h2, ho, -, -, hh2, -, hg, -, -, hf2, hl2, -, hn⟩ := c30_write_open m m' _ s1 h k B cfg' s1.device hsd hx rfl hwk.1.faults hwk.1.pos
      (by rw [hcfg]; exact hlb) (fun e => by rw [hv] at e; cases e)
    exact ⟨s2, d2, h2, ho, hg, hn, header_try hh2, by rw [hf2]; exact v.first, by omega⟩

end

/-! ## The hypotheses are met: the disk of 100 blocks with a partition on a device of 200 and of 80 blocks of any content -/

theorem works_mk (z : Bytes) (hz : z.length < 2 ^ 60) : (⟨z, 0, z.length, [], []⟩ : Dev).Works :=
  ⟨rfl, by show z.length < 2 ^ 64; omega, Nat.le_refl _, by show 0 < 2 ^ 64; decide⟩

theorem blocks100 : dev100.data.length / (GptConfig.new.setWritable true).lbSize.usize = 100 := by rw [dev100_length]; rfl

example (m : Mode) (z : Bytes) (hz : z.length = 102400) : ∃ s2 s3 s4 d4,
    updatePartitions m (sessDisk m).partitions Uuid.nil ((sessDisk m).withDiskDevice ⟨z, 0, z.length, [], []⟩ true) = (.ok (), s2) ∧
    s2.partitions = [(1, ⟨(exPart 0 0).partType, Uuid.nil, 34, 35, 0, "a"⟩)] ∧ writeInplace m s2 = (.ok (), s3) ∧
    openFromDevice m (GptConfig.new.setWritable true) s3.device = (.ok s4, d4) ∧ s4.partitions.length = 1 ∧
    ∃ h, s4.tryHeader = .ok h ∧ h.lastUsable.toNat = 166 := by
  have hb : z.length / (GptConfig.new.setWritable true).lbSize.usize = 200 := by rw [hz]; rfl
  obtain ⟨s2, h1, h2, h3, -⟩ := c102_larger (d' := ⟨z, 0, z.length, [], []⟩) (sessDisk_session m) (works_mk z (by omega))
    (by show z.length < _; omega) rfl Uuid.nil (by rw [blocks100]; show 100 ≤ z.length / _; omega)
  obtain ⟨s3, s4, d4, h, h4, h5, h6, -, -, h7⟩ := c67_write_open h2
  obtain ⟨h', h8, -, -, -, h9, -⟩ := c67_table h6
  rw [sessDisk_partitions] at h3
  refine ⟨s2, s3, s4, d4, h1, h3, h4, h5, ?_, h', h8, ?_⟩
  · have := h7.length
    rw [h3] at this
    exact this
  · have h9 : h'.lastUsable.toNat + 32 + 2 = z.length / (GptConfig.new.setWritable true).lbSize.usize := h9
    omega

-- on 80 blocks the backup array would begin in block 67 and end in block 98, the backup header is in block 79
example (m : Mode) (z : Bytes) (hz : z.length = 40960) : ∃ p b,
    updatePartitions m (sessDisk m).partitions Uuid.nil ((sessDisk m).withDiskDevice ⟨z, 0, z.length, [], []⟩ true) =
      (.ok (), { (sessDisk m).withDiskDevice ⟨z, 0, z.length, [], []⟩ true with primaryHeader := .ok p, backupHeader := .ok b }) ∧
    p.lastUsable.toNat = 66 ∧ b.partStart.toNat = 67 ∧ b.currentLba.toNat = 79 := by
  have hb : z.length / (GptConfig.new.setWritable true).lbSize.usize = 80 := by rw [hz]; rfl
  obtain ⟨p, b, h1, h2⟩ := (c102_update (d' := ⟨z, 0, z.length, [], []⟩) (sessDisk_session m) (works_mk z (by omega))
    (by show z.length < _; omega) rfl Uuid.nil).2 (by show 34 ≤ z.length / _; omega)
  have e1 := h2.last.1
  have e2 := h2.arrays.2
  have e3 := h2.at_.2
  rw [blocks100] at e1 e2
  have e3 : b.currentLba.toNat + 1 = z.length / (GptConfig.new.setWritable true).lbSize.usize := e3
  have e1 : p.lastUsable.toNat + 32 + 2 = max 100 (z.length / (GptConfig.new.setWritable true).lbSize.usize) := e1
  have e2 : b.partStart.toNat + 32 + 1 = max 100 (z.length / (GptConfig.new.setWritable true).lbSize.usize) := e2
  exact ⟨p, b, h1, by omega, by omega, by omega⟩

-- copied without `update_partitions` to 200 blocks, the last usable block is still 66
example (m : Mode) (z : Bytes) (hz : z.length = 102400) : ∃ s1 s2 d2 h2,
    writeInplace m ((sessDisk m).withDiskDevice ⟨z, 0, z.length, [], []⟩ true) = (.ok (), s1) ∧
    openFromDevice m GptConfig.new s1.device = (.ok s2, d2) ∧ s2.partitions.length = 1 ∧ s2.tryHeader = .ok h2 ∧ h2.lastUsable.toNat = 66 := by
  have hb : z.length / (GptConfig.new.setWritable true).lbSize.usize = 200 := by rw [hz]; rfl
  obtain ⟨s1, h, h1, -, -, -, h2⟩ := c102_copy (d' := ⟨z, 0, z.length, [], []⟩) (sessDisk_session m) (works_mk z (by omega))
    (by show z.length < _; omega) (by rw [blocks100]; show 100 ≤ z.length / _; omega)
  obtain ⟨s2, d2, h2, ho, -, hn, hh, -, hl⟩ := h2 m GptConfig.new rfl rfl
  rw [blocks100] at hl
  refine ⟨s1, s2, d2, h2, h1, ho, ?_, hh, by omega⟩
  have := hn.length
  rw [sessDisk_partitions] at this
  exact this

end Gpt
