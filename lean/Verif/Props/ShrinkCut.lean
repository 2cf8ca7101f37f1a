import Verif.Props.Shrink
import Verif.Props.GrowCut
/-!
# C130: making a disk fit a smaller device can be interrupted
-/

namespace Gpt

open Spec GptDisk

/-- A disk by the rules with 128 slots is on a device that was cut off, where the usable range and an array behind it still fit before the new last block
(C128). It is opened and given its own table with `update_partitions`; then `write_inplace` comes to any end because of the faults `fs`. `dc` is a
working device with what is left. -/
structure Spec.ShrinkCut (m m' : Mode) (cfg : GptConfig) (k B B' : Nat) (d d' : Dev) (s s1 : GptDisk) (fs : List Fault) (dc : Dev) : Prop where
  before : d.Works
  small : d.data.length < 2 ^ 60
  disk : Uefi cfg.lbSize d.data 128 k B
  cut : CutOff cfg.lbSize d d' B'
  fits : num d.data (1 * cfg.lbSize.usize + 48) 8 + k + 1 ≤ B'
  writable : cfg.writable = true
  backup : cfg.readonlyBackup = false
  opened : ∃ d2, openFromDevice m cfg d' = (.ok s, d2)
  updated : ∃ fresh, updatePartitions m s.partitions fresh s = (.ok (), s1)
  left : dc.data = (writeInplace m' { s1 with device := { s1.device with faults := fs } }).2.device.data
  works : dc.Works

section
variable {m m' m'' : Mode} {cfg cfg' : GptConfig} {k B B' : Nat} {d d' dc : Dev} {s s1 : GptDisk} {fs : List Fault}

/-- What is known of a disk that is opened on the smaller device and given its own table. -/
theorem shrink_resized (hwk : d.Works) (hlen : d.data.length < 2 ^ 60) (u : Uefi cfg.lbSize d.data 128 k B) (e : CutOff cfg.lbSize d d' B')
    (hfit : num d.data (1 * cfg.lbSize.usize + 48) 8 + k + 1 ≤ B') {d2 : Dev} (hok : openFromDevice m cfg d' = (.ok s, d2)) {fresh : Uuid}
    (hup : updatePartitions m s.partitions fresh s = (.ok (), s1)) :
    ∃ h h1 sm dm, openFromDevice m cfg d = (.ok sm, dm) ∧ s.partitions = sm.partitions ∧ s.guid = sm.guid ∧ s.config = cfg ∧
      s.device.data = d'.data ∧ HeaderAt d.data (1 * cfg.lbSize.usize) h ∧ Tidy h s.partitions ∧ s.partitions.length ≤ 128 ∧
      Resized s h k B' s.partitions s1 h1 ∧ h1.numParts.toNat = 128 := by
  obtain ⟨s0, d1, h0, b, eo, -, -, -, -, -⟩ := open_uefi (m := m) hwk.faults hwk.pos (by omega) u
  have hl' : (B' + 1) * cfg.lbSize.usize ≤ d'.data.length := by rw [← e.last]; exact Nat.div_mul_le_self _ _
  have hq := u.usable
  obtain ⟨-, a⟩ := c128_opens (m := m) hwk hlen u e ((Nat.mul_le_mul_right _ (by omega)).trans hl') eo
  obtain ⟨a1, a2, a3, a4, a5, a6, a7, a8⟩ := a s d2 hok
  obtain ⟨h, v, hh⟩ := steady_open (m := m) hwk hlen u eo
  have hlp : s.partitions.length ≤ 128 := by rw [a1]; exact v.entries
  have hcnt : countFor s.partitions = 128 := by unfold countFor; omega
  have hla : h.lastUsable.toNat = num d.data (1 * cfg.lbSize.usize + 48) 8 := hh.last
  have r : Stretch s h k k B B' s.partitions := by
    refine ⟨?_, by rw [a5, ← v.config]; exact v.sane.sane, by rw [a6]; exact Nat.lt_of_le_of_lt e.works.length e.works.cap,
      by rw [a5, a6]; exact e.last, a7.faults, a7.pos, by rw [hcnt]; decide, by rw [hcnt, a5]; exact u.array, v.sane.sane.first, by omega⟩
    have := v.sane.header
    rw [header_ok_iff] at this ⊢
    rw [a4]
    exact this
  have h0 : PMap.get s.partitions 0 = none := PMap.get_none_iff.mpr fun p hm => by
    rw [a1] at hm
    exact absurd (v.ids 0 p hm).1 (by decide)
  obtain ⟨s1', h1, eu, q⟩ := c127_update (m := m) r h0 (.inr (by rw [hcnt, v.count])) fresh
  obtain rfl : s1' = s1 := by rw [hup] at eu; cases eu; rfl
  exact ⟨h, h1, s0, d1, eo, a1, a2, a5, a6, hh, by rw [a1]; exact v.table, hlp, q, q.count.trans hcnt⟩

/-- **C130**. Whatever happens during the write, a lenient open succeeds afterwards, with the same disk GUID and the same partitions: under the ids they had
before the device was cut off, or numbered from 1. The one exception is a header block that was written in part and has the checksum of the new header by
chance. -/
theorem c130_cut (g : ShrinkCut m m' cfg k B B' d d' s s1 fs dc) (ha : ArrayStays m' cfg.lbSize k d.data s1) (hlb : cfg'.lbSize = cfg.lbSize)
    (ho : cfg'.onlyValidHeaders = false) :
    ∃ sd, writeInplace m' (undisturbed s1) = (.ok (), sd) ∧
      ((∃ s3 d3, openFromDevice m'' cfg' dc = (.ok s3, d3) ∧ s3.guid = s.guid ∧
        (s3.partitions = s.partitions ∨ Numbered (Spec.used s.partitions) s3.partitions)) ∨
      Collision (withoutCrc dc.data cfg.lbSize.usize) (withoutCrc sd.device.data cfg.lbSize.usize)) := by
  have u := g.disk
  obtain ⟨d2, hok⟩ := g.opened
  obtain ⟨fresh, hup⟩ := g.updated
  obtain ⟨h, h1, sm, dm, eo, a1, a2, hc, hd, hh, ht, hlp, q, hn1⟩ := shrink_resized g.before g.small u g.cut g.fits hok hup
  obtain ⟨z, hz⟩ := g.cut.less
  have hfit := g.fits
  have q2 := u.usable
  have hl' : (B' + 1) * cfg.lbSize.usize ≤ d'.data.length := by rw [← g.cut.last]; exact Nat.div_mul_le_self _ _
  exact moved_cut g.before g.small u (by rw [hz, List.length_append]; omega) (Nat.le_refl _) ((Nat.mul_le_mul_right _ (by omega)).trans hl')
    (fun i hi => by rw [hz, byteAt_append, if_pos hi]) g.cut.last g.fits eo a1 a2 hc hd hh ht hlp q hn1 g.writable g.backup g.left g.works ha hlb ho

/-- **C130**, data: nor does the write, whatever happens, change a byte of the usable range of before. -/
theorem c130_data (g : ShrinkCut m m' cfg k B B' d d' s s1 fs dc) {i : Nat}
    (hlo : num d.data (1 * cfg.lbSize.usize + 40) 8 * cfg.lbSize.usize ≤ i) (hhi : i < (num d.data (1 * cfg.lbSize.usize + 48) 8 + 1) * cfg.lbSize.usize) :
    byteAt dc.data i = byteAt d.data i := by
  have u := g.disk
  obtain ⟨d2, hok⟩ := g.opened
  obtain ⟨fresh, hup⟩ := g.updated
  obtain ⟨h, h1, sm, dm, eo, a1, a2, hc, hd, hh, ht, hlp, q, hn1⟩ := shrink_resized g.before g.small u g.cut g.fits hok hup
  obtain ⟨z, hz⟩ := g.cut.less
  have hfit := g.fits
  have q1 := u.front
  have hen := u.array.enough
  have hcfg : s1.config = cfg := q.config.trans hc
  have hl' : (B' + 1) * cfg.lbSize.usize ≤ d'.data.length := by rw [← g.cut.last]; exact Nat.div_mul_le_self _ _
  have n1 : (2 + k) * cfg.lbSize.usize ≤ num d.data (1 * cfg.lbSize.usize + 40) 8 * cfg.lbSize.usize := Nat.mul_le_mul_right _ (by omega)
  have n2 : (num d.data (1 * cfg.lbSize.usize + 48) 8 + 1) * cfg.lbSize.usize ≤ (B' - k) * cfg.lbSize.usize := Nat.mul_le_mul_right _ (by omega)
  have n3 : (B' - k) * cfg.lbSize.usize ≤ B' * cfg.lbSize.usize := Nat.mul_le_mul_right _ (by omega)
  have n4 : B' * cfg.lbSize.usize ≤ (B' + 1) * cfg.lbSize.usize := Nat.mul_le_mul_right _ (by omega)
  rw [Nat.add_mul 2] at n1
  rw [g.left, (c32_confined m' _ h1 k B' (sane_faults q.sane fs) i (by
    show ¬ InPrimary s1.config.lbSize h1.numParts.toNat i
    rw [hcfg, hn1]; unfold InPrimary; omega) (by
    show ¬ InBackup s1.config.lbSize h1.numParts.toNat k B' i
    rw [hcfg, hn1]; unfold InBackup; omega)).1]
  show byteAt s1.device.data i = _
  rw [q.device, hd, hz, byteAt_append, if_pos (by omega)]

end

/-- The disk of 200 blocks that another tool made (C124) has its usable blocks up to 150 and a partition in the blocks 90 to 99; of its device 190 blocks
are left. -/
example (m : Mode) (fs : List Fault) : ∃ d' s s1 dc, ShrinkCut m m (GptConfig.new.setWritable true) 32 199 189 awayDev d' s s1 fs dc ∧
    (∃ p, (1, p) ∈ s.partitions) ∧ ArrayStays m .lb512 32 awayDev.data s1 := by
  have hwk : awayDev.Works := ⟨rfl, by show 102400 < 2 ^ 64; decide, Nat.le_of_eq awayData_length, by show 0 < 2 ^ 64; decide⟩
  have hl : awayDev.data.length = 102400 := awayData_length
  have u : Uefi (GptConfig.new.setWritable true).lbSize awayDev.data 128 32 199 := away_uefi.1
  have hst : num awayDev.data (1 * (GptConfig.new.setWritable true).lbSize.usize + 72) 8 = 40 := away_uefi.2
  have h40 : 40 * (GptConfig.new.setWritable true).lbSize.usize = 20480 := rfl
  have hla : num awayDev.data (1 * (GptConfig.new.setWritable true).lbSize.usize + 48) 8 = 150 := away_last
  obtain ⟨s0, d0, h, b, eo, -, -, -, -, -, -, -, -, hs, -⟩ := c116_opens m hwk u
  obtain ⟨p, hp⟩ := hs 0 (by decide) (by rw [hst, h40]; exact inUse_full away_inUse)
  generalize awayDev = d at *
  have hl2 : (d.data.take 97280).length = 97280 := by rw [List.length_take, hl]; decide
  have e : CutOff (GptConfig.new.setWritable true).lbSize d ⟨d.data.take 97280, 0, 97280, [], []⟩ 189 := by
    refine ⟨⟨rfl, by show 97280 < 2 ^ 64; decide, ?_, by show 0 < 2 ^ 64; decide⟩, ⟨d.data.drop 97280, (List.take_append_drop _ _).symm⟩, ?_⟩
    · show (d.data.take 97280).length ≤ 97280
      rw [hl2]
    · show (d.data.take 97280).length / _ = _
      rw [hl2]
      rfl
  have hdd : (⟨d.data.take 97280, 0, 97280, [], []⟩ : Dev).data.length = 97280 := hl2
  generalize (⟨d.data.take 97280, 0, 97280, [], []⟩ : Dev) = d' at e hdd
  have q1 := u.usable
  obtain ⟨o1, o2⟩ := c128_opens hwk (by rw [hl]; decide) u e (by
    rw [hdd]
    have : num d.data (1 * (GptConfig.new.setWritable true).lbSize.usize + 40) 8 * 512 ≤ 150 * 512 := Nat.mul_le_mul_right _ (by omega)
    exact this.trans (by decide)) eo
  obtain ⟨s, hs⟩ := o1.mpr (fun h => nomatch h)
  rcases ho : openFromDevice m (GptConfig.new.setWritable true) d' with ⟨x, d2⟩
  rw [ho] at hs
  simp only at hs
  subst hs
  obtain ⟨s1, s2, h1, a, -⟩ := c128_fits hwk (by rw [hl]; decide) u e (by rw [hla]; decide) rfl rfl ho Uuid.nil
  obtain ⟨dc, hdc, hwc⟩ : ∃ dc : Dev, dc.data = (writeInplace m { s1 with device := { s1.device with faults := fs } }).2.device.data ∧ dc.Works := by
    obtain ⟨h, h', -, -, -, -, -, -, -, -, -, -, q, -⟩ := shrink_resized hwk (by rw [hl]; decide) u e (by rw [hla]; decide) ho a
    have hq := sane_faults q.sane fs
    have hln := write_length m hq
    have h64 : s1.device.data.length < 2 ^ 64 := q.sane.length
    refine ⟨⟨_, 0, s1.device.data.length, [], []⟩, rfl, rfl, h64, ?_, by show 0 < 2 ^ 64; decide⟩
    show List.length _ ≤ _
    rw [hln]
  refine ⟨d', s, s1, dc, ⟨hwk, by rw [hl]; decide, u, e, by rw [hla]; decide, rfl, rfl, ⟨d2, ho⟩, ⟨_, a⟩, hdc, hwc⟩, ⟨p, ?_⟩, .inl ?_⟩
  · rw [(o2 s d2 ho).1]; exact hp
  · show 2 + 32 ≤ num d.data (1 * (GptConfig.new.setWritable true).lbSize.usize + 72) 8
    rw [hst]
    decide

end Gpt
