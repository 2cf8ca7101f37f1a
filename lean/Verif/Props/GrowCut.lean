import Verif.Props.Enlarge
import Verif.Props.FirstWrite
import Verif.Props.Exact
/-!
# C129: making a disk fill a larger device can be interrupted
-/

namespace Gpt

open Spec GptDisk

/-- A disk by the rules with 128 slots is on a device that has grown (C127). It is opened and given its own table with `update_partitions`; then
`write_inplace` comes to any end because of the faults `fs`. `dc` is a working device with what is left. -/
structure Spec.GrowCut (m m' : Mode) (cfg : GptConfig) (k B B' : Nat) (d d' : Dev) (s s1 : GptDisk) (fs : List Fault) (dc : Dev) : Prop where
  before : d.Works
  small : d.data.length < 2 ^ 60
  disk : Uefi cfg.lbSize d.data 128 k B
  grown : Enlarged cfg.lbSize d d' B'
  writable : cfg.writable = true
  backup : cfg.readonlyBackup = false
  opened : ∃ d2, openFromDevice m cfg d' = (.ok s, d2)
  updated : ∃ fresh, updatePartitions m s.partitions fresh s = (.ok (), s1)
  left : dc.data = (writeInplace m' { s1 with device := { s1.device with faults := fs } }).2.device.data
  works : dc.Works

/-- The primary array begins behind the blocks where this library puts it, or it is there and already as the write leaves it. -/
def Spec.ArrayStays (m' : Mode) (lb : LbSize) (k : Nat) (c : Bytes) (s1 : GptDisk) : Prop :=
  2 + k ≤ num c (1 * lb.usize + 72) 8 ∨ num c (1 * lb.usize + 72) 8 = 2 ∧
    ∀ sd, writeInplace m' (undisturbed s1) = (.ok (), sd) → slice sd.device.data (2 * lb.usize) 16384 = slice c (2 * lb.usize) 16384

section
variable {m m' m'' : Mode} {cfg cfg' : GptConfig} {k B B' : Nat} {d d' dc : Dev} {s s1 : GptDisk} {fs : List Fault}

/-- A disk by the rules is opened with the same table and GUID in both build modes and with all settings. -/
theorem uefi_same {n : Nat} (hwk : d.Works) (u : Uefi cfg.lbSize d.data n k B) (hlb : cfg'.lbSize = cfg.lbSize) {s' : GptDisk} {d1 d2 : Dev}
    (h1 : openFromDevice m cfg d = (.ok s, d1)) (h2 : openFromDevice m'' cfg' d = (.ok s', d2)) : s'.partitions = s.partitions ∧ s'.guid = s.guid := by
  have hlen := Nat.lt_of_le_of_lt hwk.length hwk.cap
  have key : ∀ {m : Mode} {cfg' : GptConfig} {s : GptDisk} {d1 : Dev}, cfg'.lbSize = cfg.lbSize → openFromDevice m cfg' d = (.ok s, d1) →
      ∃ h, HeaderAt d.data (1 * cfg.lbSize.usize) h ∧ s.guid = h.diskGuid ∧
        s.partitions = tableAt d.data (h.partStart.toNat * cfg.lbSize.usize) h.numParts.toNat 0 := by
    intro m cfg' s d1 hlb h1
    obtain ⟨s0, d0, h, b, eo, -, -, ht, hh, -⟩ := open_uefi (m := m) (cfg := cfg') hwk.faults hwk.pos hlen (by rw [hlb]; exact u)
    obtain ⟨rfl, rfl⟩ : s0 = s ∧ d0 = d1 := by rw [h1] at eo; cases eo; exact ⟨rfl, rfl⟩
    obtain ⟨hx, d3, -, -, -, ht3, hg3, -, -, -, hd3, hr3⟩ := openFromDevice_ok h1
    obtain rfl : hx = h := Except.ok.inj (ht3.symm.trans ht)
    obtain ⟨-, -, -, -, -, htab⟩ := fileReadPartitions_ok hr3
    rw [hd3, hlb] at htab
    rw [hlb] at hh
    exact ⟨hx, hh, hg3, htab⟩
  obtain ⟨a, a1, a2, a3⟩ := key rfl h1
  obtain ⟨b, b1, b2, b3⟩ := key hlb h2
  have hf := u.primary.valid.fits
  obtain rfl : a = b := ((headerOfBytes_iff hf).mpr a1).symm.trans ((headerOfBytes_iff hf).mpr b1)
  exact ⟨b3.trans a3.symm, b2.trans a2.symm⟩

theorem grow_resized (hwk : d.Works) (hlen : d.data.length < 2 ^ 60) (u : Uefi cfg.lbSize d.data 128 k B) (e : Enlarged cfg.lbSize d d' B') {d2 : Dev}
    (hok : openFromDevice m cfg d' = (.ok s, d2)) {fresh : Uuid} (hup : updatePartitions m s.partitions fresh s = (.ok (), s1)) :
    ∃ h h1, s.header (ε := Empty) = .ok h ∧ HeaderAt d.data (1 * cfg.lbSize.usize) h ∧ Resized s h k B' s.partitions s1 h1 ∧
      h1.numParts.toNat = 128 := by
  obtain ⟨hBB, h, hs, hn, ht, hc, hd, hwk2, hcap, -, hlp, hh, hids⟩ := enlarged_steady hwk hlen u e hok
  have hcnt : countFor s.partitions = 128 := by unfold countFor; omega
  have hl := hs.sane.last
  have r : Stretch s h k k B B' s.partitions := by
    refine ⟨hs.header, hs.sane, hs.length, by rw [hc, hd]; exact e.last, hwk2.faults, hwk2.pos, by rw [hcnt]; decide, ?_, hs.sane.first, by omega⟩
    rw [hcnt, hc]
    exact u.array
  have h0 : PMap.get s.partitions 0 = none := PMap.get_none_iff.mpr fun p hm => absurd (hids 0 p hm) (by decide)
  obtain ⟨s1', h1, eu, q⟩ := c127_update (m := m) r h0 (.inr (by rw [hcnt, hn])) fresh
  obtain rfl : s1' = s1 := by rw [hup] at eu; cases eu; rfl
  exact ⟨h, h1, hs.header, hh, q, q.count.trans hcnt⟩

theorem Spec.GrowCut.resized (g : GrowCut m m' cfg k B B' d d' s s1 fs dc) :
    ∃ h h1, s.header (ε := Empty) = .ok h ∧ HeaderAt d.data (1 * cfg.lbSize.usize) h ∧ Resized s h k B' s.partitions s1 h1 ∧
      h1.numParts.toNat = 128 := by
  obtain ⟨d2, hok⟩ := g.opened
  obtain ⟨fresh, hup⟩ := g.updated
  exact grow_resized g.before g.small g.disk g.grown hok hup

/-- The table of a disk by the rules, on a device that is otherwise only the same up to the usable range, is written with headers for the last block of that
device, and the write comes to any end. -/
theorem moved_cut {L : Nat} {sm : GptDisk} {dm : Dev} {h h1 : Header} (hwk : d.Works) (hlen : d.data.length < 2 ^ 60) (u : Uefi cfg.lbSize d.data 128 k B)
    (hL : L ≤ d.data.length) (hL' : L ≤ d'.data.length) (hfr : num d.data (1 * cfg.lbSize.usize + 40) 8 * cfg.lbSize.usize ≤ L)
    (hlow' : ∀ i, i < L → byteAt d'.data i = byteAt d.data i) (hlast : d'.data.length / cfg.lbSize.usize = B' + 1)
    (hfit : num d.data (1 * cfg.lbSize.usize + 48) 8 + k + 1 ≤ B') (eo : openFromDevice m cfg d = (.ok sm, dm)) (a1 : s.partitions = sm.partitions)
    (a2 : s.guid = sm.guid) (hc : s.config = cfg) (hd : s.device.data = d'.data) (hh : HeaderAt d.data (1 * cfg.lbSize.usize) h) (ht : Tidy h s.partitions)
    (hlp : s.partitions.length ≤ 128) (q : Resized s h k B' s.partitions s1 h1) (hn1 : h1.numParts.toNat = 128) (hw : cfg.writable = true)
    (hro : cfg.readonlyBackup = false)
    (hleft : dc.data = (writeInplace m' { s1 with device := { s1.device with faults := fs } }).2.device.data) (hwc : dc.Works)
    (ha : ArrayStays m' cfg.lbSize k d.data s1) (hlb : cfg'.lbSize = cfg.lbSize) (ho : cfg'.onlyValidHeaders = false) :
    ∃ sd, writeInplace m' (undisturbed s1) = (.ok (), sd) ∧
      ((∃ s3 d3, openFromDevice m'' cfg' dc = (.ok s3, d3) ∧ s3.guid = s.guid ∧
        (s3.partitions = s.partitions ∨ Numbered (Spec.used s.partitions) s3.partitions)) ∨
      Collision (withoutCrc dc.data cfg.lbSize.usize) (withoutCrc sd.device.data cfg.lbSize.usize)) := by
  have hq := q.sane
  have hcfg : s1.config = cfg := q.config.trans hc
  have hdat : s1.device.data = d'.data := by rw [q.device, hd]
  have hroom : (Spec.used s1.partitions).length ≤ h1.numParts.toNat := by
    rw [hn1, q.table]; exact (used_length_le _).trans hlp
  have hs1 := sane_faults hq fs
  obtain ⟨sd, hsd⟩ := undisturbed_writes m' hq (by rw [hcfg]; exact hw) hroom
  refine ⟨sd, hsd, ?_⟩
  have hB : (undisturbed s1).device.data.length / (undisturbed s1).config.lbSize.usize = B' + 1 := by
    show s1.device.data.length / s1.config.lbSize.usize = _
    rw [hdat, hcfg]; exact hlast
  have hla : h.lastUsable.toNat = num d.data (1 * cfg.lbSize.usize + 48) 8 := hh.last
  have ht1 : Tidy h1 s1.partitions := by
    rw [q.table]
    refine ⟨ht.keys, ht.order, fun p hp => ?_, ht.apart⟩
    have := ht.inside p hp
    have := q.last
    rw [q.first]
    omega
  have u' := c116_written (undisturbed_sane hq) ht1 (by show s1.config.readonlyBackup = _; rw [hcfg]; exact hro) hB (by rw [hn1]; decide) hsd
  have u' : Uefi cfg.lbSize sd.device.data 128 k B' := by
    rw [hn1, show (undisturbed s1).config = cfg from hcfg] at u'
    exact u'
  have hpos := lb_le cfg.lbSize
  have q1 := u.front
  have q2 := u.usable
  have q3 := u.behind
  have hm : 2 * cfg.lbSize.usize ≤ num d.data (1 * cfg.lbSize.usize + 40) 8 * cfg.lbSize.usize := Nat.mul_le_mul_right _ (by omega)
  have hold : PlainHead cfg.lbSize d'.data := by
    have hp := u.primary
    have hsl : ∀ off w, off + w ≤ L → slice d'.data off w = slice d.data off w := fun off w h =>
      slice_congr (by omega) (by omega) fun i i1 i2 => hlow' i (by omega)
    refine ⟨(valid_congr (hsl _ _ (by omega)) (by omega) (by omega)).1.mp hp.valid, ?_, ?_, fun i i1 i2 => ?_⟩
    · rw [num_congr (hsl _ _ (by omega))]; exact hp.revision
    · rw [num_congr (hsl _ _ (by omega))]; exact hp.size
    · rw [hlow' _ (by omega)]; exact hp.rest i i1 i2
  have hlbs : ({ s1 with device := { s1.device with faults := fs } } : GptDisk).config.lbSize = cfg.lbSize := by rw [← hcfg]
  have hcut := cut_head (m' := m') (m'' := m'') (cfg' := cfg') (dc := dc) hs1 hsd
    (by show PlainHead s1.config.lbSize s1.device.data; rw [hcfg, hdat]; exact hold)
    (by rw [hlbs]; exact u'.primary.plain) (by show s1.config.readonlyBackup = _; rw [hcfg]; exact hro) hB hleft hwc (hlb.trans hlbs.symm) ho
  rw [hlbs] at hcut
  rcases hcut with hhead | ⟨s3, d3, e, hn3, hg3⟩ | hf
  · left
    have u2 : Uefi cfg'.lbSize d.data 128 k B := by rw [hlb]; exact u
    obtain ⟨s0, d0, -, -, eo0, -⟩ := open_uefi (m := m'') hwk.faults hwk.pos (Nat.lt_of_le_of_lt hwk.length hwk.cap) u2
    obtain ⟨b1, b2⟩ := uefi_same hwk u hlb eo eo0
    have hlc : dc.data.length = d'.data.length := by rw [hleft, write_length m' hs1]; exact congrArg _ hdat
    have hen := u.array.enough
    have hlow : ∀ i, i < L → byteAt s1.device.data i = byteAt d.data i := by
      intro i hi
      rw [hdat]; exact hlow' i hi
    obtain ⟨o1, o2⟩ := front_opens (m := m'') (L := L) hwk hlen u2 hwc hL (by omega) (fun off w hw hreg => by
      rw [hlb] at hreg
      refine slice_congr (by omega) (by omega) fun i i1 i2 => ?_
      rcases hreg with hreg | hreg
      · exact (hhead i (by omega) (by omega)).trans (hlow i (by omega))
      · rcases ha with ha | ⟨ha, hst⟩
        · have n1 : (2 + k) * cfg.lbSize.usize ≤ num d.data (1 * cfg.lbSize.usize + 72) 8 * cfg.lbSize.usize := Nat.mul_le_mul_right _ ha
          have n2 : (num d.data (1 * cfg.lbSize.usize + 72) 8 + k) * cfg.lbSize.usize ≤ (B' - k) * cfg.lbSize.usize := Nat.mul_le_mul_right _ (by omega)
          have n3 : (B' - k) * cfg.lbSize.usize ≤ B' * cfg.lbSize.usize := Nat.mul_le_mul_right _ (by omega)
          rw [Nat.add_mul] at n1 n2
          rw [hleft, (c32_confined m' _ h1 k B' hs1 i (by
            show ¬ InPrimary s1.config.lbSize h1.numParts.toNat i
            rw [hcfg, hn1]; unfold InPrimary; omega) (by
            show ¬ InBackup s1.config.lbSize h1.numParts.toNat k B' i
            rw [hcfg, hn1]; unfold InBackup; omega)).1]
          exact hlow i (by omega)
        · rw [ha] at hreg
          obtain ⟨c, -, hcut⟩ := c65_only m' m' _ sd h1 k B' hs1 hsd
          have hfin : byteAt sd.device.data i = byteAt d.data i := by
            have := congrArg (fun l => byteAt l (i - 2 * cfg.lbSize.usize)) (hst sd hsd)
            simp only [byteAt_slice] at this
            rw [if_pos (by omega), if_pos (by omega), show 2 * cfg.lbSize.usize + (i - 2 * cfg.lbSize.usize) = i by omega] at this
            exact this
          have := hcut i
          rw [← hleft] at this
          rw [this, hfin]
          split
          · rfl
          · exact hlow i (by omega)) (by rw [hlb]; omega) eo0
    obtain ⟨s3, hs3⟩ := o1.mpr (fun h => by rw [ho] at h; cases h)
    rcases hx : openFromDevice m'' cfg' dc with ⟨x, d3⟩
    rw [hx] at hs3
    simp only at hs3
    subst hs3
    obtain ⟨e1, e2, -⟩ := o2 s3 d3 hx
    exact ⟨s3, d3, rfl, e2.trans (b2.trans a2.symm), .inl (e1.trans (b1.trans a1.symm))⟩
  · refine .inl ⟨s3, d3, e, hg3.trans q.guid, .inr ?_⟩
    have : Numbered (Spec.used s1.partitions) s3.partitions := hn3
    rw [q.table] at this
    exact this
  · exact .inr hf

/-- **C129**. Whatever happens during the write, a lenient open succeeds afterwards, with the same disk GUID and the same partitions: under the ids they had
before the device grew, or numbered from 1. The one exception is a header block that was written in part and has the checksum of the new header by
chance. -/
theorem c129_cut (g : GrowCut m m' cfg k B B' d d' s s1 fs dc) (ha : ArrayStays m' cfg.lbSize k d.data s1) (hlb : cfg'.lbSize = cfg.lbSize)
    (ho : cfg'.onlyValidHeaders = false) :
    ∃ sd, writeInplace m' (undisturbed s1) = (.ok (), sd) ∧
      ((∃ s3 d3, openFromDevice m'' cfg' dc = (.ok s3, d3) ∧ s3.guid = s.guid ∧
        (s3.partitions = s.partitions ∨ Numbered (Spec.used s.partitions) s3.partitions)) ∨
      Collision (withoutCrc dc.data cfg.lbSize.usize) (withoutCrc sd.device.data cfg.lbSize.usize)) := by
  have u := g.disk
  obtain ⟨d2, hok⟩ := g.opened
  obtain ⟨hBB, h, hs, hn, ht, hc, hd, hwk2, hcap, -, hlp, hh, hids⟩ := enlarged_steady g.before g.small u g.grown hok
  obtain ⟨h', h1, hh', -, q, hn1⟩ := g.resized
  obtain rfl : h = h' := Except.ok.inj ((header_try hs.header).symm.trans (header_try hh'))
  obtain ⟨sm, dm, -, -, eo, -⟩ := open_uefi (m := m) g.before.faults g.before.pos (Nat.lt_of_le_of_lt g.before.length g.before.cap) u
  obtain ⟨-, a⟩ := c127_opens (m := m) g.before g.small u g.grown eo
  obtain ⟨a1, a2, -⟩ := a s d2 hok
  obtain ⟨z, hz⟩ := g.grown.more
  have q2 := u.usable
  have q3 := u.behind
  exact moved_cut g.before g.small u (Nat.le_refl _) (by rw [hz, List.length_append]; omega) ((Nat.mul_le_mul_right _ (by omega)).trans u.length)
    (fun i hi => by rw [hz, byteAt_append, if_pos hi]) g.grown.last (by omega) eo a1 a2 hc hd hh ht hlp q hn1 g.writable g.backup g.left g.works ha hlb ho

/-- **C129**, disks of this library: the condition on the array holds if a write of this library made the disk, and the names of the partitions are
stable (C37): all that are read as they were written. -/
theorem c129_written (g : GrowCut m m' cfg k B B' d d' s s1 fs dc) {m0 : Mode} {s0 t0 : GptDisk} {h0 : Header} (hs0 : SaneDisk s0 h0 k B)
    (hlb : cfg.lbSize = s0.config.lbSize) (hok0 : writeInplace m0 s0 = (.ok (), t0)) (hd0 : d.data = t0.device.data)
    (hst : ∀ p ∈ Spec.used s0.partitions, Stable 36 p.name.toList) : ArrayStays m' cfg.lbSize k d.data s1 := by
  have u := g.disk
  obtain ⟨d2, hok⟩ := g.opened
  obtain ⟨h, h1, hh, hhd, q, hn1⟩ := g.resized
  have w0 := write_ok hs0 hok0
  obtain ⟨b, p, e⟩ := open_written (m' := m) (cfg := cfg) (d := d) hs0 hok0 hd0 g.before.faults g.before.pos hlb fun _ => by
    have q1 := u.front
    have q2 := u.usable
    have q3 := u.behind
    refine ⟨(Nat.mul_le_mul_right _ (by omega)).trans u.length, ?_⟩
    have : lastBlockOffset cfg.lbSize d.data = B * cfg.lbSize.usize := by unfold lastBlockOffset; rw [u.blocks, Nat.add_sub_cancel]
    rw [this]; exact u.backup.valid
  obtain ⟨-, a⟩ := c127_opens (m := m) g.before g.small u g.grown e
  obtain ⟨a1, -, -, a4, -⟩ := a s d2 hok
  have ht : s.tryHeader = .ok ((rebuiltP k B h0).sealed (crc32 (tableBytes (Spec.used s0.partitions) h0.numParts.toNat))) := a4
  obtain rfl := Except.ok.inj ((header_try hh).symm.trans ht)
  have hn0 : h0.numParts.toNat = 128 := hhd.count.trans u.primary.count
  refine .inr ⟨hhd.start.symm, fun sd hsd => ?_⟩
  have c1 := ((write_ok (undisturbed_sane q.sane) hsd).regions (undisturbed_sane q.sane)).array
  have c0 := (w0.regions hs0).array
  have hlb1 : (undisturbed s1).config.lbSize = cfg.lbSize := by
    show s1.config.lbSize = _
    rw [q.config]
    exact congrArg _ (a s d2 hok).2.2.2.2.1
  have hp1 : (undisturbed s1).partitions = numberFrom 0 (Spec.used s0.partitions) := q.table.trans a1
  rw [hlb1, hp1, used_numberFrom 0 (Spec.used s0.partitions) fun p hp => used_isUsed hp, hn1] at c1
  rw [← hlb, ← hd0, hn0] at c0
  exact c1.trans (((tableBytes_iff 128).mpr hst).trans c0.symm)

end

/-- A disk of 100 blocks with one partition, in the blocks 34 to 40, on a device that then has 120 blocks: the write may fail in any way. -/
example (m : Mode) (fs : List Fault) : ∃ d d' s s1 dc, GrowCut m m (GptConfig.new.setWritable true) 32 99 119 d d' s s1 fs dc ∧
    (∃ p, (1, p) ∈ s.partitions) ∧ ArrayStays m .lb512 32 d.data s1 := by
  have hl : dev100.data.length = 51200 := dev100_length
  have hwk : dev100.Works := ⟨rfl, by show 51200 < 2 ^ 64; decide, Nat.le_of_eq hl, by show 0 < 2 ^ 64; decide⟩
  have hB : dev100.data.length / (GptConfig.new.setWritable true).lbSize.usize = 99 + 1 := by rw [hl]; rfl
  have hs0 := madeDisk_sane (cfg := GptConfig.new.setWritable true) (d := dev100) (k := 32) (B := 99) (g := Uuid.nil) (by rw [hl]; decide) enough512 hB
    (by decide)
  have ht : Tidy (createdP 32 99 Uuid.nil) [(1, exPart 34 40)] := by
    refine ⟨by simp, ?_, ?_, ?_⟩
    · rintro p ⟨i, hm, -⟩
      obtain ⟨rfl, rfl⟩ := Prod.mk.inj (List.mem_singleton.mp hm)
      decide
    · rintro p ⟨i, hm, -⟩
      obtain ⟨rfl, rfl⟩ := Prod.mk.inj (List.mem_singleton.mp hm)
      decide
    · intro i j p q hi hj hne
      obtain ⟨rfl, rfl⟩ := Prod.mk.inj (List.mem_singleton.mp hi)
      obtain ⟨rfl, rfl⟩ := Prod.mk.inj (List.mem_singleton.mp hj)
      exact absurd rfl hne
  obtain ⟨S, hS⟩ : ∃ S : GptDisk, S = { madeDisk (GptConfig.new.setWritable true) dev100 32 99 Uuid.nil with partitions := [(1, exPart 34 40)] } := ⟨_, rfl⟩
  have hs : SaneDisk S (createdP 32 99 Uuid.nil) 32 99 := by rw [hS]; exact ⟨hs0.header, hs0.sane, hs0.fits, hs0.length⟩
  have hd : S.device = dev100 := by rw [hS]; rfl
  have hc : S.config = GptConfig.new.setWritable true := by rw [hS]; rfl
  have hp : S.partitions = [(1, exPart 34 40)] := by rw [hS]
  have hu : Spec.used [(1, exPart 34 40)] = [exPart 34 40] := by decide
  have hok := c62_write_succeeds m _ _ 32 99 hs (by rw [hc]; rfl) (by rw [hp, hu]; decide) (by rw [hd]; rfl)
    (hs.fits.trans (by rw [hd, hl]; exact Nat.le_refl _))
  have hwk1 := Dev.works_frame.writeInplace m S (by rw [hd]; exact hwk)
  rcases hx : writeInplace m S with ⟨r, s0⟩
  rw [hx] at hok hwk1
  simp only at hok
  subst hok
  have hl1 : s0.device.data.length = 51200 := by rw [(write_ok hs hx).length, hd, hl]
  have u := c116_written hs (by rw [hp]; exact ht) (by rw [hc]; rfl) (by rw [hc, hd]; exact hB) (show 128 + 1 < 2 ^ 25 by decide) hx
  have u' : Uefi (GptConfig.new.setWritable true).lbSize s0.device.data 128 32 99 := by rw [hc] at u; exact u
  have hwk1 : s0.device.Works := hwk1.1
  obtain ⟨z, hz⟩ : ∃ z : Bytes, z.length = 10240 := ⟨zeros 10240, zeros_length _⟩
  have hl2 : (s0.device.data ++ z).length = 61440 := by rw [List.length_append, hl1, hz]
  have e : Enlarged (GptConfig.new.setWritable true).lbSize s0.device ⟨s0.device.data ++ z, 0, 61440, [], []⟩ 119 := by
    refine ⟨⟨rfl, by show 61440 < 2 ^ 64; decide, ?_, by show 0 < 2 ^ 64; decide⟩, ⟨z, rfl⟩, ?_⟩
    · show (s0.device.data ++ z).length ≤ 61440
      rw [hl2]
    · show (s0.device.data ++ z).length / _ = _
      rw [hl2]
      rfl
  obtain ⟨b, p, eo⟩ := open_written (m' := m) (cfg := GptConfig.new.setWritable true) (d := s0.device) hs hx rfl hwk1.faults hwk1.pos (by rw [hc])
    (fun h => nomatch h)
  obtain ⟨o1, o2⟩ := c127_opens hwk1 (by rw [hl1]; decide) u' e eo
  obtain ⟨s, hso⟩ := o1.mpr (fun h => nomatch h)
  generalize (⟨s0.device.data ++ z, 0, 61440, [], []⟩ : Dev) = d' at e hso o2
  rcases ho : openFromDevice m (GptConfig.new.setWritable true) d' with ⟨x, d2⟩
  rw [ho] at hso
  simp only at hso
  subst hso
  obtain ⟨s1, s2, h1, a, -⟩ := c127_whole hwk1 (by rw [hl1]; decide) u' e rfl rfl ho Uuid.nil
  obtain ⟨dc, hdc, hwc⟩ : ∃ dc : Dev, dc.data = (writeInplace m { s1 with device := { s1.device with faults := fs } }).2.device.data ∧ dc.Works := by
    obtain ⟨h, h', -, -, q, -⟩ := grow_resized hwk1 (by rw [hl1]; decide) u' e ho a
    have hq := sane_faults q.sane fs
    have hln := write_length m hq
    have h64 : s1.device.data.length < 2 ^ 64 := q.sane.length
    refine ⟨⟨_, 0, s1.device.data.length, [], []⟩, rfl, rfl, h64, ?_, by show 0 < 2 ^ 64; decide⟩
    show List.length _ ≤ _
    rw [hln]
  have g : GrowCut m m (GptConfig.new.setWritable true) 32 99 119 s0.device d' s s1 fs dc :=
    ⟨hwk1, by rw [hl1]; decide, u', e, rfl, rfl, ⟨d2, ho⟩, ⟨_, a⟩, hdc, hwc⟩
  refine ⟨s0.device, d', s, s1, dc, g, ?_, c129_written g hs (by rw [hc]) hx rfl ?_⟩
  · have : s.partitions = numberFrom 0 (Spec.used S.partitions) := (o2 s d2 ho).1
    rw [this, hp, hu]
    exact ⟨_, List.mem_singleton.mpr rfl⟩
  · rw [hp, hu]
    intro p hp
    obtain rfl := List.mem_singleton.mp hp
    exact ⟨['p'], 0, [], by decide, by decide, by decide, .inl rfl⟩

end Gpt
