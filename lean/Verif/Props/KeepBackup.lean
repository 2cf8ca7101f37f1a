import Verif.Props.Shrink
/-!
# C131: `readonly_backup` on a device of another size
-/

namespace Gpt

open Spec GptDisk

section
variable {m : Mode} {cfg : GptConfig} {k B B' : Nat} {d d' : Dev} {s s1 : GptDisk} {h h1 : Header}

/-- Opening what a write with `readonly_backup` left, if the content of the last block is the one of before. -/
theorem keep_opens (hs : SaneDisk s h k B) (hx : writeInplace m s = (.ok (), s1)) (hro : s.config.readonlyBackup = true) (hwk : s.device.Works)
    (hB : s.device.data.length / s.config.lbSize.usize = B + 1) {m' : Mode} {cfg' : GptConfig} (hlb : cfg'.lbSize = s.config.lbSize) :
    ((∃ s3, (openFromDevice m' cfg' s1.device).1 = .ok s3) ↔ (cfg'.onlyValidHeaders = true → BackupValid s.config.lbSize s.device.data)) ∧
    ∀ s3 d3, openFromDevice m' cfg' s1.device = (.ok s3, d3) → s3.guid = h.diskGuid ∧ Numbered (Spec.used s.partitions) s3.partitions ∧
      ∃ h3, s3.tryHeader = .ok h3 ∧ h3.firstUsable = h.firstUsable ∧ h3.lastUsable.toNat + k + 1 = B ∧ h3.backupLba.toNat = B := by
  obtain ⟨hB64, hkB⟩ := sane_bounds hs.sane
  have hl := hs.sane.last
  have hfi := hs.sane.first
  have hus := hs.sane.usable
  have w := write_ok hs hx
  have hwk3 := Dev.works_frame.writeInplace m s hwk
  have hcon := (c33_readonly_backup m s h k B hs hro).1
  rw [hx] at hwk3 hcon
  have hen := hs.sane.arrays.enough
  have h512 : 512 ≤ s.config.lbSize.usize := by cases s.config.lbSize <;> decide
  have hfit : B * s.config.lbSize.usize + s.config.lbSize.usize ≤ s.device.data.length := by
    have := Nat.div_mul_le_self s.device.data.length s.config.lbSize.usize
    rw [hB, Nat.add_mul, Nat.one_mul] at this
    exact this
  have hl1 : s1.device.data.length = s.device.data.length := w.length
  have hoff : lastBlockOffset s.config.lbSize s.device.data = B * s.config.lbSize.usize := by unfold lastBlockOffset; rw [hB, Nat.add_sub_cancel]
  have hle : (2 + k) * s.config.lbSize.usize ≤ B * s.config.lbSize.usize := Nat.mul_le_mul_right _ (by omega)
  rw [Nat.add_mul] at hle
  have hbv : BackupValid s.config.lbSize s1.device.data ↔ BackupValid s.config.lbSize s.device.data := by
    unfold BackupValid
    have hlbo : lastBlockOffset s.config.lbSize s1.device.data = lastBlockOffset s.config.lbSize s.device.data := by unfold lastBlockOffset; rw [hl1]
    rw [hlbo, hl1, hoff]
    have := (valid_congr (c := s1.device.data) (c' := s.device.data) (off := B * s.config.lbSize.usize)
      (slice_congr (by omega) (by omega) fun i i1 i2 => (hcon i (by unfold InPrimary; omega)).symm) (by omega) (by omega)).1
    rw [this]
  have e : (rebuiltP k B h).lastUsable.toNat = B - k - 1 := ofNat64 (by omega)
  constructor
  · constructor
    · rintro ⟨s3, hs3⟩ hv
      obtain ⟨g1, g2, -, c2, -, -, eo⟩ := open_headers (m := m') (cfg := cfg') hwk3.1.faults hwk3.1.pos (Nat.lt_of_le_of_lt hwk3.1.length hwk3.1.cap)
      rw [eo] at hs3
      cases hsel : selectHeader cfg'.onlyValidHeaders g1 g2 with
      | error x => rw [hsel] at hs3; cases hs3
      | ok g =>
        rcases (select_spec.1 g).mp hsel with ⟨-, b⟩ | ⟨b, -⟩
        · obtain ⟨b, hb⟩ := b hv
          have := ((c2 b).mp hb).1
          rw [hlb] at this
          exact hbv.mp this
        · rw [hv] at b; cases b
    · intro hv
      obtain ⟨b, p, eo⟩ := open_written (m' := m') (cfg := cfg') (d := s1.device) hs hx rfl hwk3.1.faults hwk3.1.pos hlb
        (fun q => by rw [hlb]; exact hbv.mpr (hv q))
      rw [eo]
      exact ⟨_, rfl⟩
  · intro s3 d3 hs3
    have hv : cfg'.onlyValidHeaders = true → BackupValid cfg'.lbSize s1.device.data := by
      intro hv
      obtain ⟨g1, g2, -, c2, -, -, eo⟩ := open_headers (m := m') (cfg := cfg') hwk3.1.faults hwk3.1.pos (Nat.lt_of_le_of_lt hwk3.1.length hwk3.1.cap)
      rw [eo] at hs3
      cases hsel : selectHeader cfg'.onlyValidHeaders g1 g2 with
      | error x => rw [hsel] at hs3; cases hs3
      | ok g =>
        rcases (select_spec.1 g).mp hsel with ⟨-, b⟩ | ⟨b, -⟩
        · obtain ⟨b, hb⟩ := b hv
          exact ((c2 b).mp hb).1
        · rw [hv] at b; cases b
    obtain ⟨b, p, eo⟩ := open_written (m' := m') (cfg := cfg') (d := s1.device) hs hx rfl hwk3.1.faults hwk3.1.pos hlb hv
    rw [hs3] at eo
    obtain ⟨a, -⟩ := Prod.mk.inj eo
    obtain rfl := Res.ok.inj a
    refine ⟨rfl, numbered_numberFrom ?_, _, rfl, rfl, ?_, ofNat64 hB64⟩
    · have := w.room
      have := h.numParts.toNat_lt
      omega
    · show (rebuiltP k B h).lastUsable.toNat + k + 1 = B
      omega

theorem keep_refit (r : Stretch s h k k B B' s.partitions) (hn : h.numParts.toNat = 128) (hlp : s.partitions.length ≤ 128)
    (hids : ∀ i p, (i, p) ∈ s.partitions → 1 ≤ i.toNat) (hw : s.config.writable = true) (hro : s.config.readonlyBackup = true)
    (hwk : s.device.Works) (fresh : Uuid) :
    ∃ s1 s2 h1, updatePartitions m s.partitions fresh s = (.ok (), s1) ∧ Resized s h k B' s.partitions s1 h1 ∧
      writeInplace m s1 = (.ok (), s2) ∧ s2.device.data.length = s.device.data.length ∧
      (∀ i, h.firstUsable.toNat * s.config.lbSize.usize ≤ i → byteAt s2.device.data i = byteAt s.device.data i) ∧
      ∀ m' cfg', cfg'.lbSize = s.config.lbSize →
        ((∃ s3, (openFromDevice m' cfg' s2.device).1 = .ok s3) ↔ (cfg'.onlyValidHeaders = true → BackupValid s.config.lbSize s.device.data)) ∧
        ∀ s3 d3, openFromDevice m' cfg' s2.device = (.ok s3, d3) → s3.guid = s.guid ∧ Numbered (Spec.used s.partitions) s3.partitions ∧
          ∃ h3, s3.tryHeader = .ok h3 ∧ h3.lastUsable.toNat + k + 1 = B' ∧ h3.backupLba.toNat = B' := by
  have hcnt : countFor s.partitions = 128 := by unfold countFor; omega
  have hbl := r.last
  have h0 : PMap.get s.partitions 0 = none := PMap.get_none_iff.mpr fun p hm => absurd (hids 0 p hm) (by decide)
  obtain ⟨s1, h1, eu, q⟩ := c127_update (m := m) r h0 (.inr (by rw [hcnt, hn])) fresh
  have hused : (Spec.used s.partitions).length ≤ 128 := (used_length_le _).trans hlp
  have hcap : (B' + 1) * s.config.lbSize.usize ≤ s.device.cap :=
    (by rw [← hbl]; exact Nat.div_mul_le_self _ _ : (B' + 1) * s.config.lbSize.usize ≤ _).trans hwk.length
  have hok := c62_write_succeeds m s1 h1 k B' q.sane (by rw [q.config]; exact hw) (by rw [q.table, q.count, hcnt]; exact hused)
    (by rw [q.device]; exact hwk.faults) (by rw [q.device, q.config]; exact hcap)
  have hx : writeInplace m s1 = (.ok (), (writeInplace m s1).2) := Prod.ext hok rfl
  have hro1 : s1.config.readonlyBackup = true := by rw [q.config]; exact hro
  refine ⟨s1, _, h1, eu, q, hx, ?_, fun i hi => ?_, fun m' cfg' hlb => ?_⟩
  · rw [write_length m q.sane, q.device]
  · have hen := q.sane.sane.arrays.enough
    have hf := q.sane.sane.first
    have hm : (2 + k) * s.config.lbSize.usize ≤ h.firstUsable.toNat * s.config.lbSize.usize := Nat.mul_le_mul_right _ (by rw [← q.first]; exact hf)
    rw [q.config] at hen
    rw [Nat.add_mul] at hm
    rw [(c33_readonly_backup m s1 h1 k B' q.sane hro1).1 i (by rw [q.config]; unfold InPrimary; omega), q.device]
  · obtain ⟨a, b⟩ := keep_opens (m' := m') (cfg' := cfg') q.sane hx hro1 (by rw [q.device]; exact hwk) (by rw [q.device, q.config]; exact hbl)
      (by rw [q.config]; exact hlb)
    rw [q.config, q.device] at a
    refine ⟨a, fun s3 d3 hs3 => ?_⟩
    obtain ⟨b1, b2, h3, b3, -, b4, b5⟩ := b s3 d3 hs3
    rw [q.table] at b2
    exact ⟨b1.trans q.guid, b2, h3, b3, b4, b5⟩

/-- **C131**, grown: with `readonly_backup`, giving the disk its own table on the larger device and writing it succeeds, moves the end of the usable range
and the place where the header expects the backup, but writes nothing from the first usable block on, so also no backup there. -/
theorem c131_grown (hwk : d.Works) (hlen : d.data.length < 2 ^ 60) (u : Uefi cfg.lbSize d.data 128 k B) (e : Enlarged cfg.lbSize d d' B')
    (hw : cfg.writable = true) (hro : cfg.readonlyBackup = true) {d2 : Dev} (hok : openFromDevice m cfg d' = (.ok s, d2)) (fresh : Uuid) :
    ∃ s1 s2, updatePartitions m s.partitions fresh s = (.ok (), s1) ∧ writeInplace m s1 = (.ok (), s2) ∧
      s2.device.data.length = d'.data.length ∧
      (∀ i, num d.data (1 * cfg.lbSize.usize + 40) 8 * cfg.lbSize.usize ≤ i → byteAt s2.device.data i = byteAt d'.data i) ∧
      ∀ m' cfg', cfg'.lbSize = cfg.lbSize →
        ((∃ s3, (openFromDevice m' cfg' s2.device).1 = .ok s3) ↔ (cfg'.onlyValidHeaders = true → BackupValid cfg.lbSize d'.data)) ∧
        ∀ s3 d3, openFromDevice m' cfg' s2.device = (.ok s3, d3) → s3.guid = s.guid ∧ Numbered (Spec.used s.partitions) s3.partitions ∧
          ∃ h3, s3.tryHeader = .ok h3 ∧ h3.lastUsable.toNat + k + 1 = B' ∧ h3.backupLba.toNat = B' := by
  obtain ⟨hBB, h, hs, hn, ht, hc, hd, hwk2, hcap, -, hlp, hh, hids⟩ := enlarged_steady hwk hlen u e hok
  have hcnt : countFor s.partitions = 128 := by unfold countFor; omega
  have hl := hs.sane.last
  have r : Stretch s h k k B B' s.partitions := by
    refine ⟨hs.header, hs.sane, hs.length, by rw [hc, hd]; exact e.last, hwk2.faults, hwk2.pos, by rw [hcnt]; decide, ?_, hs.sane.first, by omega⟩
    rw [hcnt, hc]
    exact u.array
  obtain ⟨s1, s2, h1, b1, -, b2, b3, b4, b5⟩ := keep_refit (m := m) r hn hlp hids (by rw [hc]; exact hw) (by rw [hc]; exact hro) hwk2 fresh
  rw [hc] at b4 b5
  rw [hd] at b3 b4 b5
  have hf : h.firstUsable.toNat = num d.data (1 * cfg.lbSize.usize + 40) 8 := hh.first
  rw [hf] at b4
  exact ⟨s1, s2, b1, b2, b3, b4, b5⟩

/-- **C131**, the old backup: after `update_partitions` on the larger device, the blocks behind the old usable range are free for partitions up to where the
new array begins; so are the old backup header in block `B` and its array, which stay the only copy. -/
theorem c131_free (hwk : d.Works) (hlen : d.data.length < 2 ^ 60) (u : Uefi cfg.lbSize d.data 128 k B) (e : Enlarged cfg.lbSize d d' B')
    {d2 : Dev} (hok : openFromDevice m cfg d' = (.ok s, d2)) {fresh : Uuid} (hup : updatePartitions m s.partitions fresh s = (.ok (), s1)) {x : Nat}
    (hlo : num d.data (1 * cfg.lbSize.usize + 48) 8 < x) (hhi : x + k < B') :
    ∃ L, (s1.findFreeSectors m : Res GptError _) = .ok L ∧ ∃ sec ∈ L, sec.1.toNat ≤ x ∧ x < sec.1.toNat + sec.2.toNat := by
  obtain ⟨hBB, h, hs, hn, ht, hc, hd, hwk2, hcap, -, hlp, hh, hids⟩ := enlarged_steady hwk hlen u e hok
  have hcnt : countFor s.partitions = 128 := by unfold countFor; omega
  have hl := hs.sane.last
  have r : Stretch s h k k B B' s.partitions := by
    refine ⟨hs.header, hs.sane, hs.length, by rw [hc, hd]; exact e.last, hwk2.faults, hwk2.pos, by rw [hcnt]; decide, ?_, hs.sane.first, by omega⟩
    rw [hcnt, hc]
    exact u.array
  have h0 : PMap.get s.partitions 0 = none := PMap.get_none_iff.mpr fun p hm => absurd (hids 0 p hm) (by decide)
  obtain ⟨s1', h1, eu, q⟩ := c127_update (m := m) r h0 (.inr (by rw [hcnt, hn])) fresh
  obtain rfl : s1' = s1 := by rw [hup] at eu; cases eu; rfl
  have hla : h.lastUsable.toNat = num d.data (1 * cfg.lbSize.usize + 48) 8 := hh.last
  have hq := q.last
  have hus := hs.sane.usable
  have hfi := hs.sane.first
  obtain ⟨hB64, -⟩ := sane_bounds q.sane.sane
  have ht1 : Tidy h1 s1'.partitions := by
    rw [q.table]
    refine ⟨ht.keys, ht.order, fun p hp => ?_, ht.apart⟩
    have := ht.inside p hp
    rw [q.first]
    omega
  obtain ⟨L, hL, hc, -⟩ := c18_all_free m s1' (header_try q.sane.header) ⟨by rw [q.first]; omega, by rw [q.first]; omega, by omega⟩ ht1
  obtain ⟨sec, ⟨c1, c2⟩, -⟩ := hc x ⟨by rw [q.first]; omega, by omega, fun p hp hx => by
    rw [q.table] at hp
    have := (ht.inside p hp)
    have := hx.2
    omega⟩
  exact ⟨L, hL, sec, c1, c2⟩

/-- **C131**, cut off: if the usable range and an array behind it still fit before the new last block, the same holds on a smaller device: the header then
expects a backup in the new last block, where nothing is written. -/
theorem c131_shrunk (hwk : d.Works) (hlen : d.data.length < 2 ^ 60) (u : Uefi cfg.lbSize d.data 128 k B) (e : CutOff cfg.lbSize d d' B')
    (hfit : num d.data (1 * cfg.lbSize.usize + 48) 8 + k + 1 ≤ B') (hw : cfg.writable = true) (hro : cfg.readonlyBackup = true)
    {d2 : Dev} (hok : openFromDevice m cfg d' = (.ok s, d2)) (fresh : Uuid) :
    ∃ s1 s2, updatePartitions m s.partitions fresh s = (.ok (), s1) ∧ writeInplace m s1 = (.ok (), s2) ∧
      s2.device.data.length = d'.data.length ∧
      (∀ i, num d.data (1 * cfg.lbSize.usize + 40) 8 * cfg.lbSize.usize ≤ i → byteAt s2.device.data i = byteAt d'.data i) ∧
      ∀ m' cfg', cfg'.lbSize = cfg.lbSize →
        ((∃ s3, (openFromDevice m' cfg' s2.device).1 = .ok s3) ↔ (cfg'.onlyValidHeaders = true → BackupValid cfg.lbSize d'.data)) ∧
        ∀ s3 d3, openFromDevice m' cfg' s2.device = (.ok s3, d3) → s3.guid = s.guid ∧ Numbered (Spec.used s.partitions) s3.partitions ∧
          ∃ h3, s3.tryHeader = .ok h3 ∧ h3.lastUsable.toNat + k + 1 = B' ∧ h3.backupLba.toNat = B' := by
  obtain ⟨s0, d1, h0, b, eo, -, -, -, -, -⟩ := open_uefi (m := m) hwk.faults hwk.pos (by omega) u
  have hl' : (B' + 1) * cfg.lbSize.usize ≤ d'.data.length := by rw [← e.last]; exact Nat.div_mul_le_self _ _
  have hq := u.usable
  obtain ⟨-, a⟩ := c128_opens (m := m) hwk hlen u e ((Nat.mul_le_mul_right _ (by omega)).trans hl') eo
  obtain ⟨a1, a2, a3, a4, a5, a6, a7, a8⟩ := a s d2 hok
  obtain ⟨h, v, hh⟩ := steady_open (m := m) hwk hlen u eo
  have hlp : s.partitions.length ≤ 128 := by rw [a1]; exact v.entries
  have hcnt : countFor s.partitions = 128 := by unfold countFor; omega
  have hla : h.lastUsable.toNat = num d.data (1 * cfg.lbSize.usize + 48) 8 := hh.last
  have hf : h.firstUsable.toNat = num d.data (1 * cfg.lbSize.usize + 40) 8 := hh.first
  have r : Stretch s h k k B B' s.partitions := by
    refine ⟨?_, by rw [a5, ← v.config]; exact v.sane.sane, by rw [a6]; exact Nat.lt_of_le_of_lt e.works.length e.works.cap,
      by rw [a5, a6]; exact e.last, a7.faults, a7.pos, by rw [hcnt]; decide, by rw [hcnt, a5]; exact u.array, v.sane.sane.first, by omega⟩
    have := v.sane.header
    rw [header_ok_iff] at this ⊢
    rw [a4]
    exact this
  obtain ⟨s1, s2, h1, b1, -, b2, b3, b4, b5⟩ := keep_refit (m := m) r v.count hlp
    (fun i p hm => (v.ids i p (by rw [← a1]; exact hm)).1) (by rw [a5]; exact hw) (by rw [a5]; exact hro) a7 fresh
  rw [a5] at b4 b5
  rw [a6] at b3 b4 b5
  rw [hf] at b4
  exact ⟨s1, s2, b1, b2, b3, b4, b5⟩

end

/-- A disk of 100 blocks on a device of 150 blocks with zeros at its end, with `readonly_backup`: afterwards it cannot be opened if only valid headers are
wanted, and block 99, with the one backup header, is free for partitions. -/
example (m : Mode) : ∃ s0 d' s s1 s2 L, writeInplace m (madeDisk (GptConfig.new.setWritable true) dev100 32 99 Uuid.nil) = (.ok (), s0) ∧
    Enlarged .lb512 s0.device d' 149 ∧ (openFromDevice m ((GptConfig.new.setWritable true).setReadonlyBackup true) d').1 = .ok s ∧
    updatePartitions m s.partitions Uuid.nil s = (.ok (), s1) ∧ writeInplace m s1 = (.ok (), s2) ∧
    (∀ s3, (openFromDevice m (GptConfig.new.setOnlyValidHeaders true) s2.device).1 ≠ .ok s3) ∧
    (s1.findFreeSectors m : Res GptError _) = .ok L ∧ ∃ sec ∈ L, sec.1.toNat ≤ 99 ∧ 99 < sec.1.toNat + sec.2.toNat := by
  have hl : dev100.data.length = 51200 := dev100_length
  have hwk : dev100.Works := ⟨rfl, by show 51200 < 2 ^ 64; decide, Nat.le_of_eq hl, by show 0 < 2 ^ 64; decide⟩
  have hB : dev100.data.length / (GptConfig.new.setWritable true).lbSize.usize = 99 + 1 := by rw [hl]; rfl
  have hs := madeDisk_sane (cfg := GptConfig.new.setWritable true) (d := dev100) (k := 32) (B := 99) (g := Uuid.nil) (by rw [hl]; decide) enough512 hB
    (by decide)
  have hok := c62_write_succeeds m _ _ 32 99 hs rfl (Nat.zero_le _) rfl (hs.fits.trans (show dev100.data.length ≤ 51200 by rw [hl]))
  have hwk1 := Dev.works_frame.writeInplace m (madeDisk (GptConfig.new.setWritable true) dev100 32 99 Uuid.nil) hwk
  rcases hx : writeInplace m (madeDisk (GptConfig.new.setWritable true) dev100 32 99 Uuid.nil) with ⟨r, s0⟩
  rw [hx] at hok hwk1
  simp only at hok
  subst hok
  have hlen : s0.device.data.length = dev100.data.length := (write_ok hs hx).length
  have hl0 : (madeDisk (GptConfig.new.setWritable true) dev100 32 99 Uuid.nil).device.data.length = 51200 := hl
  have u := c116_written hs (tidy_nil _) rfl (by rw [hl0]; rfl) (show 128 + 1 < 2 ^ 25 by decide) hx
  have hl1 : s0.device.data.length = 51200 := hlen.trans hl
  clear hx hs hlen
  have hwk1 : s0.device.Works := hwk1.1
  obtain ⟨z, hz, hz0⟩ : ∃ z : Bytes, z.length = 25600 ∧ z = zeros 25600 := ⟨zeros 25600, zeros_length _, rfl⟩
  have hl2 : (s0.device.data ++ z).length = 76800 := by rw [List.length_append, hl1, hz]
  have e : Enlarged ((GptConfig.new.setWritable true).setReadonlyBackup true).lbSize s0.device ⟨s0.device.data ++ z, 0, 76800, [], []⟩ 149 := by
    refine ⟨⟨rfl, by show 76800 < 2 ^ 64; decide, ?_, by show 0 < 2 ^ 64; decide⟩, ⟨z, rfl⟩, ?_⟩
    · show (s0.device.data ++ z).length ≤ 76800
      rw [hl2]
    · show (s0.device.data ++ z).length / _ = _
      rw [hl2]
      rfl
  have u' : Uefi ((GptConfig.new.setWritable true).setReadonlyBackup true).lbSize s0.device.data 128 32 99 := u
  have hbad : ¬ BackupValid .lb512 (s0.device.data ++ z) := by
    rintro ⟨-, hv⟩
    have hb := congrArg (fun l => byteAt l 0) hv.signature
    simp only [byteAt_slice] at hb
    have ho : lastBlockOffset .lb512 (s0.device.data ++ z) = 76288 := by unfold lastBlockOffset; rw [hl2]; rfl
    rw [if_pos (by decide), Nat.add_zero, ho, byteAt_append, hl1, if_neg (by decide), hz0, byteAt_zeros] at hb
    exact absurd hb (by decide)
  have hdd : (⟨s0.device.data ++ z, 0, 76800, [], []⟩ : Dev).data = s0.device.data ++ z := rfl
  generalize (⟨s0.device.data ++ z, 0, 76800, [], []⟩ : Dev) = d' at e hdd
  rw [← hdd] at hbad
  obtain ⟨st, dt, h, b, eo, -⟩ := c116_opens (cfg := (GptConfig.new.setWritable true).setReadonlyBackup true) m hwk1 u'
  obtain ⟨o1, -⟩ := c127_opens hwk1 (by rw [hl1]; decide) u' e eo
  obtain ⟨s, hs⟩ := o1.mpr (fun h => nomatch h)
  rcases ho : openFromDevice m ((GptConfig.new.setWritable true).setReadonlyBackup true) d' with ⟨x, d2⟩
  rw [ho] at hs
  simp only at hs
  subst hs
  obtain ⟨s1, s2, a, w, -, -, o⟩ := c131_grown hwk1 (by rw [hl1]; decide) u' e rfl rfl ho Uuid.nil
  have q2 := u'.behind
  obtain ⟨L, f1, f2⟩ := c131_free (x := 99) hwk1 (by rw [hl1]; decide) u' e ho a (by omega) (by decide)
  exact ⟨s0, d', s, s1, s2, L, rfl, e, by rw [ho], a, w, fun s3 hs3 => hbad (((o m (GptConfig.new.setOnlyValidHeaders true) rfl).1.mp ⟨s3, hs3⟩) rfl), f1, f2⟩

end Gpt
