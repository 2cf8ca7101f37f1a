import Verif.Props.Halves
import Verif.Props.Mixed
/-!
# The first write to a disk whose primary array is elsewhere: C124

`write_inplace` puts the primary array right behind the primary header, wherever it was before. If the array of the disk was not there,
the old array is left alone, and the old primary header points to it until the very last write replaces the header. So the first write
can be interrupted anywhere, unlike later ones (C42, C68).
-/

namespace Gpt

open Spec GptDisk

/-- The first `c` bytes of a header replaced by those of another header with the same 16 first bytes: if the result is a valid header, it
is one of the two, or it has the checksum of the second without being the second. -/
theorem torn_foreign {old final d : Bytes} {off c : Nat} (vo : ValidAt old off) (vf : ValidAt final off) (vd : ValidAt d off)
    (hsame : ∀ i, i < 16 → byteAt final (off + i) = byteAt old (off + i))
    (ht : ∀ i, i < 92 → byteAt d (off + i) = if i < c then byteAt final (off + i) else byteAt old (off + i)) :
    (∀ i, i < 92 → byteAt d (off + i) = byteAt old (off + i)) ∨ (∀ i, i < 92 → byteAt d (off + i) = byteAt final (off + i)) ∨
      Collision (withoutCrc d off) (withoutCrc final off) := by
  have key : ∀ {a : Bytes} (k : Nat), ValidAt a off → (k + 4 ≤ 16 ∨ k = 16 ∨ 20 ≤ k) →
      (∀ i, i < 92 → (i < k ∨ k + 4 ≤ i) → byteAt d (off + i) = byteAt a (off + i)) →
      ∀ i, i < 92 → byteAt d (off + i) = byteAt a (off + i) := by
    intro a k va hk hout i hi
    by_contra hne
    refine c08_corruption (slice a off 92) (slice d off 92) 0 k (validAt_slice va)
      (by have := va.fits; have := vd.fits; rw [slice_length, slice_length]; omega) hk ?_ ⟨i, by omega, by omega, ?_⟩ (validAt_slice vd)
    · intro j hj
      rw [byteAt_slice, byteAt_slice]
      split
      · exact hout j (by assumption) (by omega)
      · rfl
    · rw [byteAt_slice, byteAt_slice, if_pos hi, if_pos hi]
      exact hne
  have fd := vd.fits
  have ff := vf.fits
  by_cases c1 : c ≤ 20
  · refine .inl (key 16 vo (by omega) fun i hi ho => ?_)
    rw [ht i hi]
    split
    · exact hsame i (by omega)
    · rfl
  · by_cases c2 : 88 ≤ c
    · refine .inr (.inl (key 88 vf (by omega) fun i hi ho => ?_))
      rw [ht i hi, if_pos (by omega)]
    · have hs : slice d (off + 16) 4 = slice final (off + 16) 4 := by
        refine slice_eq_of_byteAt (by omega) (slice_length_of_le (by omega)) fun i hi => ?_
        rw [byteAt_slice, if_pos hi, Nat.add_assoc, ht _ (by omega), if_pos (by omega)]
      have hcrc : crc32 (withoutCrc d off) = crc32 (withoutCrc final off) := by
        refine UInt32.toNat_inj.mp ?_
        rw [← vd.checksum, ← vf.checksum]
        unfold num
        rw [hs]
      by_cases he : withoutCrc d off = withoutCrc final off
      · refine .inr (.inl fun i hi => ?_)
        unfold withoutCrc at he
        have l1 : ∀ {a : Bytes}, off + 92 ≤ a.length → (slice a off 16).length = 16 := fun h => slice_length_of_le (by omega)
        obtain ⟨e1, e2⟩ := List.append_inj he (by rw [List.length_append, List.length_append, l1 fd, l1 ff])
        obtain ⟨e1, -⟩ := List.append_inj e1 (by rw [l1 fd, l1 ff])
        by_cases h1 : i < 20
        · rw [ht i hi, if_pos (by omega)]
        · have := congrArg (fun l => byteAt l (i - 20)) e2
          simp only [byteAt_slice, if_pos (show i - 20 < 72 by omega)] at this
          rw [show off + 20 + (i - 20) = off + i by omega] at this
          exact this
      · exact .inr (.inr ⟨he, hcrc⟩)

/-- The first block behind the boot record has a valid header with the revision and the size of the specification, and then zeros. -/
structure PlainHead (lb : LbSize) (c : Bytes) : Prop where
  valid : ValidAt c (1 * lb.usize)
  revision : num c (1 * lb.usize + 8) 4 = 0x00010000
  size : num c (1 * lb.usize + 12) 4 = 92
  rest : ∀ i, 92 ≤ i → i < lb.usize → byteAt c (1 * lb.usize + i) = 0

theorem Spec.UefiHeader.plain {lb : LbSize} {c : Bytes} {n a : Nat} (h : UefiHeader lb c n 1 a) : PlainHead lb c := ⟨h.valid, h.revision, h.size, h.rest⟩

/-- What an interrupted write leaves in the block of the primary header: the old header, or else the device is opened with the new table, unless a
header that was written in part has the checksum of the new one by chance. -/
theorem cut_head {m' m'' : Mode} {cfg' : GptConfig} {k B : Nat} {h : Header} {s sd : GptDisk} {dc : Dev} (hs : SaneDisk s h k B)
    (hsd : writeInplace m' (undisturbed s) = (.ok (), sd)) (hp : PlainHead s.config.lbSize s.device.data)
    (hp' : PlainHead s.config.lbSize sd.device.data) (hro : s.config.readonlyBackup = false)
    (hB : s.device.data.length / s.config.lbSize.usize = B + 1) (hleft : dc.data = (writeInplace m' s).2.device.data) (hwk : dc.Works)
    (hlb : cfg'.lbSize = s.config.lbSize) (ho : cfg'.onlyValidHeaders = false) :
    (∀ i, s.config.lbSize.usize ≤ i → i < 2 * s.config.lbSize.usize → byteAt dc.data i = byteAt s.device.data i) ∨
    (∃ s3 d3, openFromDevice m'' cfg' dc = (.ok s3, d3) ∧ Numbered (Spec.used s.partitions) s3.partitions ∧ s3.guid = h.diskGuid) ∨
    Collision (withoutCrc dc.data s.config.lbSize.usize) (withoutCrc sd.device.data s.config.lbSize.usize) := by
  by_cases hhead : ∀ i, s.config.lbSize.usize ≤ i → i < 2 * s.config.lbSize.usize → byteAt dc.data i = byteAt s.device.data i
  · exact .inl hhead
  push Not at hhead
  refine .inr ?_
  obtain ⟨hB64, hkB⟩ := sane_bounds hs.sane
  have hlen : sd.device.data.length = s.device.data.length := (write_ok (undisturbed_sane hs) hsd).length
  have hlc : dc.data.length = s.device.data.length := by rw [hleft, write_length m' hs]
  have hpos := lb_le s.config.lbSize
  have hfits : (B + 1) * s.config.lbSize.usize ≤ s.device.data.length := by rw [← hB]; exact Nat.div_mul_le_self _ _
  have hlong : 3 * s.config.lbSize.usize ≤ (B + 1) * s.config.lbSize.usize := Nat.mul_le_mul_right _ (by omega)
  have hfin : (∀ i, s.config.lbSize.usize ≤ i → i < 2 * s.config.lbSize.usize → byteAt dc.data i = byteAt sd.device.data i) ∨
      ¬ PrimaryValid s.config.lbSize dc.data ∨ Collision (withoutCrc dc.data s.config.lbSize.usize) (withoutCrc sd.device.data s.config.lbSize.usize) := by
    by_cases hv : PrimaryValid s.config.lbSize dc.data
    · obtain ⟨c, -, hcut⟩ := c65_only m' m' _ sd h k B hs hsd
      obtain ⟨c', hc'⟩ := mem_order_head (lb := s.config.lbSize.usize) (k := k) (B := B) (n := h.numParts.toNat) (u := (Spec.used s.partitions).length)
        (c := c) (backup := !s.config.readonlyBackup) (Nat.mul_le_mul_right _ (by omega)) (Nat.mul_le_mul_right _ (by omega))
      have htorn : ∀ i, i < s.config.lbSize.usize → byteAt dc.data (s.config.lbSize.usize + i) =
          if i < c' then byteAt sd.device.data (s.config.lbSize.usize + i) else byteAt s.device.data (s.config.lbSize.usize + i) := by
        intro i hi
        have := hcut (s.config.lbSize.usize + i)
        rw [← hleft] at this
        rw [this]
        exact if_congr (hc' i hi) rfl rfl
      have vo := hp.valid
      have vf := hp'.valid
      have r1 := hp.revision
      have r2 := hp'.revision
      have z1 := hp.size
      have z2 := hp'.size
      have t1 := hp.rest
      have t2 := hp'.rest
      rw [Nat.one_mul] at vo vf r1 r2 z1 z2 t1 t2
      have hsl : ∀ {a w : Nat}, a + w ≤ 92 → num s.device.data (s.config.lbSize.usize + a) w = num sd.device.data (s.config.lbSize.usize + a) w →
          ∀ i, i < w → byteAt sd.device.data (s.config.lbSize.usize + a + i) = byteAt s.device.data (s.config.lbSize.usize + a + i) := by
        intro a w ha e i hi
        have := leVal_inj (by rw [slice_length_of_le (by omega), slice_length_of_le (by omega)]) e
        have := congrArg (fun l => byteAt l i) this
        simp only [byteAt_slice, if_pos hi] at this
        exact this.symm
      have hsame : ∀ i, i < 16 → byteAt sd.device.data (s.config.lbSize.usize + i) = byteAt s.device.data (s.config.lbSize.usize + i) := by
        intro i hi
        by_cases i1 : i < 8
        · have := congrArg (fun l => byteAt l i) (vf.signature.trans vo.signature.symm)
          simp only [byteAt_slice, if_pos i1] at this
          exact this
        · by_cases i2 : i < 12
          · have := hsl (a := 8) (w := 4) (by omega) (r1.trans r2.symm) (i - 8) (by omega)
            rw [show s.config.lbSize.usize + 8 + (i - 8) = s.config.lbSize.usize + i by omega] at this
            exact this
          · have := hsl (a := 12) (w := 4) (by omega) (z1.trans z2.symm) (i - 12) (by omega)
            rw [show s.config.lbSize.usize + 12 + (i - 12) = s.config.lbSize.usize + i by omega] at this
            exact this
      have htail : ∀ i, 92 ≤ i → i < s.config.lbSize.usize → byteAt dc.data (s.config.lbSize.usize + i) = 0 := by
        intro i h1 h2
        rw [htorn i h2, t1 i h1 h2, t2 i h1 h2, ite_self]
      rcases torn_foreign vo vf hv hsame (fun i hi => htorn i (by omega)) with hall | hall | hall
      · exfalso
        obtain ⟨i, i1, i2, i3⟩ := hhead
        obtain ⟨j, rfl⟩ := Nat.exists_eq_add_of_le i1
        by_cases hj : j < 92
        · exact i3 (hall j hj)
        · exact i3 ((htail j (by omega) (by omega)).trans (t1 j (by omega) (by omega)).symm)
      · left
        intro i i1 i2
        obtain ⟨j, rfl⟩ := Nat.exists_eq_add_of_le i1
        by_cases hj : j < 92
        · exact hall j hj
        · exact (htail j (by omega) (by omega)).trans (t2 j (by omega) (by omega)).symm
      · exact .inr (.inr hall)
    · exact .inr (.inl hv)
  have hnew := c42_new_partial m' m'' _ sd h k B cfg' dc hs hsd hleft hwk.faults hwk.pos hlb ho (by rw [hlb]; exact hhead)
  rw [hlb] at hnew
  rcases hfin with hf | hf | hf
  · obtain ⟨s3, d3, e, hn, hg⟩ := hnew (.inl hf)
    exact .inl ⟨s3, d3, e, hn, hg⟩
  · obtain ⟨s3, d3, e, hn, hg⟩ := hnew (.inr ⟨hf, hro, hB⟩)
    exact .inl ⟨s3, d3, e, hn, hg⟩
  · exact .inr hf

/-- The setting of C124: `s` is reached in a session on a disk by the rules (C116) whose primary array begins behind the blocks where this
library would put it; the session has written nothing so far, and the backup is written too. `write_inplace` is called and comes to any
end because of the faults `fs`; `dc` is a working device with what is left. -/
structure Spec.FirstWrite (m m' : Mode) (cfg : GptConfig) (n k B : Nat) (d : Dev) (s : GptDisk) (fs : List Fault) (dc : Dev) : Prop where
  session : OnUefi m cfg n k B d s
  unwritten : s.device.data = d.data
  elsewhere : 2 + k ≤ num d.data (1 * cfg.lbSize.usize + 72) 8
  backup : cfg.readonlyBackup = false
  left : dc.data = (writeInplace m' { s with device := { s.device with faults := fs } }).2.device.data
  works : dc.Works

section
variable {m m' m'' : Mode} {cfg cfg' : GptConfig} {n k B : Nat} {d dc : Dev} {s : GptDisk} {fs : List Fault}

/-- **C124**. After the interrupted write a lenient open succeeds, and finds the very table and GUID that the disk had before, or the table
and GUID that were to be written. The one exception is a header block that was written in part and has the checksum of the new header by
chance. -/
theorem c124_first (hw : FirstWrite m m' cfg n k B d s fs dc) (hlb : cfg'.lbSize = cfg.lbSize) (ho : cfg'.onlyValidHeaders = false)
    {s0 : GptDisk} {d0 : Dev} (h0 : openFromDevice m'' cfg' d = (.ok s0, d0)) :
    ∃ h sd, s.tryHeader = .ok h ∧ writeInplace m' (undisturbed s) = (.ok (), sd) ∧
      ((∃ s3 d3, openFromDevice m'' cfg' dc = (.ok s3, d3) ∧
        ((s3.partitions = s0.partitions ∧ s3.guid = s0.guid) ∨ (Numbered (Spec.used s.partitions) s3.partitions ∧ s3.guid = h.diskGuid))) ∨
      Collision (withoutCrc dc.data cfg.lbSize.usize) (withoutCrc sd.device.data cfg.lbSize.usize)) := by
  obtain ⟨h, v⟩ := hw.session.steady
  have u := hw.session.disk
  have hcfg := v.config
  have hs := sane_faults v.sane fs
  obtain ⟨sd, hsd⟩ := undisturbed_writes m' v.sane (by rw [hcfg]; exact hw.session.writable) v.room
  refine ⟨h, sd, header_try v.sane.header, hsd, ?_⟩
  have wd := write_ok (undisturbed_sane v.sane) hsd
  have hlen := wd.length
  have hlen : sd.device.data.length = d.data.length := hlen.trans v.length
  have hlc : dc.data.length = d.data.length := by rw [hw.left, write_length m' hs]; exact v.length
  have hB := v.blocks hw.session.disk.blocks
  have u' := c116_written (undisturbed_sane v.sane) v.table (by show s.config.readonlyBackup = _; rw [hcfg]; exact hw.backup) hB
    (by rw [v.count]; exact u.small) hsd
  have u' : Uefi cfg.lbSize sd.device.data n k B := by
    rw [v.count, show (undisturbed s).config = cfg from hcfg] at u'
    exact u'
  have hpos := lb_le cfg.lbSize
  have hul := u.length
  have hul' := u'.length
  have hlong : 3 * cfg.lbSize.usize ≤ (B + 1) * cfg.lbSize.usize := by
    have := u.front
    have := u.usable
    have := u.behind
    exact Nat.mul_le_mul_right _ (by omega)
  have hlbs : ({ s with device := { s.device with faults := fs } } : GptDisk).config.lbSize = cfg.lbSize := by rw [← hcfg]
  have hcut := cut_head (m' := m') (m'' := m'') (cfg' := cfg') (dc := dc) hs hsd
    (by show PlainHead s.config.lbSize s.device.data; rw [hcfg, hw.unwritten]; exact u.primary.plain)
    (by rw [hlbs]; exact u'.primary.plain) (by show s.config.readonlyBackup = _; rw [hcfg]; exact hw.backup) hB hw.left hw.works (hlb.trans hlbs.symm) ho
  rw [hlbs] at hcut
  rcases hcut with hhead | ⟨s3, d3, e, hn, hg⟩ | hf
  · left
    have ua := u.array.enough
    have q1 := u.front.2
    have q2 := u.usable
    have q3 := u.behind
    have hel := hw.elsewhere
    generalize hst : num d.data (1 * cfg.lbSize.usize + 72) 8 = st at *
    have q4 : (2 + k) * cfg.lbSize.usize ≤ st * cfg.lbSize.usize := Nat.mul_le_mul_right _ hel
    have q5 : (st + k) * cfg.lbSize.usize ≤ (B - k) * cfg.lbSize.usize := Nat.mul_le_mul_right _ (by omega)
    have q6 : (B - k) * cfg.lbSize.usize ≤ B * cfg.lbSize.usize := Nat.mul_le_mul_right _ (by omega)
    rw [Nat.add_mul] at q4 q5
    obtain ⟨s3, d3, e3, hp, hg⟩ := c118_damage (m := m'') (cfg := cfg') (n := n) (k := k) (B := B) (me := 1) (alt := B) (d1 := dc)
      hw.session.works hw.works (by rw [hlb]; exact u) h0 hlc (.inl ⟨rfl, rfl⟩)
      (by rw [hlb]; exact fun i h1 h2 => (hhead i (by omega) (by omega)).trans (by show byteAt s.device.data i = _; rw [hw.unwritten]))
      (by
        rw [hlb, hst]
        intro i h1 h2
        rw [hw.left, ← hw.unwritten]
        have := (c32_confined m' _ h k B hs i (by
          show ¬ InPrimary s.config.lbSize h.numParts.toNat i
          rw [hcfg, v.count]; unfold InPrimary; omega) (by
          show ¬ InBackup s.config.lbSize h.numParts.toNat k B i
          rw [hcfg, v.count]; unfold InBackup; omega)).1
        exact this)
      (.inl ⟨rfl, rfl, fun h => by rw [ho] at h; cases h⟩)
    exact ⟨s3, d3, e3, .inl ⟨hp, hg⟩⟩
  · exact .inl ⟨s3, d3, e, .inr ⟨hn, hg⟩⟩
  · exact .inr hf

/-- **C124**, later writes: after a successful write the primary array is in the block behind the header, where the next write puts it
too, so the hypothesis of `c124_first` no longer holds; the bytes of the old array are still on the disk. -/
theorem c124_later (hs : OnUefi m cfg n k B d s) (hel : 2 + k ≤ num d.data (1 * cfg.lbSize.usize + 72) 8) {s1 : GptDisk}
    (hx : writeInplace m s = (.ok (), s1)) : num s1.device.data (1 * cfg.lbSize.usize + 72) 8 = 2 ∧
      slice s1.device.data (num d.data (1 * cfg.lbSize.usize + 72) 8 * cfg.lbSize.usize) (n * 128) =
        slice d.data (num d.data (1 * cfg.lbSize.usize + 72) 8 * cfg.lbSize.usize) (n * 128) := by
  obtain ⟨h, v⟩ := hs.steady
  have u := hs.disk
  have w := write_ok v.sane hx
  have r := w.regions v.sane
  have hlen : s1.device.data.length = d.data.length := w.length.trans v.length
  have rp := r.head
  rw [v.config] at rp
  have ul := u.length
  have hpos := lb_le cfg.lbSize
  have ua := u.array.enough
  have q1 := u.front.2
  have q2 := u.usable
  have q3 := u.behind
  have uf := u.fits
  have hh := (((readHeaderAt_spec _ _).1 _).mp (read_block (h := rebuiltP k B h) (data := s1.device.data) rfl rfl (by
    have : 2 * cfg.lbSize.usize ≤ (B + 1) * cfg.lbSize.usize := Nat.mul_le_mul_right _ (by omega)
    omega) rp)).2
  refine ⟨by rw [Nat.one_mul]; exact hh.start.symm, ?_⟩
  generalize num d.data (1 * cfg.lbSize.usize + 72) 8 = st at *
  have q4 : (2 + k) * cfg.lbSize.usize ≤ st * cfg.lbSize.usize := Nat.mul_le_mul_right _ hel
  have q5 : (st + k) * cfg.lbSize.usize ≤ (B - k) * cfg.lbSize.usize := Nat.mul_le_mul_right _ (by omega)
  have q6 : (B - k) * cfg.lbSize.usize ≤ B * cfg.lbSize.usize := Nat.mul_le_mul_right _ (by omega)
  rw [Nat.add_mul] at q4 q5
  refine slice_eq_of_byteAt (by omega) (slice_length_of_le (by omega)) fun i hi => ?_
  have e1 := (c32_confined m s h k B v.sane (st * cfg.lbSize.usize + i) (by
    rw [v.config, v.count]; unfold InPrimary; omega) (by
    rw [v.config, v.count]; unfold InBackup; omega)).1
  rw [hx] at e1
  rw [byteAt_slice, if_pos hi]
  refine e1.trans (v.bytes _ ?_ ?_)
  · unfold InPrimary; omega
  · unfold InBackup; omega

end

/-! ## The hypotheses are met -/

/-- A header of a disk of 200 blocks of 512 bytes by another tool: the primary array is in blocks 40 to 71, the usable blocks are 80 to
150. -/
def awayHeader : Header := { exHeader with backupLba := 199, firstUsable := 80, lastUsable := 150, partStart := 40 }

/-- The backup header, with its array in blocks 167 to 198. -/
def awayBackup : Header := { awayHeader with currentLba := 199, backupLba := 1, partStart := 167 }

/-- The array: one partition, in blocks 90 to 99. -/
def awayTable : Bytes := tableBytes [exPart 90 99] 128

def awayFront : Bytes := zeros 512 ++ awayHeader.block (crc32 awayTable) .lb512 ++ zeros 19456

/-- The content of the disk. -/
def awayData : Bytes := awayFront ++ awayTable ++ zeros 48640 ++ awayTable ++ awayBackup.block (crc32 awayTable) .lb512

theorem awayTable_length : awayTable.length = 16384 := tableBytes_length (by decide)

theorem awayFront_length : awayFront.length = 20480 := by
  unfold awayFront
  rw [List.length_append, List.length_append, zeros_length, zeros_length, Header.block_length]
  rfl

theorem awayData_length : awayData.length = 102400 := by
  unfold awayData
  rw [List.length_append, List.length_append, List.length_append, List.length_append, awayFront_length, awayTable_length, zeros_length,
    Header.block_length]
  rfl

theorem slice_mid (a b c : Bytes) {x y : Nat} (hx : a.length = x) (hy : b.length = y) : slice (a ++ b ++ c) x y = b := by
  subst hx hy
  rw [slice_append_left (by rw [List.length_append]), slice_append_right (Nat.le_refl _), Nat.sub_self]
  exact List.take_length

theorem slice_end (a b : Bytes) {x y : Nat} (hx : a.length = x) (hy : b.length = y) : slice (a ++ b) x y = b := by
  have := slice_mid a b [] hx hy
  rw [List.append_nil] at this
  exact this

theorem away_primary : slice awayData 512 512 = awayHeader.block (crc32 awayTable) .lb512 := by
  have e : awayData = zeros 512 ++ awayHeader.block (crc32 awayTable) .lb512 ++ (zeros 19456 ++ awayTable ++ zeros 48640 ++ awayTable ++
      awayBackup.block (crc32 awayTable) .lb512) := by
    unfold awayData awayFront
    simp only [List.append_assoc]
  rw [e]
  exact slice_mid _ _ _ (zeros_length _) (Header.block_length ..)

theorem away_array : slice awayData 20480 16384 = awayTable := by
  have e : awayData = awayFront ++ awayTable ++ (zeros 48640 ++ awayTable ++ awayBackup.block (crc32 awayTable) .lb512) := by
    unfold awayData
    simp only [List.append_assoc]
  rw [e]
  exact slice_mid _ _ _ awayFront_length awayTable_length

theorem away_array2 : slice awayData 85504 16384 = awayTable := by
  unfold awayData
  refine slice_mid _ _ _ ?_ awayTable_length
  rw [List.length_append, List.length_append, awayFront_length, awayTable_length, zeros_length]

theorem away_backup : slice awayData 101888 512 = awayBackup.block (crc32 awayTable) .lb512 := by
  unfold awayData
  refine slice_end _ _ ?_ (Header.block_length ..)
  rw [List.length_append, List.length_append, List.length_append, awayFront_length, awayTable_length, zeros_length]

theorem away_entry : num ((exPart 90 99).asBytes 128) 32 8 = 90 ∧ num ((exPart 90 99).asBytes 128) 40 8 = 99 := by decide +kernel

/-- A slot in use is the first one, with the extent of the partition. -/
theorem away_slot {j : Nat} (hj : j < 128) (hu : InUse awayData (20480 + 128 * j)) :
    j = 0 ∧ num awayData (20480 + 128 * j + 32) 8 = 90 ∧ num awayData (20480 + 128 * j + 40) 8 = 99 := by
  have hl := awayData_length
  have hsl : ∀ x w, x + w ≤ 16384 → slice awayData (20480 + x) w = slice awayTable x w := by
    intro x w hx
    rw [← away_array, slice_slice hx]
  have hj0 : j = 0 := by
    rcases Nat.eq_zero_or_pos j with e | e
    · exact e
    · obtain ⟨i, hi, hne⟩ := hu
      have h1 := hsl (128 * j) 128 (by omega)
      have h2 : slice awayTable (j * 128) 128 = zeros 128 := slice_table_zero (by show 1 ≤ j; omega) hj
      rw [Nat.mul_comm 128 j] at h1
      rw [h2] at h1
      have h3 := byteAt_slice awayData (20480 + j * 128) 128 i
      rw [h1, if_pos (by omega), byteAt_zeros] at h3
      rw [Nat.mul_comm 128 j] at hne
      exact absurd h3.symm hne
  subst hj0
  have h0 : slice awayTable (0 * 128) 128 = (exPart 90 99).asBytes 128 := slice_table_entry (by decide)
  have key : ∀ a, a + 8 ≤ 128 → num awayData (20480 + 128 * 0 + a) 8 = num ((exPart 90 99).asBytes 128) a 8 := by
    intro a ha
    unfold num
    rw [← h0, Nat.mul_zero, Nat.add_zero, hsl a 8 (by omega), slice_slice (by omega), Nat.zero_add]
  exact ⟨rfl, (key 32 (by decide)).trans away_entry.1, (key 40 (by decide)).trans away_entry.2⟩

/-- It is a disk by the rules. -/
theorem away_uefi : Uefi .lb512 awayData 128 32 199 ∧ num awayData (1 * 512 + 72) 8 = 40 := by
  have hl := awayData_length
  obtain ⟨up, hp⟩ := uefiHeader_block (c := awayData) (lb := .lb512) (P := awayHeader) (x := crc32 awayTable) (me := 1) (alt := 199)
    (n := 128) (st := 40) rfl rfl rfl rfl rfl rfl rfl rfl rfl (by rw [hl]; decide) away_primary
    (by show _ = crc32 (slice awayData 20480 16384); rw [away_array])
  obtain ⟨ub, hb⟩ := uefiHeader_block (c := awayData) (lb := .lb512) (P := awayBackup) (x := crc32 awayTable) (me := 199) (alt := 1)
    (n := 128) (st := 167) rfl rfl rfl rfl rfl rfl rfl rfl rfl (by rw [hl]; decide) away_backup
    (by show _ = crc32 (slice awayData 85504 16384); rw [away_array2])
  have hlb : LbSize.lb512.usize = 512 := rfl
  have f1 : num awayData (1 * 512 + 40) 8 = 80 := hp.first.symm
  have f2 : num awayData (1 * 512 + 48) 8 = 150 := hp.last.symm
  have f3 : num awayData (1 * 512 + 72) 8 = 40 := hp.start.symm
  have f4 : num awayData (199 * 512 + 72) 8 = 167 := hb.start.symm
  refine ⟨⟨by rw [hl]; rfl, by decide, ⟨by decide, fun j hj => ?_⟩, up, ub, hp.first.symm.trans hb.first, hp.last.symm.trans hb.last,
    map_toNat_inj (hp.guid.symm.trans hb.guid), ?_, ?_, ?_, ?_, fun j hj hu => ?_, fun i j hij hj hu hv => ?_⟩, f3⟩
  · change 128 * 128 ≤ j * 512 at hj
    omega
  · rw [hlb, f3, f4, show 40 * 512 = 20480 from rfl, show 167 * 512 = 85504 from rfl, show 128 * 128 = 16384 from rfl]
    exact away_array.trans away_array2.symm
  · rw [hlb, f3, f1]
    decide
  · rw [hlb, f1, f2]
    decide
  · rw [hlb, f2, f4]
    decide
  · rw [hlb, f3] at hu ⊢
    obtain ⟨-, e1, e2⟩ := away_slot hj hu
    rw [show 40 * 512 = 20480 from rfl, e1, e2, f1, f2]
    decide
  · rw [hlb, f3] at hv
    have := (away_slot hj hv).1
    omega

theorem away_last : num awayData (1 * 512 + 48) 8 = 150 := by
  obtain ⟨-, hp⟩ := uefiHeader_block (c := awayData) (lb := .lb512) (P := awayHeader) (x := crc32 awayTable) (me := 1) (alt := 199)
    (n := 128) (st := 40) rfl rfl rfl rfl rfl rfl rfl rfl rfl (by rw [awayData_length]; decide) away_primary
    (by show _ = crc32 (slice awayData 20480 16384); rw [away_array])
  exact hp.last.symm

theorem away_inUse : InUse awayData (20480 + 128 * 0) := by
  refine ⟨0, by decide, ?_⟩
  have h0 : slice awayTable (0 * 128) 128 = (exPart 90 99).asBytes 128 := slice_table_entry (by decide)
  have h1 : slice awayData 20480 128 = (exPart 90 99).asBytes 128 := by
    rw [← h0, ← away_array, slice_slice (by decide)]
  have h2 := byteAt_slice awayData 20480 128 0
  rw [h1, if_pos (by decide)] at h2
  rw [Nat.mul_zero, Nat.add_zero, ← h2]
  decide +kernel

/-- A device with it. -/
def awayDev : Dev := ⟨awayData, 0, 102400, [], []⟩

/-- The disk is opened, the partition is removed, and writing is interrupted by any faults: all hypotheses of `c124_first` are met, so that
the disk then opens with the partition or without, but for collisions. -/
example (m : Mode) (fs : List Fault) : ∃ s dc s0 d0 p, FirstWrite m m (GptConfig.new.setWritable true) 128 32 199 awayDev s fs dc ∧
    openFromDevice m (GptConfig.new.setWritable true) awayDev = (.ok s0, d0) ∧ (1, p) ∈ s0.partitions ∧ ∀ q, (1, q) ∉ s.partitions := by
  have hwk : awayDev.Works := ⟨rfl, by show 102400 < 2 ^ 64; decide, Nat.le_of_eq awayData_length, by show 0 < 2 ^ 64; decide⟩
  have hl : awayDev.data.length = 102400 := awayData_length
  have u : Uefi (GptConfig.new.setWritable true).lbSize awayDev.data 128 32 199 := away_uefi.1
  have hst : num awayDev.data (1 * (GptConfig.new.setWritable true).lbSize.usize + 72) 8 = 40 := away_uefi.2
  have h40 : 40 * (GptConfig.new.setWritable true).lbSize.usize = 20480 := rfl
  obtain ⟨s0, d0, h, b, e, -, -, -, -, -, -, -, -, hs, -⟩ := c116_opens m hwk u
  obtain ⟨h', hh', -, -, hdata, hdev, hsort, -⟩ := c45_reflects m _ awayDev d0 s0 e
  obtain ⟨p, hp⟩ := hs 0 (by decide) (by rw [hst, h40]; exact inUse_full away_inUse)
  have hon : OnUefi m (GptConfig.new.setWritable true) 128 32 199 awayDev ((Op.removePartition 1).step m s0).2 :=
    ⟨hwk, by rw [hl]; decide, u, rfl, rfl, fun _ => rfl, .call _ (.start e) trivial⟩
  obtain ⟨h2, v⟩ := hon.steady
  have hdat : ((Op.removePartition 1).step m s0).2.device.data = awayDev.data := by
    show ((removePartition 1 s0 : Res GptError _ × _).2).device.data = _
    unfold removePartition
    split
    · show s0.device.data = _
      rw [hdev, hdata]
    · show s0.device.data = _
      rw [hdev, hdata]
  refine ⟨_, ⟨(writeInplace m { ((Op.removePartition 1).step m s0).2 with device := { ((Op.removePartition 1).step m s0).2.device with faults := fs } }).2.device.data,
    0, 102400, [], []⟩, s0, d0, p, ⟨hon, hdat, by rw [hst]; decide, rfl, rfl, rfl, by show 102400 < 2 ^ 64; decide, ?_, by show 0 < 2 ^ 64; decide⟩, e, hp,
    fun q hq => ?_⟩
  · show List.length _ ≤ 102400
    rw [write_length m (sane_faults v.sane fs)]
    show ((Op.removePartition 1).step m s0).2.device.data.length ≤ _
    rw [hdat, hl]
  · have : ((Op.removePartition 1).step m s0).2.partitions = PMap.remove s0.partitions 1 := by
      show ((removePartition 1 s0 : Res GptError _ × _).2).partitions = _
      unfold removePartition
      split
      · rfl
      · rename_i hn
        have := PMap.get_of_mem hsort hp
        exact absurd (hn.symm.trans this) (by simp)
    rw [this] at hq
    exact (PMap.mem_remove.mp hq).2 rfl

end Gpt
