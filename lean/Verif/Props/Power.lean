import Verif.Props.Mixed
/-!
# Power failure before the flush: C105

`write_inplace` flushes once, at the end (src/lib.rs:969). Until then a cache may have stored any of the blocks written, each as it was
at any moment of the write, in any order. So after a power failure each block by itself is as some interruption of the write leaves it.
-/

namespace Gpt

open Spec GptDisk

/-- The same disk on a device with these faults. -/
def Spec.onFaults (s : GptDisk) (fs : List Fault) : GptDisk := { s with device := { s.device with faults := fs } }

/-- Every block of `data` is as some interruption of the write leaves it. -/
def Spec.Scattered (m : Mode) (s : GptDisk) (data : Bytes) : Prop :=
  data.length = s.device.data.length ∧ ∀ b, ∃ fs, ∀ i, b * s.config.lbSize.usize ≤ i → i < b * s.config.lbSize.usize + s.config.lbSize.usize →
    byteAt data i = byteAt (writeInplace m (onFaults s fs)).2.device.data i

/-- `s` has been written and is `s1` now, with a backup in the last block. `s2` is `s1` with any other table that fits, on any device
with the same content. During the write of `s2` the power failed, and `d` is what is left on the device. -/
structure Spec.PowerCut (m m' : Mode) (s s1 s2 : GptDisk) (h : Header) (k B : Nat) (d : Dev) : Prop where
  sane : SaneDisk s h k B
  written : writeInplace m s = (.ok (), s1)
  backup : s.config.readonlyBackup = false
  last : s.device.data.length / s.config.lbSize.usize = B + 1
  header : s2.header (ε := Empty) = s1.header
  config : s2.config = s1.config
  content : s2.device.data = s1.device.data
  room : (Spec.used s2.partitions).length ≤ h.numParts.toNat
  left : Scattered m' s2 d.data
  faults : d.faults = []
  pos : d.pos < 2 ^ 64

/-- The table found is the old or the new one, or one of the arrays on the device is neither but has the checksum of one of them. -/
def Spec.FoundAfter (s s1 s2 : GptDisk) (h : Header) (k B : Nat) (data final : Bytes) (t : PMap) : Prop :=
  Numbered (Spec.used s.partitions) t ∨ Numbered (Spec.used s2.partitions) t ∨
    ∃ off data', (off = 2 * s.config.lbSize.usize ∨ off = (B - k) * s.config.lbSize.usize) ∧ (data' = s1.device.data ∨ data' = final) ∧
      Collision (slice data off (h.numParts.toNat * 128)) (slice data' off (h.numParts.toNat * 128))

/-- The backup header block is written in one piece. -/
theorem mem_order_back {lb k B n u c : Nat} (h1 : 2 * lb + n * 128 ≤ B * lb) (h2 : (B - k) * lb + n * 128 ≤ B * lb) (h3 : 2 * lb ≤ B * lb)
    (hu : u ≤ n) : ∃ c', ∀ i, i < lb → (B * lb + i ∈ (writeOrder lb k B n u true).take c ↔ i < c') := by
  unfold writeOrder
  simp only [if_true]
  generalize hP : (List.range u).flatMap (fun j => span (2 * lb + 128 * j) 128 ++ span ((B - k) * lb + 128 * j) 128) ++
    span (2 * lb + 128 * u) (128 * (n - u)) ++ span ((B - k) * lb + 128 * u) (128 * (n - u)) = P
  have hlt : ∀ x ∈ P, x < B * lb := by
    intro x hx
    subst hP
    simp only [List.mem_append, List.mem_flatMap, List.mem_range, span, List.mem_range'_1] at hx
    omega
  have hre : (List.range u).flatMap (fun j => span (2 * lb + 128 * j) 128 ++ span ((B - k) * lb + 128 * j) 128) ++
    span (2 * lb + 128 * u) (128 * (n - u)) ++ (span ((B - k) * lb + 128 * u) (128 * (n - u)) ++ span (B * lb) lb) ++ span lb lb =
    P ++ (span (B * lb) lb ++ span lb lb) := by
    rw [← hP]
    simp only [List.append_assoc]
  rw [hre]
  refine ⟨c - P.length, fun i hi => ?_⟩
  rw [List.take_append, List.mem_append, List.take_append, List.mem_append]
  constructor
  · rintro (hx | hx | hx)
    · have := hlt _ (List.mem_of_mem_take hx)
      omega
    · obtain ⟨j, hj, e⟩ := List.mem_iff_getElem.mp hx
      rw [List.length_take] at hj
      unfold span at e hj
      rw [List.getElem_take, List.getElem_range'] at e
      omega
    · have := List.mem_of_mem_take hx
      unfold span at this
      rw [List.mem_range'_1] at this
      omega
  · intro hx
    right; left
    unfold span
    refine List.mem_iff_getElem.mpr ⟨i, by rw [List.length_take, List.length_range']; omega, ?_⟩
    rw [List.getElem_take, List.getElem_range']
    omega

/-- A header block that is torn between two contents with the same fields up to the checksums is invalid or one of the two. -/
theorem torn_block {H : Header} {p q : UInt32} {lb : LbSize} {old final d : Bytes} {off c : Nat} (hsig : H.signature = efiPart)
    (hres : H.reserved = 0) (hlo : off + lb.usize ≤ old.length) (hlf : off + lb.usize ≤ final.length) (hld : off + lb.usize ≤ d.length)
    (ho : slice old off lb.usize = H.block p lb) (hf : slice final off lb.usize = H.block q lb)
    (ht : ∀ i, i < lb.usize → byteAt d (off + i) = if i < c then byteAt final (off + i) else byteAt old (off + i)) (hv : ValidAt d off) :
    slice d off lb.usize = H.block p lb ∨ slice d off lb.usize = H.block q lb := by
  have h512 := lb_le lb
  have hs8 : H.signature.length = 8 := by rw [hsig]; rfl
  have vo := (((readHeaderAt_spec _ _).1 _).mp (read_block hsig hres hlo ho)).1
  have vf := (((readHeaderAt_spec _ _).1 _).mp (read_block hsig hres hlf hf)).1
  have hby : ∀ {data : Bytes} {c : UInt32}, slice data off lb.usize = H.block c lb → ∀ i, i < lb.usize →
      byteAt data (off + i) = byteAt (H.block c lb) i := by
    intro data c e i hi
    rw [← e, byteAt_slice, if_pos hi]
  have hsame : ∀ i, i < lb.usize → i < 16 ∨ (20 ≤ i ∧ i < 88) ∨ 92 ≤ i → byteAt final (off + i) = byteAt old (off + i) := by
    intro i hi hx
    rw [hby hf i hi, hby ho i hi]
    exact byteAt_block_same _ hs8 _ _ _ _ hx
  rcases torn_header vo vf hv (fun i hi => hsame i (by omega) (by omega)) (fun i hi => ht i (by omega)) with hall | hall
  · left
    rw [← ho]
    refine slice_congr hld hlo fun i h1 h2 => ?_
    obtain ⟨j, rfl⟩ := Nat.exists_eq_add_of_le h1
    by_cases hj : j < 92
    · exact hall j hj
    · rw [ht j (by omega), hsame j (by omega) (by omega), ite_self]
  · right
    rw [← hf]
    refine slice_congr hld hlf fun i h1 h2 => ?_
    obtain ⟨j, rfl⟩ := Nat.exists_eq_add_of_le h1
    by_cases hj : j < 92
    · exact hall j hj
    · rw [ht j (by omega), hsame j (by omega) (by omega), ite_self]

/-- Reading on from a header whose checksum is that of a table. -/
theorem openRest_either {m : Mode} {cfg : GptConfig} {h1 h2 : Except HeaderError Header} {h : Header} {d : Dev} {ps : List Partition}
    {off : Nat} (hf : d.faults = []) (ho : h.partStart.toNat * cfg.lbSize.usize = off) (h128 : h.partSize = 128)
    (hn : h.numParts.toNat * 128 < 2 ^ 32) (hl : ps.length ≤ h.numParts.toNat) (hu : ∀ p ∈ ps, p.isUsed = true)
    (hfit : off + h.numParts.toNat * 128 ≤ d.data.length) (hlen : d.data.length < 2 ^ 64)
    (hc : h.crc32Parts = crc32 (tableBytes ps h.numParts.toNat)) :
    (crc32 (slice d.data off (h.numParts.toNat * 128)) = crc32 (tableBytes ps h.numParts.toNat) ∧
      ∃ s' d', openRest m cfg h1 h2 h d = (.ok s', d') ∧ s'.guid = h.diskGuid ∧ (Numbered ps s'.partitions ∨
      Collision (slice d.data off (h.numParts.toNat * 128)) (tableBytes ps h.numParts.toNat))) ∨
    (crc32 (slice d.data off (h.numParts.toNat * 128)) ≠ crc32 (tableBytes ps h.numParts.toNat) ∧
      (openRest m cfg h1 h2 h d).1 = .err (.io (.other "partition table CRC mismatch"))) := by
  by_cases ht : slice d.data off (h.numParts.toNat * 128) = tableBytes ps h.numParts.toNat
  · obtain ⟨p, e⟩ := openRest_stored (m := m) (h1 := h1) (h2 := h2) hf ho h128 hn hl hu hfit hlen ht hc
    exact .inl ⟨by rw [ht], _, _, e, rfl, .inl (numbered_numberFrom (by omega))⟩
  · obtain ⟨p, e⟩ := fileReadPartitions_nil (m := m) (h := h) (lb := cfg.lbSize) hf (by omega) h128 (by omega) (.inr (by omega))
    rw [ho, Nat.mul_comm 128, hc] at e
    unfold openRest
    by_cases hcrc : crc32 (slice d.data off (h.numParts.toNat * 128)) = crc32 (tableBytes ps h.numParts.toNat)
    · rw [if_pos hcrc] at e
      left
      simp only [M.bind_apply, M.mapErr_apply, e, M.get_apply, M.pure_apply]
      exact ⟨hcrc, _, _, rfl, rfl, .inr ⟨ht, hcrc⟩⟩
    · rw [if_neg hcrc] at e
      right
      refine ⟨hcrc, ?_⟩
      rw [M.bind_apply, M.mapErr_apply, e]
      rfl

section
variable {m m' : Mode} {s s1 s2 : GptDisk} {h : Header} {k B : Nat} {d : Dev}

/-- What is known about the contents before and after the interrupted write. -/
structure Spec.PowerCut.Facts (s s1 s2 : GptDisk) (h : Header) (k B : Nat) (data final : Bytes) : Prop where
  length : data.length = s1.device.data.length
  lengthF : final.length = s1.device.data.length
  fits : B * s.config.lbSize.usize + s.config.lbSize.usize ≤ data.length
  sep : 2 * s.config.lbSize.usize + h.numParts.toNat * 128 ≤ (B - k) * s.config.lbSize.usize
  sepB : (B - k) * s.config.lbSize.usize + h.numParts.toNat * 128 ≤ B * s.config.lbSize.usize
  old : Regions s h k B s1.device.data
  head : slice final s.config.lbSize.usize s.config.lbSize.usize =
    (rebuiltP k B h).block (crc32 (tableBytes (Spec.used s2.partitions) h.numParts.toNat)) s.config.lbSize
  array : slice final (2 * s.config.lbSize.usize) (h.numParts.toNat * 128) = tableBytes (Spec.used s2.partitions) h.numParts.toNat
  backHead : slice final (B * s.config.lbSize.usize) s.config.lbSize.usize =
    (rebuiltB k B h).block (crc32 (tableBytes (Spec.used s2.partitions) h.numParts.toNat)) s.config.lbSize
  backArray : slice final ((B - k) * s.config.lbSize.usize) (h.numParts.toNat * 128) = tableBytes (Spec.used s2.partitions) h.numParts.toNat
  tornHead : ∃ c, ∀ i, i < s.config.lbSize.usize → byteAt data (s.config.lbSize.usize + i) =
    if i < c then byteAt final (s.config.lbSize.usize + i) else byteAt s1.device.data (s.config.lbSize.usize + i)
  tornBack : ∃ c, ∀ i, i < s.config.lbSize.usize → byteAt data (B * s.config.lbSize.usize + i) =
    if i < c then byteAt final (B * s.config.lbSize.usize + i) else byteAt s1.device.data (B * s.config.lbSize.usize + i)
  room : (Spec.used s.partitions).length ≤ h.numParts.toNat

theorem Spec.PowerCut.sane2 (hu : PowerCut m m' s s1 s2 h k B d) :
    SaneDisk s2 ((rebuiltP k B h).sealed (Gpt.crc32 (tableBytes (Spec.used s.partitions) h.numParts.toNat))) k B := by
  have hs1 := (write_ok hu.sane hu.written).saneDisk hu.sane
  refine ⟨hu.header.trans hs1.header, ?_, ?_, ?_⟩
  · rw [hu.config]; exact hs1.sane
  · rw [hu.config, hu.content]; exact hs1.fits
  · rw [hu.content]; exact hs1.length

theorem Spec.PowerCut.facts (hu : PowerCut m m' s s1 s2 h k B d) :
    Facts s s1 s2 h k B d.data (writeInplace m' (undisturbed s2)).2.device.data := by
  have w := write_ok hu.sane hu.written
  have g := geo_sane hu.sane.sane hu.sane.fits s.config
  have hs2 := hu.sane2
  have hcfg : s2.config = s.config := hu.config.trans w.rest.config
  obtain ⟨sd, hsd⟩ := undisturbed_writes m' hs2 (by rw [hcfg]; exact w.writable) hu.room
  have wd := write_ok (undisturbed_sane hs2) hsd
  have rd := wd.regions (undisturbed_sane hs2)
  have hsep := g.sep
  have hsepB := g.sepB
  have hfits := g.fits
  have hlen1 := w.length
  have hlend : d.data.length = s1.device.data.length := by rw [hu.left.1, hu.content]
  have hnp : (rebuiltP k B h).numParts = h.numParts := rfl
  rw [hnp] at hsep hsepB
  have hpos := lb_le s.config.lbSize
  rw [hsd]
  have hrdb := rd.backup (by show s2.config.readonlyBackup = false; rw [hcfg]; exact hu.backup)
  have hrdh := rd.head
  have hrda := rd.array
  rw [show (undisturbed s2).config = s.config from hcfg] at hrdb hrdh hrda
  have hcuts : ∀ fs, ∃ c, CutAt (writeOrder s.config.lbSize.usize k B h.numParts.toNat (Spec.used s2.partitions).length true)
      s1.device.data sd.device.data c (writeInplace m' (onFaults s2 fs)).2.device.data := by
    intro fs
    have := c65_only m' m' (onFaults s2 fs) sd _ k B (sane_faults hs2 fs) hsd
    rw [show (onFaults s2 fs).config = s.config from hcfg, show (onFaults s2 fs).device.data = s1.device.data from hu.content, hu.backup] at this
    exact this
  refine ⟨hlend, ?_, by omega, hsep, hsepB, w.regions hu.sane, hrdh, hrda, hrdb.1, hrdb.2, ?_, ?_, w.room⟩
  · rw [wd.length]
    show s2.device.data.length = _
    rw [hu.content]
  · obtain ⟨fs, hb⟩ := hu.left.2 1
    rw [hcfg, Nat.one_mul] at hb
    obtain ⟨c, hc⟩ := hcuts fs
    obtain ⟨c', hc'⟩ := mem_order_head (lb := s.config.lbSize.usize) (k := k) (B := B) (n := h.numParts.toNat)
      (u := (Spec.used s2.partitions).length) (c := c) (backup := true) (by omega) (by omega)
    refine ⟨c', fun i hi => ?_⟩
    rw [hb _ (by omega) (by omega), hc.bytes]
    exact if_congr (hc' i hi) rfl rfl
  · obtain ⟨fs, hb⟩ := hu.left.2 B
    rw [hcfg] at hb
    obtain ⟨c, hc⟩ := hcuts fs
    obtain ⟨c', hc'⟩ := mem_order_back (lb := s.config.lbSize.usize) (k := k) (B := B) (n := h.numParts.toNat)
      (u := (Spec.used s2.partitions).length) (c := c) (by omega) (by omega) (by omega) hu.room
    refine ⟨c', fun i hi => ?_⟩
    rw [hb _ (by omega) (by omega), hc.bytes]
    exact if_congr (hc' i hi) rfl rfl

end

/-- **C105**. After a power failure during an update, whatever blocks were stored, opening (with any configuration) finds the disk GUID
and the old or the new table, unless an array differs from the old or new one and has the same CRC-32; or it reports the checksum of the
array; or it reports a header error, and then one of the headers was torn. -/
theorem c105_outcomes (m m' m'' : Mode) (s s1 s2 : GptDisk) (h : Header) (k B : Nat) (cfg : GptConfig) (d : Dev)
    (hu : PowerCut m m' s s1 s2 h k B d) (hlb : cfg.lbSize = s.config.lbSize) :
    (∃ s3 d3, openFromDevice m'' cfg d = (.ok s3, d3) ∧ s3.guid = h.diskGuid ∧
      FoundAfter s s1 s2 h k B d.data (writeInplace m' (undisturbed s2)).2.device.data s3.partitions) ∨
    (openFromDevice m'' cfg d).1 = .err (.io (.other "partition table CRC mismatch")) ∨
    ((∃ e, (openFromDevice m'' cfg d).1 = .err (.header e)) ∧ ¬ (PrimaryValid cfg.lbSize d.data ∧ BackupValid cfg.lbSize d.data)) := by
  have F := hu.facts
  generalize (writeInplace m' (undisturbed s2)).2.device.data = final at F ⊢
  have hlen := hu.sane.length
  have hlen1 := (write_ok hu.sane hu.written).length
  have f1 := F.length
  have f2 := F.lengthF
  have f3 := F.fits
  have f4 := F.sep
  have f5 := F.sepB
  have hpos := lb_le s.config.lbSize
  have hcount := hu.sane.sane.count
  have hnp : (rebuiltP k B h).numParts = h.numParts := rfl
  have hnb : (rebuiltB k B h).numParts = h.numParts := rfl
  have hstB : (rebuiltB k B h).partStart.toNat * cfg.lbSize.usize = (B - k) * s.config.lbSize.usize := by
    have g := geo_sane hu.sane.sane hu.sane.fits s.config
    have hb : bakOf s.config k B h = some (rebuiltB k B h) := by unfold bakOf; rw [hu.backup]; rfl
    have := (g.bak _ hb).2.2.2.2.2.1
    rw [hlb]
    exact this
  obtain ⟨h1, h2, e1, e2, e3⟩ := openFromDevice_nil m'' cfg hu.faults hu.pos (by omega)
  have hdiv : d.data.length / cfg.lbSize.usize = B + 1 := by rw [hlb, f1, hlen1]; exact hu.last
  have hbo : backupOffset d.data.length cfg.lbSize = B * s.config.lbSize.usize := by
    unfold backupOffset lastBlock
    rw [hdiv, Nat.add_sub_cancel, hlb]
  have h3 : ¬ d.data.length < 3 * cfg.lbSize.usize := by rw [hlb]; omega
  -- the header read is one of two
  have key : ∀ {H : Header} {off oA : Nat} {hd : Header}, H.signature = efiPart → H.reserved = 0 → H.partSize = 128 → H.numParts = h.numParts →
      H.diskGuid = h.diskGuid → H.partStart.toNat * cfg.lbSize.usize = oA → oA + h.numParts.toNat * 128 ≤ d.data.length →
      off + s.config.lbSize.usize ≤ d.data.length →
      slice s1.device.data off s.config.lbSize.usize = H.block (crc32 (tableBytes (Spec.used s.partitions) h.numParts.toNat)) s.config.lbSize →
      slice final off s.config.lbSize.usize = H.block (crc32 (tableBytes (Spec.used s2.partitions) h.numParts.toNat)) s.config.lbSize →
      slice s1.device.data oA (h.numParts.toNat * 128) = tableBytes (Spec.used s.partitions) h.numParts.toNat →
      slice final oA (h.numParts.toNat * 128) = tableBytes (Spec.used s2.partitions) h.numParts.toNat →
      (oA = 2 * s.config.lbSize.usize ∨ oA = (B - k) * s.config.lbSize.usize) →
      (∃ c, ∀ i, i < s.config.lbSize.usize → byteAt d.data (off + i) =
        if i < c then byteAt final (off + i) else byteAt s1.device.data (off + i)) →
      readHeaderAt d.data off = .ok hd →
      (∃ s3 d3, openRest m'' cfg h1 h2 hd d = (.ok s3, d3) ∧ s3.guid = h.diskGuid ∧
        FoundAfter s s1 s2 h k B d.data final s3.partitions) ∨
      (openRest m'' cfg h1 h2 hd d).1 = .err (.io (.other "partition table CRC mismatch")) := by
    intro H off oA hd q1 q2 q3 q4 q5 q6 q7 q8 bo bf ao af hoA ht hr
    obtain ⟨c, ht⟩ := ht
    have hv := (((readHeaderAt_spec _ _).1 _).mp hr).1
    have either : ∀ {ps : List Partition} {data' : Bytes}, (data' = s1.device.data ∨ data' = final) →
        (∀ t, Numbered ps t → Numbered (Spec.used s.partitions) t ∨ Numbered (Spec.used s2.partitions) t) →
        ps.length ≤ h.numParts.toNat → (∀ p ∈ ps, p.isUsed = true) →
        slice data' oA (h.numParts.toNat * 128) = tableBytes ps h.numParts.toNat →
        slice d.data off s.config.lbSize.usize = H.block (crc32 (tableBytes ps h.numParts.toNat)) s.config.lbSize →
        (∃ s3 d3, openRest m'' cfg h1 h2 hd d = (.ok s3, d3) ∧ s3.guid = h.diskGuid ∧ FoundAfter s s1 s2 h k B d.data final s3.partitions) ∨
        (openRest m'' cfg h1 h2 hd d).1 = .err (.io (.other "partition table CRC mismatch")) := by
      intro ps data' hda hps hl hus ha hblk
      have hr' := read_block q1 q2 q8 hblk
      rw [hr] at hr'
      obtain rfl := Res.ok.inj hr'
      rcases openRest_either (m := m'') (cfg := cfg) (h1 := h1) (h2 := h2) (h := H.sealed (crc32 (tableBytes ps h.numParts.toNat))) (d := d)
        (ps := ps) (off := oA) hu.faults q6 q3 (by show H.numParts.toNat * 128 < _; rw [q4]; exact hcount)
        (by show _ ≤ H.numParts.toNat; rw [q4]; exact hl) hus (by show _ + H.numParts.toNat * 128 ≤ _; rw [q4]; exact q7) (by omega)
        (by show crc32 _ = crc32 (tableBytes ps H.numParts.toNat); rw [q4]) with ⟨-, s3, d3, e, hg, hn⟩ | ⟨-, e⟩
      · refine Or.inl ⟨s3, d3, e, hg.trans q5, ?_⟩
        rcases hn with hn | hn
        · rcases hps _ hn with hn | hn
          · exact .inl hn
          · exact .inr (.inl hn)
        · change Collision (slice d.data oA (H.numParts.toNat * 128)) (tableBytes ps H.numParts.toNat) at hn
          rw [q4, ← ha] at hn
          exact .inr (.inr ⟨oA, data', hoA, hda, hn⟩)
      · exact Or.inr e
    rcases torn_block q1 q2 (by omega) (by omega) q8 bo bf ht hv with hb | hb
    · exact either (.inl rfl) (fun t ht => .inl ht) F.room (fun p hp => used_isUsed hp) ao hb
    · exact either (.inr rfl) (fun t ht => .inr ht) hu.room (fun p hp => used_isUsed hp) af hb
  have hvalP : ∀ {hd}, h1 = .ok hd → readHeaderAt d.data s.config.lbSize.usize = .ok hd := by
    intro hd hh
    rw [hh, hlb] at e1
    exact e1.symm
  have hvalB : ∀ {hd}, h2 = .ok hd → readHeaderAt d.data (B * s.config.lbSize.usize) = .ok hd := by
    intro hd hh
    rw [hh, readBackupAt, if_neg h3, hbo] at e2
    exact e2.symm
  rw [e3]
  cases hsel : selectHeader cfg.onlyValidHeaders h1 h2 with
  | error e =>
    refine .inr (.inr ⟨⟨e, rfl⟩, ?_⟩)
    rintro ⟨v1, v2⟩
    obtain ⟨k1, v1'⟩ := validAt_header v1
    obtain ⟨k2, v2'⟩ := validAt_header v2.2
    have r1 : h1 = .ok k1 := by
      rw [← ofExcept_ok, e1]
      exact ((readHeaderAt_spec _ _).1 k1).mpr ⟨v1, v1'⟩
    have r2 : h2 = .ok k2 := by
      rw [← ofExcept_ok, e2, readBackupAt, if_neg h3]
      exact ((readHeaderAt_spec _ _).1 k2).mpr ⟨v2.2, v2'⟩
    rw [r1, r2] at hsel
    cases hsel
  | ok hd =>
    simp only
    rcases (select_spec.1 hd).mp hsel with ⟨r, -⟩ | ⟨-, -, r⟩
    · rcases key (H := rebuiltP k B h) (oA := 2 * s.config.lbSize.usize) rfl rfl rfl rfl rfl (by rw [hlb]; rfl) (by omega) (by omega)
        F.old.head F.head F.old.array F.array (.inl rfl) F.tornHead (hvalP r) with x | x
      · exact .inl x
      · exact .inr (.inl x)
    · have ob := F.old.backup hu.backup
      rcases key (H := rebuiltB k B h) (oA := (B - k) * s.config.lbSize.usize) rfl rfl rfl rfl rfl hstB (by omega) f3
        ob.1 F.backHead ob.2 F.backArray (.inr rfl) F.tornBack (hvalB r) with x | x
      · exact .inl x
      · exact .inr (.inl x)

/-- **C105**, a stored header: if the primary header block was stored before or after the change (`data'`), opening succeeds exactly when
the primary array has the checksum that the array has in the same content. -/
theorem c105_whole (m m' m'' : Mode) (s s1 s2 : GptDisk) (h : Header) (k B : Nat) (cfg : GptConfig) (d : Dev)
    (hu : PowerCut m m' s s1 s2 h k B d) (hlb : cfg.lbSize = s.config.lbSize) (data' : Bytes)
    (hX : data' = s1.device.data ∨ data' = (writeInplace m' (undisturbed s2)).2.device.data)
    (hhead : slice d.data s.config.lbSize.usize s.config.lbSize.usize = slice data' s.config.lbSize.usize s.config.lbSize.usize)
    (hv : cfg.onlyValidHeaders = true → BackupValid cfg.lbSize d.data) :
    (crc32 (slice d.data (2 * s.config.lbSize.usize) (h.numParts.toNat * 128)) =
        crc32 (slice data' (2 * s.config.lbSize.usize) (h.numParts.toNat * 128)) →
      ∃ s3 d3, openFromDevice m'' cfg d = (.ok s3, d3)) ∧
    (crc32 (slice d.data (2 * s.config.lbSize.usize) (h.numParts.toNat * 128)) ≠
        crc32 (slice data' (2 * s.config.lbSize.usize) (h.numParts.toNat * 128)) →
      (openFromDevice m'' cfg d).1 = .err (.io (.other "partition table CRC mismatch"))) := by
  have F := hu.facts
  generalize (writeInplace m' (undisturbed s2)).2.device.data = final at F hX
  have hlen := hu.sane.length
  have hlen1 := (write_ok hu.sane hu.written).length
  have f1 := F.length
  have f3 := F.fits
  have f4 := F.sep
  have f5 := F.sepB
  have hcount := hu.sane.sane.count
  have hps : ∃ ps : List Partition, ps.length ≤ h.numParts.toNat ∧ (∀ p ∈ ps, p.isUsed = true) ∧
      slice data' s.config.lbSize.usize s.config.lbSize.usize = (rebuiltP k B h).block (crc32 (tableBytes ps h.numParts.toNat)) s.config.lbSize ∧
      slice data' (2 * s.config.lbSize.usize) (h.numParts.toNat * 128) = tableBytes ps h.numParts.toNat := by
    rcases hX with rfl | rfl
    · exact ⟨_, F.room, fun p hp => used_isUsed hp, F.old.head, F.old.array⟩
    · exact ⟨_, hu.room, fun p hp => used_isUsed hp, F.head, F.array⟩
  obtain ⟨ps, hl, hus, hb, ha⟩ := hps
  obtain ⟨h1, h2, e1, e2, e3⟩ := openFromDevice_nil m'' cfg hu.faults hu.pos (by omega)
  have hread := read_block (h := rebuiltP k B h) (data := d.data) rfl rfl (by omega) (hhead.trans hb)
  rw [← hlb, ← e1, ofExcept_ok] at hread
  have hsel : selectHeader cfg.onlyValidHeaders h1 h2 = .ok ((rebuiltP k B h).sealed (crc32 (tableBytes ps h.numParts.toNat))) := by
    rw [select_spec.1]
    refine .inl ⟨hread, fun ho => ?_⟩
    obtain ⟨k1, k2⟩ := hv ho
    obtain ⟨q, hq⟩ := validAt_header k2
    refine ⟨q, ?_⟩
    rw [← ofExcept_ok, e2, readBackupAt, if_neg (by omega)]
    exact ((readHeaderAt_spec _ _).1 q).mpr ⟨k2, hq⟩
  rw [e3, hsel, ha]
  simp only
  rcases openRest_either (m := m'') (cfg := cfg) (h1 := h1) (h2 := h2)
    (h := (rebuiltP k B h).sealed (crc32 (tableBytes ps h.numParts.toNat))) (d := d) (ps := ps) (off := 2 * s.config.lbSize.usize) hu.faults
    (by rw [hlb]; rfl) rfl hcount hl hus (by show _ + h.numParts.toNat * 128 ≤ _; omega) (by omega) rfl with ⟨hc, s3, d3, e, -⟩ | ⟨hc, e⟩
  · exact ⟨fun _ => ⟨s3, d3, e⟩, fun hn => absurd hc hn⟩
  · exact ⟨fun hn => absurd hn hc, fun _ => e⟩

/-- **C105**, the order of the writes is no protection: if the tables have different checksums, the power failure can leave the new
primary header and nothing else of the update, and the disk cannot be opened. -/
theorem c105_order (m m' : Mode) (s s1 s2 : GptDisk) (h : Header) (k B : Nat) (hs : SaneDisk s h k B)
    (hw : writeInplace m s = (.ok (), s1)) (hro : s.config.readonlyBackup = false)
    (hlast : s.device.data.length / s.config.lbSize.usize = B + 1) (hh : s2.header (ε := Empty) = s1.header) (hc : s2.config = s1.config)
    (hd : s2.device.data = s1.device.data) (hroom : (Spec.used s2.partitions).length ≤ h.numParts.toNat)
    (hcap : (B + 1) * s.config.lbSize.usize ≤ s2.device.cap)
    (hne : crc32 (slice s1.device.data (2 * s.config.lbSize.usize) (h.numParts.toNat * 128)) ≠
      crc32 (slice (writeInplace m' (undisturbed s2)).2.device.data (2 * s.config.lbSize.usize) (h.numParts.toNat * 128))) :
    ∃ data, Scattered m' s2 data ∧
      (∀ i, i < s.config.lbSize.usize ∨ 2 * s.config.lbSize.usize ≤ i → byteAt data i = byteAt s1.device.data i) ∧
      ∀ m'' cfg d, cfg.lbSize = s.config.lbSize → d.data = data → d.faults = [] → d.pos < 2 ^ 64 →
        (openFromDevice m'' cfg d).1 = .err (.io (.other "partition table CRC mismatch")) := by
  have w := write_ok hs hw
  have hs1 := w.saneDisk hs
  have hcfg : s2.config = s.config := hc.trans w.rest.config
  have hs2 : SaneDisk s2 ((rebuiltP k B h).sealed (Gpt.crc32 (tableBytes (Spec.used s.partitions) h.numParts.toNat))) k B :=
    ⟨hh.trans hs1.header, by rw [hc]; exact hs1.sane, by rw [hc, hd]; exact hs1.fits, by rw [hd]; exact hs1.length⟩
  obtain ⟨sd, hsd⟩ := undisturbed_writes m' hs2 (by rw [hcfg]; exact w.writable) hroom
  have wd := write_ok (undisturbed_sane hs2) hsd
  have hlend : sd.device.data.length = s1.device.data.length := wd.length.trans (congrArg List.length hd)
  have hfits := hs.fits
  have hlen := w.length
  have hB : 3 ≤ B + 1 := by
    have g := geo_sane hs.sane hs.fits s.config
    have h1 := g.sep
    have h2 := g.sepB
    have hpos := lb_le s.config.lbSize
    by_contra hlt
    have : B * s.config.lbSize.usize ≤ 1 * s.config.lbSize.usize := Nat.mul_le_mul_right _ (by omega)
    omega
  have hlast' : (B + 1) * s.config.lbSize.usize ≤ s.device.data.length := by
    rw [← hlast]
    exact Nat.div_mul_le_self _ _
  have h3 : 3 * s.config.lbSize.usize ≤ (B + 1) * s.config.lbSize.usize := Nat.mul_le_mul_right _ hB
  have hpos := lb_le s.config.lbSize
  have hsl : (slice sd.device.data s.config.lbSize.usize s.config.lbSize.usize).length = s.config.lbSize.usize := by
    rw [slice_length]
    omega
  have hcut := fun c => c65_all m' m' s2 sd _ k B hs2 hsd (by rw [hcfg]; exact hcap) c
  have hin : ∀ i, s.config.lbSize.usize ≤ i → i < 2 * s.config.lbSize.usize →
      i ∈ writeOrder s.config.lbSize.usize k B h.numParts.toNat (Spec.used s2.partitions).length true := by
    intro i h1 h2
    unfold writeOrder
    rw [List.mem_append]
    right
    unfold span
    rw [List.mem_range'_1]
    omega
  have hbytes : ∀ i, byteAt (patch s1.device.data s.config.lbSize.usize (slice sd.device.data s.config.lbSize.usize s.config.lbSize.usize)) i =
      if s.config.lbSize.usize ≤ i ∧ i < 2 * s.config.lbSize.usize then byteAt sd.device.data i else byteAt s1.device.data i := by
    intro i
    rw [byteAt_patch, hsl]
    by_cases hi : s.config.lbSize.usize ≤ i ∧ i < 2 * s.config.lbSize.usize
    · rw [if_pos (by omega), if_pos hi, byteAt_slice, if_pos (by omega)]
      congr 1
      omega
    · rw [if_neg (by omega), if_neg hi]
  have hleft : Scattered m' s2 (patch s1.device.data s.config.lbSize.usize (slice sd.device.data s.config.lbSize.usize s.config.lbSize.usize)) := by
    refine ⟨by rw [patch_length, hsl, hd]; omega, fun b => ?_⟩
    rw [hcfg]
    by_cases hb : b = 1
    · obtain ⟨fs, e, s', hf, hcb⟩ := hcut (writeOrder s.config.lbSize.usize k B h.numParts.toNat (Spec.used s2.partitions).length true).length
      refine ⟨fs, fun i h1 h2 => ?_⟩
      subst hb
      have := hcb.bytes i
      rw [hcfg, hro] at this
      change byteAt s'.device.data i = if i ∈ List.take _ (writeOrder s.config.lbSize.usize k B h.numParts.toNat _ true) then _ else _ at this
      rw [List.take_length, if_pos (hin i (by omega) (by omega))] at this
      rw [hbytes, if_pos (by omega), ← this]
      unfold onFaults
      rw [hf]
    · obtain ⟨fs, e, s', hf, hcb⟩ := hcut 0
      refine ⟨fs, fun i h1 h2 => ?_⟩
      have := hcb.bytes i
      rw [List.take_zero, if_neg (by simp)] at this
      rw [hbytes, if_neg, ← hd, ← this]
      · unfold onFaults
        rw [hf]
      · rintro ⟨h4, h5⟩
        rcases Nat.lt_or_gt_of_ne hb with hb | hb
        · obtain rfl : b = 0 := by omega
          omega
        · have : 2 * s.config.lbSize.usize ≤ b * s.config.lbSize.usize := Nat.mul_le_mul_right _ hb
          omega
  refine ⟨_, hleft, fun i hi => by rw [hbytes, if_neg (by omega)], fun m'' cfg d hlb e hf hp => ?_⟩
  have hu : PowerCut m m' s s1 s2 h k B d := ⟨hs, hw, hro, hlast, hh, hc, hd, hroom, by rw [e]; exact hleft, hf, hp⟩
  have F := hu.facts
  rw [hsd] at hne F
  have f3 := F.fits
  have f4 := F.sep
  have f5 := F.sepB
  have f1 := F.length
  refine (c105_whole m m' m'' s s1 s2 h k B cfg d hu hlb sd.device.data (.inr (by rw [hsd])) ?_ fun _ => ?_).2 ?_
  · rw [e]
    have := slice_patch_self s1.device.data s.config.lbSize.usize (slice sd.device.data s.config.lbSize.usize s.config.lbSize.usize)
    rw [hsl] at this
    exact this
  · have hblk : slice d.data (B * s.config.lbSize.usize) s.config.lbSize.usize =
        (rebuiltB k B h).block (crc32 (tableBytes (Spec.used s.partitions) h.numParts.toNat)) s.config.lbSize := by
      rw [← (F.old.backup hro).1]
      refine slice_congr f3 (by omega) fun i h1 h2 => ?_
      rw [e, hbytes, if_neg (by omega)]
    have hr := read_block (h := rebuiltB k B h) rfl rfl f3 hblk
    refine ⟨by rw [hlb]; omega, ?_⟩
    have hbo : backupOffset d.data.length cfg.lbSize = B * s.config.lbSize.usize := by
      unfold backupOffset lastBlock
      rw [hlb, f1, hlen, hlast, Nat.add_sub_cancel]
    show ValidAt d.data (backupOffset d.data.length cfg.lbSize)
    rw [hbo]
    exact (((readHeaderAt_spec _ _).1 _).mp hr).1
  · have : slice d.data (2 * s.config.lbSize.usize) (h.numParts.toNat * 128) = slice s1.device.data (2 * s.config.lbSize.usize) (h.numParts.toNat * 128) :=
      slice_congr (by omega) (by omega) fun i h1 h2 => by rw [e, hbytes, if_neg (by omega)]
    rw [this]
    exact hne

/-- **C105**, user data: no byte outside the metadata is touched. -/
theorem c105_untouched (m m' : Mode) (s s1 s2 : GptDisk) (h : Header) (k B : Nat) (d : Dev) (hu : PowerCut m m' s s1 s2 h k B d) (i : Nat)
    (h1 : ¬ InPrimary s.config.lbSize h.numParts.toNat i) (h2 : ¬ InBackup s.config.lbSize h.numParts.toNat k B i) :
    byteAt d.data i = byteAt s1.device.data i := by
  have hcfg : s2.config = s.config := hu.config.trans (write_ok hu.sane hu.written).rest.config
  have hpos := lb_pos s.config.lbSize
  obtain ⟨fs, hb⟩ := hu.left.2 (i / s.config.lbSize.usize)
  have hm := Nat.div_add_mod i s.config.lbSize.usize
  have hlt := Nat.mod_lt i hpos
  rw [Nat.mul_comm] at hm
  rw [hcfg] at hb
  rw [hb i (by omega) (by omega), ← hu.content]
  have hc : (onFaults s2 fs).config = s.config := hcfg
  exact (c32_confined m' (onFaults s2 fs) _ k B (sane_faults hu.sane2 fs) i (by rw [hc]; exact h1) (by rw [hc]; exact h2)).1

/-- The hypotheses of `c105_order` are met: the small disk is written, a flag is changed, and the power fails during the second write. -/
example (m : Mode) : ∃ s1 s2 data, writeInplace m (smallDisk [(1, smallPart)]) = (.ok (), s1) ∧ Spec.used s2.partitions = [flaggedPart] ∧
    Scattered m s2 data ∧ ∀ m'' cfg, cfg.lbSize = .lb512 →
      PowerCut m m (smallDisk [(1, smallPart)]) s1 s2 smallHeader 1 9 ⟨data, 0, 5120, [], []⟩ ∧
      (openFromDevice m'' cfg ⟨data, 0, 5120, [], []⟩).1 = .err (.io (.other "partition table CRC mismatch")) := by
  obtain ⟨s1, hw1, hl1, hl0⟩ := smallDisk_written m [(1, smallPart)] (by decide)
  have w1 := write_ok (smallDisk_sane _) hw1
  have hs1 := w1.saneDisk (smallDisk_sane _)
  let s : GptDisk := { s1 with partitions := [(1, flaggedPart)] }
  have hs : SaneDisk s _ 1 9 := ⟨hs1.header, hs1.sane, hs1.fits, hs1.length⟩
  have hcfg : s.config = (smallDisk []).config := w1.rest.config
  obtain ⟨sd, hd⟩ := undisturbed_writes m hs (by rw [hcfg]; rfl) (by show 1 ≤ 4; decide)
  have wd := write_ok (undisturbed_sane hs) hd
  have hdiv : (smallDisk [(1, smallPart)]).device.data.length / (smallDisk [(1, smallPart)]).config.lbSize.usize = 9 + 1 := by rw [hl0]; rfl
  have ho := (w1.regions (smallDisk_sane _)).array
  have hn := (wd.regions (undisturbed_sane hs)).array
  rw [show (undisturbed s).config = (smallDisk []).config from hcfg] at hn
  change slice sd.device.data 1024 512 = tableBytes [flaggedPart] 4 at hn
  obtain ⟨data, h1, -, h3⟩ := c105_order m m (smallDisk [(1, smallPart)]) s1 s smallHeader 1 9 (smallDisk_sane _) hw1 rfl hdiv rfl rfl rfl
    (by show 1 ≤ 4; decide) (by rw [show s.device.cap = s1.device.cap from rfl, w1.cap]; show 10 * 512 ≤ 5120; decide) (by
      rw [ho, hd]
      change _ ≠ crc32 (slice sd.device.data 1024 512)
      rw [hn]
      show crc32 (tableBytes [smallPart] 4) ≠ crc32 (tableBytes [flaggedPart] 4)
      decide +kernel)
  exact ⟨s1, s, data, hw1, rfl, h1, fun m'' cfg hl => ⟨⟨smallDisk_sane _, hw1, rfl, hdiv, rfl, rfl, rfl, by show 1 ≤ 4; decide, h1, rfl,
    by show 0 < 2 ^ 64; decide⟩, h3 m'' cfg _ hl rfl rfl (by show 0 < 2 ^ 64; decide)⟩⟩

end Gpt
