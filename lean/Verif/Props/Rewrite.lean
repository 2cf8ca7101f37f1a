import Verif.Props.Write
import Verif.Lemmas.Steps
/-!
# Writing again: C36, C37, C43, and what C31 needs
-/

namespace Gpt

open Spec GptDisk

namespace GptDisk

section
variable {s s' : GptDisk} {h : Header} {k B : Nat}

/-- A written disk is sane, with the header that was written. -/
theorem Written.sane (hs : SaneDisk s h k B) (w : Written s h k B s') (c : UInt32) :
    SaneHeader s.config.lbSize k B ((rebuiltP k B h).sealed c) := by
  obtain ⟨hB, hkB⟩ := sane_bounds hs.sane
  have hf := hs.sane.first
  have hu := hs.sane.usable
  have hl := hs.sane.last
  have e : ((rebuiltP k B h).sealed c).lastUsable.toNat = B - k - 1 := ofNat64 (by omega)
  refine ⟨rfl, hs.sane.count, hs.sane.arrays, .inl ⟨rfl, ofNat64 hB⟩, hf, ?_, ?_⟩
  · rw [e]
    show h.firstUsable.toNat ≤ _
    omega
  · rw [e]; omega

theorem Written.saneDisk (hs : SaneDisk s h k B) (w : Written s h k B s') :
    SaneDisk s' ((rebuiltP k B h).sealed (Gpt.crc32 (tableBytes (Spec.used s.partitions) h.numParts.toNat))) k B := by
  refine ⟨?_, ?_, ?_, ?_⟩
  · unfold GptDisk.header tryHeader
    rw [w.primary]
  · rw [w.rest.config]
    exact w.sane hs _
  · rw [w.rest.config, w.length]
    exact hs.fits
  · rw [w.length]; exact hs.length

/-- Writing over the final content changes nothing. -/
theorem finalByte_final {lb : LbSize} {ph : Header} {bh : Option Header} {parts : List Partition} {oB oH : Nat} {data data' : Bytes}
    (hb : ∀ i, byteAt data' i = finalByte lb ph bh parts oB oH data i) (i : Nat) :
    finalByte lb ph bh parts oB oH data' i = byteAt data' i := by
  rw [hb i]
  unfold finalByte
  split
  · rfl
  · rename_i h1
    split
    · rfl
    · rename_i h2
      have e := hb i
      unfold finalByte at e
      rw [if_neg h1, if_neg h2] at e
      cases bh with
      | none => exact e
      | some b =>
        simp only at e ⊢
        split
        · rfl
        · rename_i h3
          split
          · rfl
          · rename_i h4
            rw [if_neg h3, if_neg h4] at e
            exact e

/-- A write over a device that already has the final content leaves every byte, whatever its outcome. -/
theorem write_same (m : Mode) (hs : SaneDisk s h k B)
    (hb : ∀ i, finalByte s.config.lbSize (rebuiltP k B h) (bakOf s.config k B h) ((Spec.used s.partitions).take h.numParts.toNat)
      ((B - k) * s.config.lbSize.usize) (B * s.config.lbSize.usize) s.device.data i = byteAt s.device.data i) :
    (writeInplace m s).2.device.data = s.device.data := by
  refine bytes_ext (write_length m hs) fun i _ => ?_
  rcases write_bytes m hs i with e | e
  · exact e
  · rw [e, hb i]

end

end GptDisk

/-! ## C36 -/

/-- **C36**, bytes. A second `write_inplace` right after a successful one changes no byte, whatever its outcome (the device may
fail at any call in the meantime: `fs` is any fault schedule, `p` any position). -/
theorem c36_bytes (m m' : Mode) (s s' : GptDisk) (h : Header) (k B : Nat) (fs : List Fault) (p : Nat) (hs : SaneDisk s h k B)
    (hok : writeInplace m s = (.ok (), s')) :
    (writeInplace m' { s' with device := { s'.device with faults := fs, pos := p } }).2.device.data = s'.device.data := by
  have w := write_ok hs hok
  have hs' := w.saneDisk hs
  refine write_same (s := { s' with device := { s'.device with faults := fs, pos := p } }) m' ⟨hs'.header, hs'.sane, hs'.fits, hs'.length⟩ fun i => ?_
  show finalByte s'.config.lbSize (rebuiltP k B h) (bakOf s'.config k B h) ((Spec.used s'.partitions).take h.numParts.toNat)
      ((B - k) * s'.config.lbSize.usize) (B * s'.config.lbSize.usize) s'.device.data i = byteAt s'.device.data i
  rw [w.rest.config, w.rest.partitions, List.take_of_length_le w.room]
  exact finalByte_final w.bytes i

/-- **C36**. Without further faults the second call succeeds and leaves the bytes and the whole in-memory state as they were. -/
theorem c36_idempotent (m m' : Mode) (s s' : GptDisk) (h : Header) (k B : Nat) (hs : SaneDisk s h k B)
    (hok : writeInplace m s = (.ok (), s')) (hf : s'.device.faults = [])
    (hcap : (B + 1) * s.config.lbSize.usize ≤ s.device.cap) :
    ∃ s2, writeInplace m' s' = (.ok (), s2) ∧ s2.device.data = s'.device.data ∧
      s2.primaryHeader = s'.primaryHeader ∧ s2.backupHeader = s'.backupHeader ∧ s2.partitions = s'.partitions ∧
      s2.guid = s'.guid ∧ s2.config = s'.config ∧ s2.syncAll = s'.syncAll := by
  have w := write_ok hs hok
  have hs' := w.saneDisk hs
  have hok2 := c62_write_succeeds m' s' _ k B hs' (by rw [w.rest.config]; exact w.writable)
    (by rw [w.rest.partitions]; exact w.room) hf (by rw [w.rest.config, w.cap]; exact hcap)
  have hdata := c36_bytes m m' s s' h k B s'.device.faults s'.device.pos hs hok
  rcases hx : writeInplace m' s' with ⟨r, s2⟩
  rw [hx] at hok2
  simp only at hok2
  subst hok2
  have hdata : (writeInplace m' s').2.device.data = s'.device.data := hdata
  rw [hx] at hdata
  have w2 := write_ok hs' hx
  refine ⟨s2, rfl, hdata, ?_, ?_, w2.rest.partitions, w2.rest.guid, w2.rest.config, w2.rest.syncAll⟩
  · rw [w2.primary, w.primary, w.rest.partitions]
    rfl
  · rw [w2.backup, w.rest.config]
    split
    · rfl
    · rename_i hro
      rw [w.backup, if_neg hro, w.rest.partitions]
      rfl

/-- The fault list stays empty: a disk on a working device can be written over and over. -/
theorem c36_faults (m : Mode) (s : GptDisk) (h : Header) (k B : Nat) (hs : SaneDisk s h k B) (hf : s.device.faults = []) :
    (writeInplace m s).2.device.faults = [] := (write_follows m hs).faults hf

/-- The small disk, written twice; the second time the device fails at some call, or at none. -/
example (m : Mode) (fs : List Fault) : ∃ s', writeInplace m (smallDisk [(1, smallPart), (3, smallPart)]) = (.ok (), s') ∧
    (writeInplace m { s' with device := { s'.device with faults := fs, pos := 0 } }).2.device.data = s'.device.data := by
  obtain ⟨s', hw, -, -⟩ := smallDisk_written m [(1, smallPart), (3, smallPart)] (by decide)
  exact ⟨s', hw, c36_bytes m m _ s' smallHeader 1 9 fs 0 (smallDisk_sane _) hw⟩

/-! ## C37 -/

/-- **C37** in full: opening what was written and writing it back at once leaves every byte. -/
def C37 : Prop := ∀ (m m1 m2 : Mode) (s s' s2 s3 : GptDisk) (h : Header) (k B : Nat) (cfg : GptConfig) (d d2 : Dev),
  SaneDisk s h k B → writeInplace m s = (.ok (), s') → d.data = s'.device.data → d.faults = [] → d.pos < 2 ^ 64 →
  cfg.lbSize = s.config.lbSize → openFromDevice m1 cfg d = (.ok s2, d2) → writeInplace m2 s2 = (.ok (), s3) →
  s3.device.data = s'.device.data

/-- A name whose stored form reads back and encodes again to the same bytes: it is stored whole, or cut after exactly 36 units
between two characters; nothing before the cut is NUL. -/
def Spec.Clean (cs : List Char) : Prop :=
  ∃ pre rest, cs = pre ++ rest ∧ (∀ c ∈ pre, c.toNat ≠ 0) ∧ totalWidth pre ≤ 36 ∧ (rest = [] ∨ totalWidth pre = 36)

theorem Spec.clean_of_storable {cs : List Char} (h : Storable cs) : Clean cs :=
  ⟨cs, [], by simp, h.2, h.1, .inl rfl⟩

theorem storedName_cut (n : Nat) (pre rest : List Char) (h : totalWidth pre = n) (h0 : ∀ c ∈ pre, c.toNat ≠ 0) :
    storedName n (pre ++ rest) = pre := by
  induction pre generalizing n with
  | nil =>
    have : n = 0 := h.symm
    subst this
    cases rest with
    | nil => rfl
    | cons c cs =>
      have : ¬ width c ≤ 0 := by unfold width; split <;> omega
      simp [storedName, this]
  | cons c pre ih =>
    simp only [totalWidth, List.map_cons, List.sum_cons] at h
    rw [List.cons_append, storedName, if_neg (h0 c (by simp)), if_pos (by omega)]
    rw [ih (n - width c) (by simp only [totalWidth]; omega) (fun d hd => h0 d (by simp [hd]))]

theorem flatMap_encode_length (cs : List Char) : (cs.flatMap encodeChar).length = totalWidth cs := by
  induction cs with
  | nil => rfl
  | cons c cs ih =>
    rw [List.flatMap_cons, List.length_append, ih, encodeChar_length]
    simp [totalWidth]

theorem clean_units {cs : List Char} (h : Clean cs) :
    ((storedName 36 cs).flatMap encodeChar).take 36 = (cs.flatMap encodeChar).take 36 := by
  obtain ⟨pre, rest, rfl, h0, hw, hr⟩ := h
  rcases hr with rfl | hr
  · rw [List.append_nil, storedName_of_fits _ _ hw h0]
  · rw [storedName_cut 36 pre rest hr h0, List.flatMap_append, List.take_append, flatMap_encode_length, hr, Nat.sub_self, List.take_zero, List.append_nil]

theorem storedPart_asBytes {p : Partition} (h : Clean p.name.toList) : (storedPart p).asBytes 128 = p.asBytes 128 := by
  rw [Partition.asBytes_128, Partition.asBytes_128]
  have : (encodeUtf16 (storedPart p).name).take 36 = (encodeUtf16 p.name).take 36 := by
    unfold encodeUtf16 storedPart
    rw [String.toList_ofList]
    exact clean_units h
  rw [this]
  simp only [storedPart, PType.ofGuid_guid]

theorem used_numberFrom (i : Nat) (ps : List Partition) (hu : ∀ p ∈ ps, p.isUsed = true) :
    Spec.used (numberFrom i ps) = ps.map storedPart := by
  unfold Spec.used
  rw [numberFrom_parts, List.filter_eq_self]
  intro q hq
  rw [List.mem_map] at hq
  obtain ⟨p, hp, rfl⟩ := hq
  have := hu p hp
  simp only [storedPart, PType.ofGuid_guid]
  exact this

theorem tableBytes_stored {ps : List Partition} (n : Nat) (h : ∀ p ∈ ps, Clean p.name.toList) :
    tableBytes (ps.map storedPart) n = tableBytes ps n := by
  unfold tableBytes
  rw [List.length_map]
  congr 1
  induction ps with
  | nil => rfl
  | cons p ps ih =>
    rw [List.map_cons, List.flatMap_cons, List.flatMap_cons, storedPart_asBytes (h p (by simp)), ih fun q hq => h q (by simp [hq])]

theorem finalByte_stored {lb : LbSize} {ph : Header} {bh : Option Header} {ps : List Partition} {oB oH : Nat} {data : Bytes}
    (h : ∀ p ∈ ps, Clean p.name.toList) (i : Nat) :
    finalByte lb ph bh (ps.map storedPart) oB oH data i = finalByte lb ph bh ps oB oH data i := by
  unfold finalByte blockOf
  simp only [tableBytes_stored _ h]

/-- Without the backup, over the final content. -/
theorem finalByte_none {lb : LbSize} {ph : Header} {bh : Option Header} {parts : List Partition} {oB oH : Nat} {data data' : Bytes}
    (hb : ∀ i, byteAt data' i = finalByte lb ph bh parts oB oH data i) (i : Nat) :
    finalByte lb ph none parts oB oH data' i = byteAt data' i := by
  unfold finalByte
  split
  · rename_i h1
    rw [hb i]; unfold finalByte; rw [if_pos h1]
  · rename_i h1
    split
    · rename_i h2
      rw [hb i]; unfold finalByte; rw [if_neg h1, if_pos h2]
    · rfl

/-- The state that opening a written device gives. -/
theorem open_written {m m' : Mode} {s s' : GptDisk} {h : Header} {k B : Nat} {cfg : GptConfig} {d : Dev} (hs : SaneDisk s h k B)
    (hok : writeInplace m s = (.ok (), s')) (hd : d.data = s'.device.data) (hf : d.faults = []) (hp : d.pos < 2 ^ 64)
    (hlb : cfg.lbSize = s.config.lbSize) (hv : cfg.onlyValidHeaders = true → BackupValid cfg.lbSize d.data) :
    ∃ h2 p, openFromDevice m' cfg d = (.ok (openedState cfg { d with pos := p }
      (.ok ((rebuiltP k B h).sealed (crc32 (tableBytes (Spec.used s.partitions) h.numParts.toNat)))) h2
      ((rebuiltP k B h).sealed (crc32 (tableBytes (Spec.used s.partitions) h.numParts.toNat))) (Spec.used s.partitions)),
      { d with pos := p }) := by
  have w := write_ok hs hok
  have r := w.regions hs
  have g := geo_sane hs.sane hs.fits s.config
  have s1 := g.sep
  have s2 := g.sepB
  have s3 := g.fits
  have hn : (rebuiltP k B h).numParts = h.numParts := rfl
  rw [hn] at s1 s2
  have hlen := hs.length
  have hlen' := w.length
  rw [← hd] at r hlen'
  obtain ⟨h2, p, -, e⟩ := open_primary (m := m') (cfg := cfg) (d := d) (P := rebuiltP k B h) (ps := Spec.used s.partitions) hf hp
    (by omega) rfl rfl rfl rfl hs.sane.count w.room (fun p hp => used_isUsed hp) (by rw [hlb, hn]; omega) (by rw [hlb]; exact r.head)
    (by rw [hlb]; exact r.array) hv
  exact ⟨h2, p, e⟩

/-- The opened state is sane. -/
theorem opened_sane {m : Mode} {s s' : GptDisk} {h : Header} {k B : Nat} {cfg : GptConfig} {d : Dev} (hs : SaneDisk s h k B)
    (hok : writeInplace m s = (.ok (), s')) (hd : d.data = s'.device.data) (hlb : cfg.lbSize = s.config.lbSize)
    (h2 : Except HeaderError Header) (p : Nat) (c : UInt32) (ps : List Partition) :
    SaneDisk (openedState cfg { d with pos := p } (.ok ((rebuiltP k B h).sealed c)) h2 ((rebuiltP k B h).sealed c) ps)
      ((rebuiltP k B h).sealed c) k B := by
  have w := write_ok hs hok
  refine ⟨rfl, ?_, ?_, ?_⟩
  · show SaneHeader cfg.lbSize _ _ _
    rw [hlb]; exact w.sane hs c
  · show (B + 1) * cfg.lbSize.usize ≤ d.data.length
    rw [hlb, hd, w.length]; exact hs.fits
  · show d.data.length < _
    rw [hd, w.length]; exact hs.length

/-- **C37**, partial: names must be `Clean` (shorter than 36 units without NUL, or cut between two characters), and a backup that
the first write left alone must be left alone by the second. Then the device opens, and writing it back leaves every byte,
whatever happens during that write (`fs` is any fault schedule). Missing: names with an embedded NUL or cut inside a character,
for which the claim is false (`c37_fails`). -/
theorem c37_partial (m m1 m2 : Mode) (s s' : GptDisk) (h : Header) (k B : Nat) (cfg : GptConfig) (d : Dev) (hs : SaneDisk s h k B)
    (hok : writeInplace m s = (.ok (), s')) (hd : d.data = s'.device.data) (hf : d.faults = []) (hp : d.pos < 2 ^ 64)
    (hlb : cfg.lbSize = s.config.lbSize) (hv : cfg.onlyValidHeaders = true → BackupValid cfg.lbSize d.data)
    (hnames : ∀ p ∈ Spec.used s.partitions, Clean p.name.toList)
    (hro : cfg.readonlyBackup = true ∨ s.config.readonlyBackup = false) :
    ∃ s2 d2, openFromDevice m1 cfg d = (.ok s2, d2) ∧
      (∀ fs, (writeInplace m2 { s2 with device := { s2.device with faults := fs } }).2.device.data = s'.device.data) ∧
      (cfg.writable = true → (B + 1) * cfg.lbSize.usize ≤ d.cap → (writeInplace m2 s2).1 = .ok ()) := by
  have w := write_ok hs hok
  obtain ⟨h2, p, e⟩ := open_written (m' := m1) hs hok hd hf hp hlb hv
  have hs2 := opened_sane hs hok hd hlb h2 p (crc32 (tableBytes (Spec.used s.partitions) h.numParts.toNat)) (Spec.used s.partitions)
  have hused := used_numberFrom 0 (Spec.used s.partitions) fun p hp => used_isUsed hp
  refine ⟨_, _, e, fun fs => ?_, fun hw hcap => ?_⟩
  · rw [← hd]
    refine write_same m2 (k := k) (B := B) (h := (rebuiltP k B h).sealed (crc32 (tableBytes (Spec.used s.partitions) h.numParts.toNat)))
      ⟨hs2.header, hs2.sane, hs2.fits, hs2.length⟩ fun i => ?_
    show finalByte cfg.lbSize (rebuiltP k B h) (bakOf cfg k B h) ((Spec.used (numberFrom 0 (Spec.used s.partitions))).take h.numParts.toNat)
      ((B - k) * cfg.lbSize.usize) (B * cfg.lbSize.usize) d.data i = byteAt d.data i
    rw [hused, List.take_of_length_le (by rw [List.length_map]; exact w.room), finalByte_stored hnames, hd, hlb]
    cases hc : cfg.readonlyBackup with
    | true =>
      have : bakOf cfg k B h = none := by unfold bakOf; rw [hc]; rfl
      rw [this]
      exact finalByte_none w.bytes i
    | false =>
      rw [hc] at hro
      have hro : s.config.readonlyBackup = false := by simpa using hro
      have : bakOf cfg k B h = bakOf s.config k B h := by unfold bakOf; rw [hc, hro]
      rw [this]
      exact finalByte_final w.bytes i
  · refine c62_write_succeeds m2 _ _ k B hs2 hw ?_ hf hcap
    show (Spec.used (numberFrom 0 (Spec.used s.partitions))).length ≤ h.numParts.toNat
    rw [hused, List.length_map]
    exact w.room

/-- Any storable name will do. -/
example (m m1 m2 : Mode) : ∃ s' s2 d2, writeInplace m (smallDisk [(1, smallPart), (4, smallPart)]) = (.ok (), s') ∧
    openFromDevice m1 (GptConfig.new.setWritable true) ⟨s'.device.data, 0, 5120, [], []⟩ = (.ok s2, d2) ∧
    (writeInplace m2 s2).1 = .ok () ∧ (writeInplace m2 s2).2.device.data = s'.device.data := by
  obtain ⟨s', hw, hl, -⟩ := smallDisk_written m [(1, smallPart), (4, smallPart)] (by decide)
  obtain ⟨s2, d2, e, h1, h2⟩ := c37_partial m m1 m2 _ s' smallHeader 1 9 (GptConfig.new.setWritable true)
    ⟨s'.device.data, 0, 5120, [], []⟩ (smallDisk_sane _) hw rfl rfl (by show 0 < 2 ^ 64; decide) rfl
    (fun hc => by cases hc) (fun p hp => by
      have : p = smallPart := by
        have hu : Spec.used (smallDisk [(1, smallPart), (4, smallPart)]).partitions = [smallPart, smallPart] := by decide
        rw [hu] at hp
        simpa using hp
      subst this
      exact clean_of_storable ⟨by decide, by decide⟩) (.inr rfl)
  exact ⟨s', s2, d2, hw, e, h2 rfl (by show 10 * 512 ≤ 5120; decide), h1 s2.device.faults⟩

/-- The name of this partition is NUL, `b`. -/
def nulPart : Partition := { smallPart with name := "\x00b" }

/-- **C37** is false: a name with a NUL in it is stored whole and read back only up to the NUL, so that writing it back clears the
rest. -/
theorem c37_fails : ¬ C37 := by
  intro hc
  obtain ⟨s', hw, hl, -⟩ := smallDisk_written .release [(1, nulPart)] (by decide)
  have hs := smallDisk_sane [(1, nulPart)]
  have w := write_ok hs hw
  obtain ⟨h2, p, e⟩ := open_written (m' := .release) (cfg := GptConfig.new.setWritable true) (d := ⟨s'.device.data, 0, 5120, [], []⟩)
    hs hw rfl rfl (by show 0 < 2 ^ 64; decide) rfl (fun hc => by cases hc)
  have hs2 := opened_sane (cfg := GptConfig.new.setWritable true) (d := ⟨s'.device.data, 0, 5120, [], []⟩) hs hw rfl rfl h2 p
    (crc32 (tableBytes (Spec.used (smallDisk [(1, nulPart)]).partitions) smallHeader.numParts.toNat))
    (Spec.used (smallDisk [(1, nulPart)]).partitions)
  have hu : Spec.used (smallDisk [(1, nulPart)]).partitions = [nulPart] := by decide
  rw [hu] at e hs2
  generalize hst : openedState _ _ _ _ _ _ = s2 at e hs2
  have hparts : s2.partitions = numberFrom 0 [nulPart] := by rw [← hst]; rfl
  have hcfg : s2.config = GptConfig.new.setWritable true := by rw [← hst]; rfl
  have hdev : s2.device = ⟨s'.device.data, p, 5120, [], []⟩ := by rw [← hst]; rfl
  have hu2 : Spec.used s2.partitions = [storedPart nulPart] := by rw [hparts]; decide
  have hok2 := c62_write_succeeds .release s2 _ 1 9 hs2 (by rw [hcfg]; rfl) (by rw [hu2]; decide) (by rw [hdev])
    (by rw [hcfg, hdev]; show 10 * 512 ≤ 5120; decide)
  rcases hx : writeInplace .release s2 with ⟨r, s3⟩
  rw [hx] at hok2
  simp only at hok2
  subst hok2
  have w2 := (write_ok hs2 hx).regions hs2
  have w1 := w.regions hs
  have hdata := hc _ _ _ _ _ _ _ _ _ _ _ ⟨s'.device.data, 0, 5120, [], []⟩ _ hs hw rfl rfl (by show 0 < 2 ^ 64; decide) rfl e hx
  have a1 := w1.array
  have a2 := w2.array
  rw [hdata, hcfg, hu2] at a2
  rw [hu] at a1
  have : tableBytes [nulPart] 4 = tableBytes [storedPart nulPart] 4 := a1.symm.trans a2
  have := congrArg (fun b => byteAt b 58) this
  revert this
  decide

end Gpt
