import Verif.Props.Mbr
import Verif.Props.Write
/-!
# The protective MBR and the GPT side by side: C71, C72
-/

namespace Gpt

open Spec GptDisk

/-! ## C71: a new protective MBR -/

/-- The protective MBR of UEFI 2.10, section 5.2.3, for a disk with `n` blocks after the first (`n` below 2^32): no boot code, one
record of type EE that starts at block 1 and has `n` blocks, three empty records, and the signature. -/
def Spec.protectiveMbr (n : Nat) : List Nat :=
  List.replicate 446 0 ++
  [0x00, 0x00, 0x02, 0x00, 0xEE, 0xFF, 0xFF, 0xFF, 1, 0, 0, 0, n % 256, n / 256 % 256, n / 256 / 256 % 256, n / 256 / 256 / 256 % 256] ++
  List.replicate 48 0 ++ [0x55, 0xAA]

theorem record_bytes (n : UInt32) : (PartRecord.newProtective (some n)).toBytes.map UInt8.toNat =
    [0x00, 0x00, 0x02, 0x00, 0xEE, 0xFF, 0xFF, 0xFF, 1, 0, 0, 0, n.toNat % 256, n.toNat / 256 % 256, n.toNat / 256 / 256 % 256,
      n.toNat / 256 / 256 / 256 % 256] := by
  have h1 : le32 (1 : UInt32) = [1, 0, 0, 0] := by decide
  simp only [PartRecord.toBytes, PartRecord.newProtective, h1, Option.getD_some, le32, leBytes, List.map_append, List.map_cons,
    List.map_nil, UInt8.toNat_ofNat', Nat.reducePow, Nat.mod_mod]
  rfl

theorem withRecord_bytes (o : Option UInt32) : (ProtectiveMbr.withRecord o).toBytes =
    zeros 446 ++ (PartRecord.newProtective o).toBytes ++ zeros 48 ++ [0x55, 0xAA] := by
  have h1 : PartRecord.zero.toBytes = zeros 16 := by decide
  have h2 : le16 (0 : UInt16) = zeros 2 := by decide
  simp only [ProtectiveMbr.toBytes, ProtectiveMbr.withRecord, h1, h2, mbrSignature, List.append_assoc]
  have h3 : ∀ (a b : Nat) (l : Bytes), zeros a ++ (zeros b ++ l) = zeros (a + b) ++ l := by
    intro a b l
    unfold zeros
    rw [← List.append_assoc, List.replicate_append_replicate]
  rw [h3, h3, h3, h3]

/-- **C71**. `ProtectiveMBR::with_lb_size(n)` and `new()` are the protective MBR of the UEFI specification, byte for byte. -/
theorem c71_layout (n : UInt32) :
    (ProtectiveMbr.withLbSize n).toBytes.map UInt8.toNat = Spec.protectiveMbr n.toNat ∧
    ProtectiveMbr.new.toBytes.map UInt8.toNat = Spec.protectiveMbr 0xFFFFFFFF := by
  have key : ∀ n : UInt32, (ProtectiveMbr.withRecord (some n)).toBytes.map UInt8.toNat = Spec.protectiveMbr n.toNat := by
    intro n
    rw [withRecord_bytes, List.map_append, List.map_append, List.map_append, record_bytes]
    unfold zeros protectiveMbr
    rw [List.map_replicate, List.map_replicate]
    rfl
  exact ⟨key n, key 0xFFFFFFFF⟩

/-- **C71**, as a value: the record of a new MBR that covers the disk, and empty others, by `partition(i)`. -/
theorem c71_records (n : UInt32) :
    (∃ r, (ProtectiveMbr.withLbSize n).partition 0 = some r ∧ r.osType = 0xEE ∧ r.lbStart = 1 ∧ r.lbSize = n ∧ r.bootIndicator = 0) ∧
    (∀ i, 0 < i → i < 4 → (ProtectiveMbr.withLbSize n).partition i = some PartRecord.zero) ∧
    (∀ i, 4 ≤ i → (ProtectiveMbr.withLbSize n).partition i = none) := by
  refine ⟨⟨_, rfl, rfl, rfl, rfl, rfl⟩, fun i h1 h2 => ?_, fun i hi => ?_⟩
  · have : i = 1 ∨ i = 2 ∨ i = 3 := by omega
    rcases this with rfl | rfl | rfl <;> rfl
  · obtain ⟨k, rfl⟩ : ∃ k, i = k + 4 := ⟨i - 4, by omega⟩
    rfl

example : (ProtectiveMbr.withLbSize 0x01020304).toBytes.length = 512 ∧ byteAt (ProtectiveMbr.withLbSize 0x01020304).toBytes 458 = 4 := by
  refine ⟨(ProtectiveMbr.withLbSize _).toBytes_length, ?_⟩
  decide +kernel

/-! ## C72: MBR and GPT do not disturb each other -/

/-- Two devices without faults that agree from `lo` on, positioned at the same place not before `lo`. -/
structure Agree (lo : Nat) (d d' : Dev) : Prop where
  faults : d.faults = []
  faults' : d'.faults = []
  length : d'.data.length = d.data.length
  pos : d'.pos = d.pos
  low : lo ≤ d.pos
  bytes : ∀ i, lo ≤ i → byteAt d'.data i = byteAt d.data i

/-- `x` gives the same on devices that agree. -/
def M.Twin {ε α : Type} (lo : Nat) (x : M Dev ε α) : Prop :=
  ∀ d d', Agree lo d d' → (x d').1 = (x d).1 ∧ Agree lo (x d).2 (x d').2

theorem M.Twin.bind {ε α β : Type} {lo : Nat} {x : M Dev ε α} {f : α → M Dev ε β} (hx : M.Twin lo x) (hf : ∀ a, M.Twin lo (f a)) :
    M.Twin lo (x >>= f) := by
  intro d d' ha
  obtain ⟨h1, h2⟩ := hx d d' ha
  rw [M.bind_apply, M.bind_apply]
  rcases e1 : x d with ⟨r, d1⟩
  rcases e2 : x d' with ⟨r', d1'⟩
  rw [e1, e2] at h1 h2
  simp only at h1 h2
  subst h1
  cases r' with
  | ok a => exact hf a d1 d1' h2
  | err e => exact ⟨rfl, h2⟩
  | panic => exact ⟨rfl, h2⟩

theorem M.Twin.lift {ε α : Type} {lo : Nat} (r : Res ε α) : M.Twin lo (M.lift r : M Dev ε α) := fun _ _ h => ⟨rfl, h⟩
theorem M.Twin.pure {ε α : Type} {lo : Nat} (a : α) : M.Twin lo (Pure.pure a : M Dev ε α) := fun _ _ h => ⟨rfl, h⟩
theorem M.Twin.throw {ε α : Type} {lo : Nat} (e : ε) : M.Twin lo (M.throw e : M Dev ε α) := fun _ _ h => ⟨rfl, h⟩
theorem M.Twin.panic {ε α : Type} {lo : Nat} : M.Twin lo (M.panic : M Dev ε α) := fun _ _ h => ⟨rfl, h⟩

theorem seekStart_twin {lo : Nat} {n : UInt64} (hn : lo ≤ n.toNat) : M.Twin lo (Dev.seekStart n) := by
  intro d d' h
  rw [Dev.seekStart_nil h.faults, Dev.seekStart_nil h.faults']
  exact ⟨rfl, h.faults, h.faults', h.length, rfl, hn, h.bytes⟩

theorem readExact_twin {lo n : Nat} : M.Twin lo (Dev.readExact n) := by
  intro d d' h
  have hlow := h.low
  by_cases h0 : n = 0
  · subst h0
    exact ⟨rfl, h⟩
  by_cases hl : d.pos + n ≤ d.data.length
  · have hl' : d'.pos + n ≤ d'.data.length := by rw [h.pos, h.length]; exact hl
    rw [Dev.readExact_nil h.faults hl, Dev.readExact_nil h.faults' hl']
    refine ⟨?_, h.faults, h.faults', h.length, ?_, ?_, h.bytes⟩
    · simp only [h.pos, Res.ok.injEq]
      exact slice_congr (by rw [h.length]; exact hl) hl fun i hi _ => h.bytes i (by omega)
    · show d'.pos + n = d.pos + n; rw [h.pos]
    · show lo ≤ d.pos + n; omega
  · have hl' : ¬ d'.pos + n ≤ d'.data.length := by rw [h.pos, h.length]; exact hl
    rw [Dev.readExact_nil_err h.faults h0 hl, Dev.readExact_nil_err h.faults' h0 hl']
    refine ⟨rfl, h.faults, h.faults', h.length, ?_, ?_, h.bytes⟩
    · show max d'.pos d'.data.length = _; rw [h.pos, h.length]
    · show lo ≤ max d.pos d.data.length; omega

theorem readEntries_twin {lo : Nat} (m : Mode) : ∀ n i e parts, M.Twin lo (readEntries m n i e parts) := by
  intro n
  induction n with
  | zero => intro i e parts; exact M.Twin.pure _
  | succ n ih =>
    intro i e parts
    unfold readEntries
    refine M.Twin.bind readExact_twin fun b => ?_
    split
    · exact M.Twin.bind (M.Twin.lift _) fun _ => ih _ _ _
    · exact M.Twin.bind (M.Twin.lift _) fun _ => ih _ _ _

theorem fileReadPartitions_same {m : Mode} {h : Header} {lb : LbSize} {d d' : Dev} (hf : d.faults = []) (hf' : d'.faults = [])
    (hl : d'.data.length = d.data.length) (hb : ∀ i, lb.usize ≤ i → byteAt d'.data i = byteAt d.data i) (hs : h.partStart ≠ 0) :
    (fileReadPartitions m h lb d').1 = (fileReadPartitions m h lb d).1 := by
  unfold fileReadPartitions
  unfold checkedMul64
  split
  · rename_i hlt
    have hstart : lb.usize ≤ (h.partStart * lb.u64).toNat := by
      rw [UInt64.toNat_mul, Nat.mod_eq_of_lt hlt, lb_u64_toNat]
      have : 0 < h.partStart.toNat := Nat.pos_of_ne_zero fun h0 => hs (UInt64.toNat_inj.mp h0)
      exact Nat.le_mul_of_pos_left _ this
    simp only [M.bind_apply, M.lift_apply, Res.ofOption_some]
    rw [Dev.seekStart_nil hf, Dev.seekStart_nil hf']
    simp only
    have ha : Agree lb.usize { d with pos := (h.partStart * lb.u64).toNat } { d' with pos := (h.partStart * lb.u64).toNat } :=
      ⟨hf, hf', hl, rfl, hstart, hb⟩
    have key : M.Twin lb.usize (if h.partSize ≠ 128 then M.panic else do
        let parts ← readEntries m h.numParts.toNat 0 0 []
        let _ ← Dev.seekStart (h.partStart * lb.u64)
        let ptLen ← M.lift (Res.ofOption (.other "partitions - size") (checkedMul64 h.numParts.toUInt64 h.partSize.toUInt64))
        let table ← Dev.readExact ptLen.toNat
        if crc32 table ≠ h.crc32Parts then M.throw (.other "partition table CRC mismatch") else pure parts : M Dev IoErr PMap) := by
      split
      · exact M.Twin.panic
      · refine M.Twin.bind (readEntries_twin m _ _ _ _) fun _ => M.Twin.bind (seekStart_twin hstart) fun _ =>
          M.Twin.bind (M.Twin.lift _) fun _ => M.Twin.bind readExact_twin fun _ => ?_
        split
        · exact M.Twin.throw _
        · exact M.Twin.pure _
    exact (key _ _ ha).1
  · rfl

theorem readHeaderAt_same {data data' : Bytes} {off : Nat} (hl : data'.length = data.length)
    (hb : ∀ i, off ≤ i → byteAt data' i = byteAt data i) : readHeaderAt data' off = readHeaderAt data off := by
  unfold readHeaderAt
  rw [hl]
  split
  · rename_i h
    rw [slice_congr (by omega) h fun i hi _ => hb i hi]
  · rfl

/-- The two results of opening are the same but for the device that the disk holds. -/
def Spec.SameOpened : Res GptError GptDisk → Res GptError GptDisk → Prop
  | .ok s, .ok s' => s' = { s with device := s'.device }
  | .err e, .err e' => e' = e
  | .panic, .panic => True
  | _, _ => False

/-- **C72**, reading. What `open_from_device` gives does not depend on block 0, unless a header on the device claims that the partition
array starts there. -/
theorem c72_block0 (m : Mode) (cfg : GptConfig) (d d' : Dev) (hf : d.faults = []) (hf' : d'.faults = []) (hp : d.pos < 2 ^ 64)
    (hp' : d'.pos < 2 ^ 64) (hlen : d.data.length < 2 ^ 64) (hl : d'.data.length = d.data.length)
    (hb : ∀ i, cfg.lbSize.usize ≤ i → byteAt d'.data i = byteAt d.data i)
    (hstart : ∀ h off, off = cfg.lbSize.usize ∨ off = lastBlockOffset cfg.lbSize d.data → ValidAt d.data off → HeaderAt d.data off h →
      h.partStart ≠ 0) :
    SameOpened (openFromDevice m cfg d).1 (openFromDevice m cfg d').1 := by
  obtain ⟨h1, h2, e1, e2, e3⟩ := openFromDevice_nil m cfg hf hp hlen
  obtain ⟨k1, k2, f1, f2, f3⟩ := openFromDevice_nil m cfg hf' hp' (by rw [hl]; exact hlen)
  have inj : ∀ {x y : Except HeaderError Header}, Res.ofExcept x = Res.ofExcept y → x = y := by
    intro x y h
    cases x <;> cases y <;> simp [Res.ofExcept] at h <;> rw [h]
  have hoff : ¬ d.data.length < 3 * cfg.lbSize.usize → cfg.lbSize.usize ≤ backupOffset d.data.length cfg.lbSize := by
    intro h3
    have hpos := lb_pos cfg.lbSize
    have : 3 ≤ d.data.length / cfg.lbSize.usize := (Nat.le_div_iff_mul_le hpos).mpr (by omega)
    unfold backupOffset lastBlock
    exact Nat.le_mul_of_pos_left _ (by omega)
  have g1 : readHeaderAt d'.data cfg.lbSize.usize = readHeaderAt d.data cfg.lbSize.usize := readHeaderAt_same hl hb
  have g2 : readBackupAt d'.data cfg.lbSize = readBackupAt d.data cfg.lbSize := by
    unfold readBackupAt
    rw [hl]
    split
    · rfl
    · rename_i h3
      exact readHeaderAt_same hl fun i hi => hb i (Nat.le_trans (hoff h3) hi)
  rw [g1, ← e1] at f1
  rw [g2, ← e2] at f2
  obtain rfl := inj f1
  obtain rfl := inj f2
  rw [e3, f3]
  cases hsel : selectHeader cfg.onlyValidHeaders k1 k2 with
  | error e => rfl
  | ok h =>
    have hne : h.partStart ≠ 0 := by
      rcases select_spec.1 h |>.mp hsel with ⟨rfl, -⟩ | ⟨-, -, rfl⟩
      · obtain ⟨v1, v2⟩ := ((readHeaderAt_spec _ _).1 h).mp e1.symm
        exact hstart h _ (.inl rfl) v1 v2
      · unfold readBackupAt at e2
        split at e2
        · cases e2
        · obtain ⟨v1, v2⟩ := ((readHeaderAt_spec _ _).1 h).mp e2.symm
          exact hstart h _ (.inr rfl) v1 v2
    have hr := fileReadPartitions_same (m := m) hf hf' hl hb hne
    simp only
    unfold openRest
    simp only [M.bind_apply, M.mapErr_apply]
    rcases q1 : fileReadPartitions m h cfg.lbSize d with ⟨r, d1⟩
    rcases q2 : fileReadPartitions m h cfg.lbSize d' with ⟨r', d1'⟩
    rw [q1, q2] at hr
    simp only at hr
    subst hr
    cases r' <;> simp [Res.mapErr, M.get_apply, M.pure_apply, SameOpened]

/-- What any of the four functions that write to the MBR can leave on `d`, whatever happens. -/
def Spec.MbrWritten (d : Dev) (data : Bytes) : Prop :=
  (∃ b : ByteArr 440, data = (writeBootcode b d).2.data) ∨ (∃ b : ByteArr 4, data = (writeDiskSignature b d).2.data) ∨
  (∃ m : ProtectiveMbr, data = (m.overwriteLba0 d).2.data) ∨ (∃ m : ProtectiveMbr, data = (m.updateConservative d).2.data)

theorem mbrWritten_bytes {d : Dev} {data : Bytes} (h : MbrWritten d data) (i : Nat) (hi : 512 ≤ i) :
    byteAt data i = byteAt d.data i := by
  rcases h with ⟨b, rfl⟩ | ⟨b, rfl⟩ | ⟨b, rfl⟩ | ⟨b, rfl⟩
  · exact (c52_confined_bootcode b d i).resolve_right fun h => by omega
  · exact (c52_confined_disk_signature b d i).resolve_right fun h => by omega
  · exact (c52_confined_overwrite b d i).resolve_right fun h => by omega
  · exact (c52_confined_conservative b d i).resolve_right fun h => by omega

/-- A device of at least 512 bytes keeps its length. -/
def Keeps (d d' : Dev) : Prop := 512 ≤ d.data.length → d'.data.length = d.data.length

theorem keeps_chain : M.Chain Keeps where
  refl _ := fun _ => rfl
  trans _ _ _ h1 h2 := fun h => by rw [h2 (by rw [h1 h]; exact h), h1 h]

theorem quiet_keeps {d d' : Dev} (h : Dev.Quiet d d') : Keeps d d' := fun _ => by rw [h.data]

theorem writeAll_keeps {bs : Bytes} {d : Dev} (h : d.pos + bs.length ≤ 512) : Keeps d (Dev.writeAll bs d).2 := by
  intro hl
  obtain ⟨k, hk, h1, -⟩ := Dev.writeAll_any bs d
  rw [h1]
  rw [Dev.put_data]
  split
  · rfl
  · rw [patch_length, List.length_take]
    omega

theorem flush_keeps (d : Dev) : Keeps d (Dev.flush d).2 := by
  intro _
  unfold Dev.flush
  split <;> rfl

theorem writeAt_keeps (off : UInt64) (b : Bytes) (h : off.toNat + b.length ≤ 512) (d : Dev) : Keeps d (writeAt off b d).2 := by
  have C := keeps_chain
  unfold writeAt
  refine M.Pres.bind' C (quiet_keeps (Dev.streamPosition_quiet d)) fun cur d1 h1 => ?_
  refine M.Pres.bind' C (quiet_keeps (Dev.seekStart_quiet off d1)) fun _ d2 h2 => ?_
  obtain ⟨_, e2, _⟩ := Dev.seekStart_ok h2
  refine M.Pres.bind' C (writeAll_keeps (by rw [e2]; exact h)) fun _ d3 _ => ?_
  refine M.Pres.bind' C (flush_keeps d3) fun _ d4 _ => ?_
  exact M.Pres.bind' C (quiet_keeps (Dev.seekStart_quiet _ d4)) fun _ d5 _ => C.refl _

theorem updateConservative_keeps (m : ProtectiveMbr) (d : Dev) : Keeps d (m.updateConservative d).2 := by
  have C := keeps_chain
  unfold ProtectiveMbr.updateConservative
  refine M.Pres.bind' C (quiet_keeps (Dev.streamPosition_quiet d)) fun cur d1 h1 => ?_
  refine M.Pres.bind' C (quiet_keeps (Dev.seekStart_quiet 446 d1)) fun _ d2 h2 => ?_
  rw [M.mapErr_ok] at h2
  obtain ⟨_, e2, _⟩ := Dev.seekStart_ok h2
  have p2 : d2.pos = 446 := by rw [e2]; rfl
  refine M.Pres.bind' C (writeAll_keeps (by simp [p2])) fun _ d3 h3 => ?_
  rw [M.mapErr_ok] at h3
  have p3 : d3.pos = 462 := by rw [(Dev.writeAll_ok h3).2.1, p2]; simp
  refine M.Pres.bind' C (writeAll_keeps (by simp [p3])) fun _ d4 h4 => ?_
  rw [M.mapErr_ok] at h4
  have p4 : d4.pos = 478 := by rw [(Dev.writeAll_ok h4).2.1, p3]; simp
  refine M.Pres.bind' C (writeAll_keeps (by simp [p4])) fun _ d5 h5 => ?_
  rw [M.mapErr_ok] at h5
  have p5 : d5.pos = 494 := by rw [(Dev.writeAll_ok h5).2.1, p4]; simp
  refine M.Pres.bind' C (writeAll_keeps (by simp [p5])) fun _ d6 h6 => ?_
  rw [M.mapErr_ok] at h6
  have p6 : d6.pos = 510 := by rw [(Dev.writeAll_ok h6).2.1, p5]; simp
  refine M.Pres.bind' C (writeAll_keeps (by simp [p6, m.signature.2])) fun _ d7 h7 => ?_
  refine M.Pres.bind' C (flush_keeps d7) fun _ d8 _ => ?_
  exact M.Pres.bind' C (quiet_keeps (Dev.seekStart_quiet _ d8)) fun _ d9 _ => C.refl _

theorem mbrWritten_length {d : Dev} {data : Bytes} (h : MbrWritten d data) (hl : 512 ≤ d.data.length) :
    data.length = d.data.length := by
  rcases h with ⟨b, rfl⟩ | ⟨b, rfl⟩ | ⟨b, rfl⟩ | ⟨b, rfl⟩
  · exact writeAt_keeps 0 b.1 (by rw [b.2]; decide) d hl
  · exact writeAt_keeps 440 b.1 (by rw [b.2]; decide) d hl
  · rw [(overwriteLba0_eq b d).1]
    exact writeAt_keeps 0 _ (by rw [b.toBytes_length]; decide) d hl
  · exact updateConservative_keeps b d hl

/-- **C72**, the MBR writers and the GPT. Whatever comes of writing boot code, disk signature, the MBR or its records, opening the
device gives the same disk, the same error or the same panic as before. -/
theorem c72_mbr_writers (m : Mode) (cfg : GptConfig) (d0 d d' : Dev) (hw : MbrWritten d0 d'.data) (hd : d.data = d0.data)
    (hf : d.faults = []) (hf' : d'.faults = []) (hp : d.pos < 2 ^ 64)
    (hp' : d'.pos < 2 ^ 64) (hlen : d.data.length < 2 ^ 64) (hl : 512 ≤ d.data.length)
    (hstart : ∀ h off, off = cfg.lbSize.usize ∨ off = lastBlockOffset cfg.lbSize d.data → ValidAt d.data off → HeaderAt d.data off h →
      h.partStart ≠ 0) :
    SameOpened (openFromDevice m cfg d).1 (openFromDevice m cfg d').1 := by
  rw [hd] at hl
  refine c72_block0 m cfg d d' hf hf' hp hp' hlen (by rw [hd]; exact mbrWritten_length hw hl) (fun i hi => ?_) hstart
  rw [hd]
  have := lb_le cfg.lbSize
  exact mbrWritten_bytes hw i (by omega)

/-- **C72**, for a disk the library wrote: after `write_inplace` returned Ok (with the backup header in the last block), the hypothesis
about headers is met. -/
theorem c72_written (m : Mode) (s s' : GptDisk) (h : Header) (k B : Nat) (hs : SaneDisk s h k B)
    (hok : writeInplace m s = (.ok (), s')) (hro : s.config.readonlyBackup = false)
    (hB : s.device.data.length / s.config.lbSize.usize = B + 1) (h2 : Header) (off : Nat)
    (ho : off = s.config.lbSize.usize ∨ off = lastBlockOffset s.config.lbSize s'.device.data)
    (hv : ValidAt s'.device.data off) (hh : HeaderAt s'.device.data off h2) : h2.partStart ≠ 0 := by
  have w := write_ok hs hok
  have r := w.regions hs
  obtain ⟨hB1, hkB⟩ := sane_bounds hs.sane
  have hlen := w.length
  have hr := ((readHeaderAt_spec _ _).1 h2).mpr ⟨hv, hh⟩
  have hfit := hs.fits
  have hfit' : B * s.config.lbSize.usize + s.config.lbSize.usize ≤ s'.device.data.length := by
    rw [Nat.add_mul, Nat.one_mul] at hfit; omega
  rcases ho with rfl | rfl
  · have h2B : 1 * s.config.lbSize.usize ≤ B * s.config.lbSize.usize := Nat.mul_le_mul_right _ (by omega)
    have := read_block (h := rebuiltP k B h) rfl rfl (by omega) r.head
    rw [hr] at this
    cases this
    exact (by decide : (2 : UInt64) ≠ 0)
  · have := read_block (h := rebuiltB k B h) rfl rfl hfit' (r.backup hro).1
    unfold lastBlockOffset at hr
    rw [hlen, hB, Nat.add_sub_cancel, this] at hr
    cases hr
    intro h0
    have h1 : (UInt64.ofNat (B - k)).toNat = 0 := by
      rw [show UInt64.ofNat (B - k) = 0 from h0]; rfl
    rw [ofNat64 (by omega)] at h1
    omega

/-- The small disk is written, its MBR is replaced, and the table is still found. -/
example (m : Mode) (mbr : ProtectiveMbr) : ∃ s1 s2 s3 d d' d2 d3, writeInplace m (smallDisk [(1, smallPart)]) = (.ok (), s1) ∧
    d.data = s1.device.data ∧ d'.data = (mbr.overwriteLba0 d).2.data ∧ byteAt d'.data 510 = byteAt mbr.toBytes 510 ∧
    openFromDevice m GptConfig.new d = (.ok s2, d2) ∧ openFromDevice m GptConfig.new d' = (.ok s3, d3) ∧
    Numbered [smallPart] s2.partitions ∧ s3.partitions = s2.partitions := by
  obtain ⟨s1, hw, hl1, hl0⟩ := smallDisk_written m [(1, smallPart)] (by decide)
  obtain ⟨d, hdd, hf, hp, hc⟩ : ∃ d : Dev, d.data = s1.device.data ∧ d.faults = [] ∧ d.pos = 0 ∧ d.cap = 5120 :=
    ⟨⟨_, 0, 5120, [], []⟩, rfl, rfl, rfl, rfl⟩
  obtain ⟨d', hd', hf', hp'⟩ : ∃ d' : Dev, d'.data = (mbr.overwriteLba0 d).2.data ∧ d'.faults = [] ∧ d'.pos = 0 :=
    ⟨⟨_, 0, 0, [], []⟩, rfl, rfl, rfl⟩
  obtain ⟨s2, d2, -, h2, -, -, -, -, -, -, -, -, -, -, hn⟩ := c30_write_open m m _ s1 _ 1 9 GptConfig.new d (smallDisk_sane _) hw hdd hf
    (by omega) rfl (by intro h; cases h)
  have hsame := c72_mbr_writers m GptConfig.new d d d' (.inr (.inr (.inl ⟨mbr, hd'⟩))) rfl hf hf' (by omega) (by omega)
    (by rw [hdd, hl1]; decide) (by rw [hdd, hl1]; decide) (by
      rw [hdd]
      exact c72_written m _ s1 _ 1 9 (smallDisk_sane _) hw rfl (by rw [hl0]; rfl))
  rw [h2] at hsame
  rcases h3 : openFromDevice m GptConfig.new d' with ⟨_ | _ | _, d3⟩ <;> rw [h3] at hsame
  · rename_i s3
    refine ⟨s1, s2, s3, d, d', d2, d3, hw, hdd, hd', ?_, h2, h3, hn, ?_⟩
    · have h1 := writeAt_succeeds (off := 0) (b := mbr.toBytes) hf (by rw [mbr.toBytes_length, hc]; decide)
      have e := overwriteLba0_eq mbr d
      have := c52_overwrite mbr d (mbr.overwriteLba0 d).2 512 (by omega) (Prod.ext (e.2.1.mpr h1) rfl)
      rw [hd', this.2.1, byteAt_patch_inside (by omega) (by rw [mbr.toBytes_length]; omega)]
    · have hsame : s3 = { s2 with device := s3.device } := hsame
      rw [hsame]
  · exact hsame.elim
  · exact hsame.elim

/-- **C72**, the GPT writer and the MBR. Whatever comes of `write_inplace`, reading MBR, boot code and disk signature gives what it
gave before. -/
theorem c72_write_inplace (m : Mode) (s : GptDisk) (h : Header) (k B : Nat) (hs : SaneDisk s h k B) (d d' : Dev)
    (hd : d.data = s.device.data) (hd' : d'.data = (writeInplace m s).2.device.data) (hf : d.faults = []) (hf' : d'.faults = [])
    (hp : d.pos < 2 ^ 64) (hp' : d'.pos < 2 ^ 64) :
    (ProtectiveMbr.fromDisk s.config.lbSize d').1 = (ProtectiveMbr.fromDisk s.config.lbSize d).1 ∧
    (readBootcode d').1 = (readBootcode d).1 ∧ (readDiskSignature d').1 = (readDiskSignature d).1 := by
  have hl : d'.data.length = d.data.length := by rw [hd, hd']; exact write_length m hs
  have hb : ∀ i, i < s.config.lbSize.usize → byteAt d'.data i = byteAt d.data i := fun i hi => by
    rw [hd, hd']; exact c32_user_blocks m s h k B hs i (.inl hi)
  have h512 := lb_le s.config.lbSize
  have hlen : s.config.lbSize.usize ≤ d.data.length := by
    have hfit := hs.fits
    rw [hd]
    have : 1 * s.config.lbSize.usize ≤ (B + 1) * s.config.lbSize.usize := Nat.mul_le_mul_right _ (by omega)
    omega
  have at_ : ∀ (off : UInt64) (n : Nat), off.toNat + n ≤ 512 → (readAt off n d').1 = (readAt off n d).1 := by
    intro off n hn
    rw [readAt_succeeds hf (by omega), readAt_succeeds hf' (by omega)]
    simp only [Res.ok.injEq]
    exact slice_congr (by omega) (by omega) fun i _ hi => hb i (by omega)
  refine ⟨?_, at_ 0 440 (by decide), at_ 440 4 (by decide)⟩
  rw [c53_from_disk_exact _ d hf hp hlen, c53_from_disk_exact _ d' hf' hp' (by omega)]
  simp only
  rw [slice_congr (by omega) (by omega) fun i _ hi => hb i (by omega)]

end Gpt
