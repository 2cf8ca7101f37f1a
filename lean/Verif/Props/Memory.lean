import Verif.Model.Memory
import Verif.Props.Narrow
import Verif.Props.Table
import Verif.Props.Create
/-!
# Limited memory: C120
-/

namespace Gpt

open Spec GptDisk

/-- The array of `h` has at most `lim` bytes. -/
def Spec.ArrayWithin (lim : Nat) (h : Header) : Prop := h.numParts.toNat * h.partSize.toNat ≤ lim

theorem within_len {lim : Nat} {h : Header} (hs : ArrayWithin lim h) {p : UInt64}
    (hp : checkedMul64 h.numParts.toUInt64 h.partSize.toUInt64 = some p) : p.toNat ≤ lim := by
  obtain ⟨-, e⟩ := checkedMul64_some.mp hp
  rw [e, UInt32.toNat_toUInt64, UInt32.toNat_toUInt64]
  exact hs

theorem vecWithin_eq {ε : Type} {lim : Nat} {p : UInt64} (h : p.toNat ≤ lim) : (vecWithin lim p.toNat : Res ε Unit) = vecOf p := by
  unfold vecWithin vecOf
  simp only [h, true_and]

theorem vecWithin_block {ε : Type} {lim : Nat} {lb : LbSize} (h4 : 4096 ≤ lim) : (vecWithin lim lb.usize : Res ε Unit) = .ok () := by
  refine if_pos ?_
  cases lb
  · show 512 ≤ lim ∧ 512 < 2 ^ 63
    omega
  · show 4096 ≤ lim ∧ 4096 < 2 ^ 63
    omega

theorem partentryChecksumWithin_eq {lim : Nat} {h : Header} (hs : ArrayWithin lim h) (lb : LbSize) : partentryChecksumWithin lim h lb = partentryChecksum h lb := by
  unfold partentryChecksumWithin partentryChecksum
  refine M.bind_congr fun _ => M.bind_congr fun _ => M.lift_bind_congr fun p hp => ?_
  rw [vecWithin_eq (within_len hs (Res.ofOption_ok hp))]

theorem Header.fileWriteHeaderWithin_eq {lim : Nat} (h4 : 4096 ≤ lim) {h : Header} (hs : ArrayWithin lim h) (lba : UInt64) (lb : LbSize) (d : Dev) :
    Header.fileWriteHeaderWithin lim lba lb (h, d) = Header.fileWriteHeader lba lb (h, d) := by
  unfold Header.fileWriteHeaderWithin Header.fileWriteHeader
  rw [M.bind_apply, M.bind_apply]
  simp only [M.get_apply]
  rw [partentryChecksumWithin_eq hs]
  simp only [M.bind_apply, M.lift_apply, vecWithin_block h4]

theorem Header.writePrimaryWithin_eq {lim : Nat} (h4 : 4096 ≤ lim) {h : Header} (hs : ArrayWithin lim h) (lb : LbSize) (d : Dev) :
    Header.writePrimaryWithin lim lb (h, d) = Header.writePrimary lb (h, d) := by
  unfold Header.writePrimaryWithin Header.writePrimary
  rw [M.bind_apply, M.bind_apply]
  simp only [M.get_apply]
  split
  · rfl
  · exact fileWriteHeaderWithin_eq h4 hs _ lb d

theorem Header.writeBackupWithin_eq {lim : Nat} (h4 : 4096 ≤ lim) {h : Header} (hs : ArrayWithin lim h) (lb : LbSize) (d : Dev) :
    Header.writeBackupWithin lim lb (h, d) = Header.writeBackup lb (h, d) := by
  unfold Header.writeBackupWithin Header.writeBackup
  rw [M.bind_apply, M.bind_apply]
  simp only [M.get_apply]
  split
  · rfl
  · exact fileWriteHeaderWithin_eq h4 hs _ lb d

theorem Partition.writeToDeviceWithin_eq {lim : Nat} {z : UInt32} (hz : z.toNat ≤ lim) (m : Mode) (p : Partition) (i l : UInt64) (lb : LbSize) :
    Partition.writeToDeviceWithin lim m p i l lb z = Partition.writeToDevice m p i l lb z := by
  unfold Partition.writeToDeviceWithin Partition.writeToDevice
  refine M.bind_congr fun _ => M.bind_congr fun _ => M.bind_congr fun _ => M.bind_congr fun _ => ?_
  have := z.toNat_lt
  rw [show (vecWithin lim z.toNat : Res IoErr Unit) = .ok () from if_pos ⟨hz, by omega⟩]
  rfl

theorem Partition.writeZeroEntriesWithin_eq {lim : Nat} {z : UInt32} {n : UInt64} (hz : z.toNat * n.toNat ≤ lim) (m : Mode) (i l : UInt64) (lb : LbSize) :
    Partition.writeZeroEntriesWithin lim m i n l lb z = Partition.writeZeroEntries m i n l lb z := by
  unfold Partition.writeZeroEntriesWithin Partition.writeZeroEntries
  refine M.bind_congr fun _ => M.bind_congr fun _ => M.bind_congr fun _ => M.bind_congr fun _ => M.lift_bind_congr fun p hp => ?_
  obtain ⟨-, e⟩ := checkedMul64_some.mp (Res.ofOption_ok hp)
  rw [UInt32.toNat_toUInt64] at e
  rw [vecWithin_eq (by omega)]

theorem GptDisk.writeEntriesWithin_eq {lim : Nat} {m : Mode} {lb : LbSize} {ph : Header} {bh : Option Header} (hp : ArrayWithin lim ph) (hb : ∀ b ∈ bh, ArrayWithin lim b)
    (ps : List Partition) (i n : Nat) : writeEntriesWithin lim m lb ph bh ps i n = writeEntries m lb ph bh ps i n := by
  have one : ∀ {h : Header} {i : Nat}, ArrayWithin lim h → i < h.numParts.toNat → h.partSize.toNat ≤ lim := by
    intro h i hh hi
    have : 1 * h.partSize.toNat ≤ h.numParts.toNat * h.partSize.toNat := Nat.mul_le_mul_right _ (by omega)
    unfold ArrayWithin at hh
    omega
  induction ps generalizing i n with
  | nil => rfl
  | cons p ps ih =>
    unfold writeEntriesWithin writeEntries
    by_cases hi : i ≥ ph.numParts.toNat
    · rw [if_pos hi, if_pos hi]
    rw [if_neg hi, if_neg hi, Partition.writeToDeviceWithin_eq (one (i := i) hp (by omega))]
    refine M.bind_congr fun _ => ?_
    cases bh with
    | none => simp only; rw [ih]
    | some b =>
      simp only
      by_cases hi2 : i ≥ b.numParts.toNat
      · rw [if_pos hi2, if_pos hi2, ih]
      rw [if_neg hi2, if_neg hi2, Partition.writeToDeviceWithin_eq (one (i := i) (hb b rfl) (by omega)), ih]

theorem GptDisk.writeZerosWithin_eq {lim : Nat} {h : Header} (hs : ArrayWithin lim h) (m : Mode) (lb : LbSize) (next : Nat) :
    writeZerosWithin lim m lb h next = writeZeros m lb h next := by
  unfold writeZerosWithin writeZeros
  cases hc : checkedSub64 h.numParts.toUInt64 (UInt64.ofNat next) with
  | none => rfl
  | some n =>
    obtain ⟨h1, h2⟩ := checkedSub64_some.mp hc
    rw [UInt32.toNat_toUInt64] at h1 h2
    refine funext fun d => ?_
    simp only [M.bind_apply, M.pure_apply]
    rw [Partition.writeZeroEntriesWithin_eq]
    refine Nat.le_trans ?_ hs
    rw [Nat.mul_comm]
    exact Nat.mul_le_mul_right _ (by omega)

theorem within_build {lim : Nat} {m : Mode} {h k : Header} {lb : LbSize} {b : Bool} (hs : ArrayWithin lim h)
    (hb : (((HeaderBuilder.fromHeader h).setPrimary b).build m lb).mapErr GptError.header = .ok k) : ArrayWithin lim k := by
  cases hx : ((HeaderBuilder.fromHeader h).setPrimary b).build m lb with
  | ok k' =>
    rw [hx] at hb
    cases hb
    obtain ⟨e1, e2⟩ := build_numParts hx
    unfold ArrayWithin
    rw [e1, e2]
    exact hs
  | err e => rw [hx] at hb; cases hb
  | panic => rw [hx] at hb; cases hb

theorem onBackupWithin_eq {lim : Nat} (h4 : 4096 ≤ lim) {h : Header} (hs : ArrayWithin lim h) (lb : LbSize) : onBackup h (Header.writeBackupWithin lim lb) = onBackup h (Header.writeBackup lb) := by
  unfold onBackup
  funext s
  rw [Header.writeBackupWithin_eq h4 hs]

theorem onPrimaryWithin_eq {lim : Nat} (h4 : 4096 ≤ lim) {h : Header} (hs : ArrayWithin lim h) (lb : LbSize) :
    onPrimary h (Header.writePrimaryWithin lim lb) = onPrimary h (Header.writePrimary lb) := by
  unfold onPrimary
  funext s
  rw [Header.writePrimaryWithin_eq h4 hs]

theorem writeInplaceWithin_eq {lim : Nat} (h4 : 4096 ≤ lim) {m : Mode} {s : GptDisk} (hs : ∀ h, s.tryHeader = .ok h → ArrayWithin lim h) : writeInplaceWithin lim m s = writeInplace m s := by
  unfold writeInplaceWithin writeInplace
  rw [M.bind_apply, M.bind_apply]
  simp only [M.get_apply]
  split
  · rfl
  refine congrFun ?_ s
  refine M.bind_congr fun _ => M.lift_bind_congr fun h hh => M.lift_bind_congr fun ph hph => M.bind_congr fun _ => ?_
  have h1 := within_build (hs h (header_ok_iff.mp hh)) hph
  split
  · refine M.pure_bind_congr ?_
    rw [writeEntriesWithin_eq h1 (by intro b hb; cases hb)]
    refine M.bind_congr fun next => ?_
    rw [writeZerosWithin_eq h1]
    refine M.bind_congr fun _ => ?_
    simp only
    rw [onPrimaryWithin_eq h4 h1]
  · refine M.lift_bind_congr fun bh hbh => M.bind_congr fun _ => M.pure_bind_congr ?_
    have h2 := within_build h1 hbh
    rw [writeEntriesWithin_eq h1 (by intro b hb; cases hb; exact h2)]
    refine M.bind_congr fun next => ?_
    rw [writeZerosWithin_eq h1]
    refine M.bind_congr fun _ => ?_
    simp only
    rw [writeZerosWithin_eq h2, onBackupWithin_eq h4 h2, onPrimaryWithin_eq h4 h1]


/-- **C120**, one call: with at least 4096 bytes and at least as many as the array of the header has, every call does what it does with
memory for everything. -/
theorem c120_call (lim : Nat) (m : Mode) (op : Op) (s : GptDisk) (h4 : 4096 ≤ lim) (hs : ∀ h, s.tryHeader = .ok h → ArrayWithin lim h) :
    op.stepWithin lim m s = op.step m s := by
  cases op with
  | writeInplace =>
    show (writeInplaceWithin lim m).mapOk _ s = (writeInplace m).mapOk _ s
    unfold M.mapOk
    rw [writeInplaceWithin_eq h4 hs]
  | _ => rfl

/-! ## Opening -/

theorem fileReadPartitionsWithin_eq {lim : Nat} {m : Mode} {h : Header} {lb : LbSize} {d : Dev}
    (hd : d.data.length ≤ lim ∨ 128 * h.numParts.toNat ≤ lim) : fileReadPartitionsWithin lim m h lb d = fileReadPartitions m h lb d := by
  unfold fileReadPartitionsWithin fileReadPartitions
  have hn := h.numParts.toNat_lt
  simp only [M.bind_apply, M.lift_apply]
  cases hps : (Res.ofOption (IoErr.other "partition overflow - start offset") (checkedMul64 h.partStart lb.u64) : Res IoErr UInt64) with
  | err e => rfl
  | panic => rfl
  | ok p =>
    simp only
    rcases hs : Dev.seekStart p d with ⟨r, d1⟩
    cases r with
    | err e => rfl
    | panic => rfl
    | ok u =>
      have h1 := Dev.seekStart_ok hs
      simp only
      by_cases hz : h.partSize = 128
      swap
      · rw [if_pos hz, if_pos hz]
      rw [if_neg (fun hn => hn hz), if_neg (fun hn => hn hz)]
      simp only [M.bind_apply, M.lift_apply]
      rcases hr : readEntries m h.numParts.toNat 0 0 [] d1 with ⟨r, d2⟩
      cases r with
      | err e => rfl
      | panic => rfl
      | ok t =>
        simp only
        rcases hs2 : Dev.seekStart p d2 with ⟨r, d3⟩
        cases r with
        | err e => rfl
        | panic => rfl
        | ok u2 =>
          simp only
          cases hm : (Res.ofOption (IoErr.other "partitions - size") (checkedMul64 h.numParts.toUInt64 h.partSize.toUInt64) : Res IoErr UInt64) with
          | err e => rfl
          | panic => rfl
          | ok q =>
            obtain ⟨-, e⟩ := checkedMul64_some.mp (Res.ofOption_ok hm)
            rw [UInt32.toNat_toUInt64, UInt32.toNat_toUInt64, hz, show (128 : UInt32).toNat = 128 from rfl] at e
            have h2 := readEntries_ok (off := d1.pos) h.numParts.toNat (i := 0) (by show 0 + _ < _; omega) (by simp) (by simp) hr
            simp only
            have hq : q.toNat ≤ lim := by
              have := h2.2.2
              simp only [UInt32.toNat_zero] at this
              have e1 : d1.data = d.data := by rw [h1.2.1]
              rw [e1] at this
              omega
            rw [show (vecWithin lim q.toNat : Res IoErr Unit) = .ok () from if_pos ⟨hq, by omega⟩]

/-- The part of `open_from_device` after the headers were read. -/
def openRestWithin (lim : Nat) (m : Mode) (cfg : GptConfig) (h1 h2 : Except HeaderError Header) (header : Header) : M Dev GptError GptDisk := do
  let table ← (fileReadPartitionsWithin lim m header cfg.lbSize).mapErr .io
  let d ← M.get
  pure { config := cfg, device := d, guid := header.diskGuid, primaryHeader := h1, backupHeader := h2, partitions := table, syncAll := false }

theorem openFromDeviceWithin_eq (lim : Nat) (m : Mode) (cfg : GptConfig) (d : Dev) : openFromDeviceWithin lim m cfg d =
    match ((readPrimaryHeader cfg.lbSize).attempt : M Dev GptError _) d with
    | (.err e, d1) => (.err e, d1)
    | (.panic, d1) => (.panic, d1)
    | (.ok h1, d1) => match ((readBackupHeader cfg.lbSize).attempt : M Dev GptError _) d1 with
      | (.err e, d2) => (.err e, d2)
      | (.panic, d2) => (.panic, d2)
      | (.ok h2, d2) => match selectHeader cfg.onlyValidHeaders h1 h2 with
        | .error e => (.err (.header e), d2)
        | .ok h => openRestWithin lim m cfg h1 h2 h d2 := by
  unfold openFromDeviceWithin
  simp only [M.bind_apply]
  split
  · rename_i h1 d1 hp
    simp only [hp]
    split
    · rename_i h2 d2 hb
      simp only [hb]
      cases h1 <;> cases h2 <;> simp only [selectHeader] <;> first
        | (split <;> simp [openRestWithin, M.bind_apply])
        | (cases cfg.onlyValidHeaders <;> simp [openRestWithin, M.bind_apply])
    · rename_i e d2 hb; simp only [hb]
    · rename_i d2 hb; simp only [hb]
  · rename_i e d1 hp; simp only [hp]
  · rename_i d1 hp; simp only [hp]

theorem openWithin_any (lim : Nat) (m : Mode) (cfg : GptConfig) (d : Dev) :
    ∃ h1 h2, ∃ d2 : Dev, d2.data = d.data ∧
      (openFromDevice m cfg d = match selectHeader cfg.onlyValidHeaders h1 h2 with
        | .error e => (.err (.header e), d2)
        | .ok h => openRest m cfg h1 h2 h d2) ∧
      (openFromDeviceWithin lim m cfg d = match selectHeader cfg.onlyValidHeaders h1 h2 with
        | .error e => (.err (.header e), d2)
        | .ok h => openRestWithin lim m cfg h1 h2 h d2) := by
  obtain ⟨h1, e1, f1⟩ := attempt_ofExcept (ε' := GptError) (readPrimaryHeader_noPanic cfg.lbSize d)
  obtain ⟨h2, e2, f2⟩ := attempt_ofExcept (ε' := GptError) (readBackupHeader_noPanic cfg.lbSize (readPrimaryHeader cfg.lbSize d).2)
  refine ⟨h1, h2, _, ((readPrimaryHeader_quiet cfg.lbSize d).trans (readBackupHeader_quiet cfg.lbSize _)).data, ?_, ?_⟩
  · rw [openFromDevice_eq, f1]
    simp only [f2]
    rfl
  · rw [openFromDeviceWithin_eq, f1]
    simp only [f2]

/-- **C120**, opening: memory for one buffer as long as the device is enough to open it. Whatever is on the device and whatever fails,
opening does what it does with memory for everything. -/
theorem c120_open (lim : Nat) (m : Mode) (cfg : GptConfig) (d : Dev) (hd : d.data.length ≤ lim) :
    openFromDeviceWithin lim m cfg d = openFromDevice m cfg d := by
  obtain ⟨h1, h2, d2, e, e1, e2⟩ := openWithin_any lim m cfg d
  rw [e1, e2]
  cases selectHeader cfg.onlyValidHeaders h1 h2 with
  | error e => rfl
  | ok h =>
    show openRestWithin lim m cfg h1 h2 h d2 = openRest m cfg h1 h2 h d2
    unfold openRestWithin openRest
    simp only [M.bind_apply, M.mapErr_apply]
    rw [fileReadPartitionsWithin_eq (.inl (by rw [e]; exact hd))]

theorem fileReadPartitions_size {lim : Nat} {m : Mode} {h : Header} {lb : LbSize} {d d' : Dev} {t : PMap}
    (hok : fileReadPartitions m h lb d = (.ok t, d')) : h.partSize = 128 ∧ 128 * h.numParts.toNat ≤ d.data.length ∧
      (lim < 128 * h.numParts.toNat → (fileReadPartitionsWithin lim m h lb d).1 = .panic) := by
  have hn := h.numParts.toNat_lt
  unfold fileReadPartitions at hok
  simp only [M.bind_ok, M.lift_ok] at hok
  obtain ⟨p, d0, ⟨hp, hd0⟩, u, d1, hs, hok⟩ := hok
  obtain rfl : d0 = d := by simpa using hd0
  have h1 := Dev.seekStart_ok hs
  by_cases hz : h.partSize = 128
  swap
  · rw [if_pos hz] at hok
    cases hok
  rw [if_neg (fun hn => hn hz)] at hok
  simp only [M.bind_ok, M.lift_ok] at hok
  obtain ⟨t', d2, hr, u2, d3, hs2, q, _, ⟨hm, hd4⟩, hok⟩ := hok
  subst hd4
  obtain ⟨-, e⟩ := checkedMul64_some.mp (Res.ofOption_ok hm)
  rw [UInt32.toNat_toUInt64, UInt32.toNat_toUInt64, hz, show (128 : UInt32).toNat = 128 from rfl] at e
  have h2 := readEntries_ok (off := d1.pos) h.numParts.toNat (i := 0) (by show 0 + _ < _; omega) (by simp) (by simp) hr
  have e1 := congrArg Dev.data h1.2.1
  simp only at e1
  have h3 := h2.2.2
  rw [e1] at h3
  simp only [UInt32.toNat_zero] at h3
  refine ⟨hz, by omega, fun hl => ?_⟩
  unfold fileReadPartitionsWithin
  simp only [M.bind_apply, M.lift_apply]
  rw [hp]
  simp only [hs]
  rw [if_neg (fun hn => hn hz)]
  simp only [M.bind_apply, M.lift_apply, hr, hs2, hm]
  rw [show (vecWithin lim q.toNat : Res IoErr Unit) = .panic from if_neg (by omega)]

theorem open_try {m : Mode} {cfg : GptConfig} {d d' : Dev} {s : GptDisk} (lim : Nat) (hok : openFromDevice m cfg d = (.ok s, d')) :
    ∃ h, s.tryHeader = .ok h ∧ h.partSize = 128 ∧ 128 * h.numParts.toNat ≤ d.data.length ∧
      (128 * h.numParts.toNat ≤ lim → openFromDeviceWithin lim m cfg d = (.ok s, d')) ∧
      (lim < 128 * h.numParts.toNat → (openFromDeviceWithin lim m cfg d).1 = .panic) := by
  obtain ⟨h1, h2, d2, e, e1, e2⟩ := openWithin_any lim m cfg d
  rw [hok] at e1
  cases hsel : selectHeader cfg.onlyValidHeaders h1 h2 with
  | error e => rw [hsel] at e1; cases e1
  | ok h =>
    rw [hsel] at e1 e2
    obtain ⟨a, b⟩ := openRest_ok e1.symm
    obtain ⟨a1, a2, a3⟩ := fileReadPartitions_size (lim := lim) a
    refine ⟨h, ?_, a1, by rw [← e]; exact a2, fun hl => ?_, fun hl => ?_⟩
    · rw [b]
      unfold tryHeader
      rcases (select_spec.1 h).mp hsel with ⟨r, -⟩ | ⟨-, ⟨e, r1⟩, r⟩
      · rw [r]
      · rw [r1, r]
    · rw [e2, e1]
      show openRestWithin lim m cfg h1 h2 h d2 = openRest m cfg h1 h2 h d2
      unfold openRestWithin openRest
      simp only [M.bind_apply, M.mapErr_apply]
      rw [fileReadPartitionsWithin_eq (.inr hl)]
    · rw [e2]
      show (openRestWithin lim m cfg h1 h2 h d2).1 = _
      unfold openRestWithin
      simp only [M.bind_apply, M.mapErr_apply]
      have := a3 hl
      rcases hx : fileReadPartitionsWithin lim m h cfg.lbSize d2 with ⟨r, d3⟩
      rw [hx] at this
      simp only at this
      subst this
      rfl

/-- **C120**, opening, exactly: a disk that opens with memory for everything opens with `lim` bytes just when the array of the header it
is opened from has at most `lim`; with fewer the program is aborted. The array is never longer than the device. -/
theorem c120_exact (lim : Nat) (m : Mode) (cfg : GptConfig) (d d' : Dev) (s : GptDisk) (hok : openFromDevice m cfg d = (.ok s, d')) :
    ∃ h, s.tryHeader = .ok h ∧ 128 * h.numParts.toNat ≤ d.data.length ∧
      (128 * h.numParts.toNat ≤ lim → openFromDeviceWithin lim m cfg d = (.ok s, d')) ∧
      (lim < 128 * h.numParts.toNat → (openFromDeviceWithin lim m cfg d).1 = .panic) := by
  obtain ⟨h, a, -, a2, a3⟩ := open_try lim hok
  exact ⟨h, a, a2, a3⟩

/-! ## Histories -/

/-- The header in use has entries of 128 bytes and an array of at most `lim`. -/
def Spec.FitsIn (lim : Nat) (s : GptDisk) : Prop := ∀ h, s.tryHeader = .ok h → h.partSize = 128 ∧ 128 * h.numParts.toNat ≤ lim

theorem fits_init {lim : Nat} {m : Mode} {fresh : Uuid} {s s' : GptDisk} {r : Res GptError Unit} (hl : 16384 ≤ lim)
    (hi : initHeaders m fresh s = (r, s')) (hs : FitsIn lim s) (hp : 128 * s'.partitions.length ≤ lim) : FitsIn lim s' := by
  have ht := (initHeaders_same hi).partitions
  have hm : ∀ n : Nat, (UInt32.ofNat n).toNat ≤ n := fun n => by
    rw [UInt32.toNat_ofNat']
    exact Nat.mod_le _ _
  have := hm s.partitions.length
  rw [ht] at hp
  intro h hh
  rcases initHeaders_any hi with ⟨h1, h2, -⟩ | ⟨bak, k, _, hb, hpr, _⟩
  · rw [tryHeader_congr h1 h2] at hh
    exact hs h hh
  · rw [tryHeader_of_primary hpr] at hh
    obtain rfl := Except.ok.inj hh
    obtain ⟨e1, e2⟩ := build_numParts hb
    refine ⟨e2.trans ?_, ?_⟩
    · show (HeaderBuilder.fromMaybeHeader s.tryHeader fresh).partSize = 128
      cases ht : s.tryHeader with
      | error e => rfl
      | ok h => exact (hs h ht).1
    · rw [e1]
      unfold initBuilder HeaderBuilder.setPrimary HeaderBuilder.setDiskGuid HeaderBuilder.setBackupLba HeaderBuilder.setNumParts
      simp only [max32_toNat]
      rw [show minNumParts.toNat = 128 from rfl]
      omega

theorem fits_step {lim : Nat} {m : Mode} {op : Op} {s : GptDisk} (hl : 16384 ≤ lim) (hs : FitsIn lim s)
    (hp : 128 * (op.step m s).2.partitions.length ≤ lim) : FitsIn lim (op.step m s).2 := by
  have hins : ∀ {id p fresh2 r s'}, Inserted m id p fresh2 s r s' → 128 * s'.partitions.length ≤ lim → FitsIn lim s' := by
    intro id p fresh2 r s' hi hp
    cases hi with
    | panic => exact hs
    | refused => exact hs
    | plain => exact hs
    | rebuilt h0 r s' _ _ _ hi => exact fits_init hl hi hs hp
  cases op with
  | addPartition n sz t f a r r2 =>
    rcases addPartition_any m n sz t f a r r2 s with ⟨h1, _⟩ | ⟨_, _, _, _, hi⟩
    · show FitsIn lim (addPartition m n sz t f a r r2 s).2
      rw [h1]
      exact hs
    · exact hins hi hp
  | addPartitionAt n i fl l t f r r2 =>
    rcases addPartitionAt_any m n i fl l t f r r2 s with ⟨h1, _⟩ | ⟨_, _, _, _, hi⟩
    · show FitsIn lim (addPartitionAt m n i fl l t f r r2 s).2
      rw [h1]
      exact hs
    · exact hins hi hp
  | removePartition i =>
    show FitsIn lim ((removePartition i : M GptDisk GptError _) s).2
    unfold removePartition
    split <;> exact hs
  | removePartitionByGuid g =>
    show FitsIn lim ((removePartitionByGuid g : M GptDisk GptError _) s).2
    unfold removePartitionByGuid
    split <;> exact hs
  | takePartitions => exact hs
  | updateGuid u r => exact hs
  | updateDiskDevice d w => exact hs
  | deviceMut d => exact hs
  | updatePartitions pp fresh =>
    rcases updatePartitions_any m pp fresh s with ⟨h1, _⟩ | ⟨_, h0, hh0, hperm, heq⟩
    · show FitsIn lim (updatePartitions m pp fresh s).2
      rw [h1]
      exact hs
    · have hp' : 128 * (updatePartitions m pp fresh s).2.partitions.length ≤ lim := hp
      show FitsIn lim (updatePartitions m pp fresh s).2
      rw [heq] at hp' ⊢
      exact fits_init hl (s := s.withParts pp) rfl hs hp'
  | writeInplace =>
    show FitsIn lim (writeInplace m s).2
    rcases (writeInplace_mem m s).headers with ⟨h1, h2⟩ | ⟨h0, ph, ph', hh0, hp, hsb, hpr, _⟩
    · intro h hh
      rw [tryHeader_congr h1 h2] at hh
      exact hs h hh
    · intro h hh
      rw [tryHeader_of_primary hpr] at hh
      obtain rfl := Except.ok.inj hh
      have e1 := build_numParts hp
      have e2 := sameBut_fields hsb
      have e3 := hs h0 hh0
      rw [e2.2.1, e2.1, e1.1, e1.2]
      exact e3

/-- **C120**, histories: take a disk opened from a device of at most `lim` bytes, or created, and any history on it, with whatever
devices and whatever failing. If no table ever has more than `lim / 128` partitions and `lim` is at least 16384, memory for buffers of
`lim` bytes is enough for the whole history. -/
theorem c120_history (lim : Nat) (m : Mode) (cfg : GptConfig) (d d' : Dev) (s : GptDisk) (ops : List Op) (hl : 16384 ≤ lim)
    (hs : (openFromDevice m cfg d = (.ok s, d') ∧ d.data.length ≤ lim) ∨
      ∃ guid fresh fresh2, createFromDevice m cfg guid fresh fresh2 d = (.ok s, d'))
    (hp : ∀ pre post, ops = pre ++ post → 128 * (runOps m pre s).partitions.length ≤ lim) :
    runOpsWithin lim m ops s = runOps m ops s ∧ ∀ pre op post, ops = pre ++ op :: post →
      op.stepWithin lim m (runOps m pre s) = op.step m (runOps m pre s) := by
  have hfit : FitsIn lim s := by
    rcases hs with ⟨hok, hd⟩ | ⟨guid, fresh, fresh2, hok⟩
    · obtain ⟨h, a, a1, a2, -⟩ := open_try lim hok
      intro h' hh
      obtain rfl := Except.ok.inj (a.symm.trans hh)
      exact ⟨a1, by omega⟩
    · have h0 := hp [] ops rfl
      unfold createFromDevice at hok
      rcases hi : initHeaders m fresh2 (blankDisk cfg d (guid.getD fresh)) with ⟨r, s'⟩
      rw [hi] at hok
      cases r with
      | ok u =>
        obtain ⟨e1, -⟩ := Prod.mk.inj hok
        obtain rfl := Res.ok.inj e1
        exact fits_init hl hi (fun h hh => by cases hh) h0
      | err e => cases hok
      | panic => cases hok
  clear hs
  have hcall : ∀ {s : GptDisk} {op : Op}, FitsIn lim s → op.stepWithin lim m s = op.step m s := fun {s op} hf =>
    c120_call lim m op s (by omega) fun h hh => by
      obtain ⟨e1, e2⟩ := hf h hh
      unfold ArrayWithin
      rw [e1, show (128 : UInt32).toNat = 128 from rfl]
      omega
  induction ops generalizing s with
  | nil => exact ⟨rfl, fun pre op post e => by cases pre <;> cases e⟩
  | cons op ops ih =>
    have h0 := hcall (op := op) hfit
    have hnext : ∀ pre, runOps m (op :: pre) s = runOps m pre (op.step m s).2 := fun pre => rfl
    have hf' : FitsIn lim (op.step m s).2 := fits_step hl hfit (hp [op] ops rfl)
    obtain ⟨i1, i2⟩ := ih (op.step m s).2 (fun pre post e => by
      rw [← hnext]
      exact hp (op :: pre) post (by rw [e]; rfl)) hf'
    refine ⟨?_, fun pre op' post e => ?_⟩
    · show runOpsWithin lim m ops (op.stepWithin lim m s).2 = _
      rw [h0]
      exact i1
    · cases pre with
      | nil =>
        obtain ⟨rfl, rfl⟩ := List.cons.inj e
        exact h0
      | cons a pre =>
        obtain ⟨rfl, e'⟩ := List.cons.inj e
        rw [hnext]
        exact i2 pre op' post e'

/-! ## Headers on their own -/

/-- **C120**, what does not hold: `Header::write_primary` asks for the whole array before it looks at the device. A header read from a
device, however small, aborts the program if its entries would take more than `lim` bytes. -/
theorem c120_header (lim : Nat) (h : Header) (lb : LbSize) (d : Dev) (hf : d.faults = []) (hlba : h.currentLba < h.backupLba)
    (hst : h.partStart.toNat * lb.usize < 2 ^ 64) (hbig : lim < h.numParts.toNat * h.partSize.toNat) :
    (Header.writePrimaryWithin lim lb (h, d)).1 = .panic := by
  have hn := h.numParts.toNat_lt
  have hz := h.partSize.toNat_lt
  have hps : checkedMul64 h.partStart lb.u64 = some (h.partStart * lb.u64) := by
    unfold checkedMul64
    rw [if_pos (by rw [lb_u64_toNat]; omega)]
  have hmul : h.numParts.toNat * h.partSize.toNat < 2 ^ 64 := by
    have : h.numParts.toNat * h.partSize.toNat ≤ (2 ^ 32 - 1) * (2 ^ 32 - 1) := Nat.mul_le_mul (by omega) (by omega)
    omega
  have hq : checkedMul64 h.numParts.toUInt64 h.partSize.toUInt64 = some (h.numParts.toUInt64 * h.partSize.toUInt64) := by
    unfold checkedMul64
    rw [if_pos (by rw [UInt32.toNat_toUInt64, UInt32.toNat_toUInt64]; omega)]
  have hq2 : (h.numParts.toUInt64 * h.partSize.toUInt64).toNat = h.numParts.toNat * h.partSize.toNat := by
    rw [UInt64.toNat_mul, UInt32.toNat_toUInt64, UInt32.toNat_toUInt64, Nat.mod_eq_of_lt hmul]
  have hc : (partentryChecksumWithin lim h lb d).1 = .panic := by
    unfold partentryChecksumWithin
    simp only [M.bind_apply, M.lift_apply, M.mapErr_apply, hps, Res.ofOption_some]
    rw [Dev.seekStart_nil hf]
    simp only [hq, Res.ofOption_some]
    rw [show (vecWithin lim (h.numParts.toUInt64 * h.partSize.toUInt64).toNat : Res HeaderError Unit) = .panic from
      if_neg (by rw [hq2]; omega)]
    rfl
  unfold Header.writePrimaryWithin
  simp only [M.bind_apply, M.get_apply]
  rw [if_neg (by show ¬ h.backupLba ≤ h.currentLba; exact UInt64.not_le.mpr hlba)]
  unfold Header.fileWriteHeaderWithin
  simp only [M.bind_apply, M.get_apply]
  rcases hx : partentryChecksumWithin lim h lb d with ⟨r, d1⟩
  rw [hx] at hc
  simp only at hc
  subst hc
  rw [show Header.onDev (partentryChecksumWithin lim h lb) (h, d) = (.panic, (h, d1)) by unfold Header.onDev M.zoom; simp only [hx]]

/-- A header of 2^32 - 1 entries; the image with it has 1024 bytes. -/
def longArrayHeader : Header := { sampleHeader with numParts := 0xFFFFFFFF }

/-- C120: this header is read from its device, and writing it asks for 549 755 813 760 bytes. -/
example : readHeaderAt (imageOf longArrayHeader 0 []) 512 = .ok (longArrayHeader.sealed 0) ∧ (imageOf longArrayHeader 0 []).length = 1024 ∧
    (Header.writePrimaryWithin (2 ^ 38) .lb512 (longArrayHeader.sealed 0, ⟨imageOf longArrayHeader 0 [], 0, 1024, [], []⟩)).1 = .panic :=
  ⟨imageOf_primary rfl 0 rfl [], imageOf_length rfl 0 [],
    c120_header (2 ^ 38) (longArrayHeader.sealed 0) .lb512 _ rfl (by show (1 : UInt64) < 100; decide)
      (by show (2 : UInt64).toNat * 512 < 2 ^ 64; decide)
      (by show 2 ^ 38 < (0xFFFFFFFF : UInt32).toNat * (128 : UInt32).toNat; decide)⟩

/-- C120: an image of 2048 bytes opens with that much memory, and with 1024; with 1023 bytes the program is aborted. -/
example (m : Mode) (arr : Bytes) (ha : arr.length = 1024) :
    ∃ s d', openFromDeviceWithin 2048 m GptConfig.new ⟨imageOf sampleHeader (crc32 arr) arr, 0, 4096, [], []⟩ = (.ok s, d') ∧
      openFromDeviceWithin 1024 m GptConfig.new ⟨imageOf sampleHeader (crc32 arr) arr, 0, 4096, [], []⟩ = (.ok s, d') ∧
      (openFromDeviceWithin 1023 m GptConfig.new ⟨imageOf sampleHeader (crc32 arr) arr, 0, 4096, [], []⟩).1 = .panic := by
  obtain ⟨b, e⟩ := open_image (m := m) (cfg := GptConfig.new) (h := sampleHeader) rfl (c := crc32 arr) rfl (rest := arr) rfl rfl
    (cap := 4096) (by omega)
  obtain ⟨s, d', hok, -⟩ := image_opens m arr ha
  have ht : s.tryHeader = .ok (sampleHeader.sealed (crc32 arr)) := by
    rw [e] at hok
    rw [(openRest_ok hok).2]
    rfl
  have hn : 128 * (sampleHeader.sealed (crc32 arr)).numParts.toNat = 1024 := by
    show 128 * (8 : UInt32).toNat = 1024
    rfl
  have key : ∀ lim, (1024 ≤ lim → openFromDeviceWithin lim m GptConfig.new ⟨imageOf sampleHeader (crc32 arr) arr, 0, 4096, [], []⟩ = (.ok s, d')) ∧
      (lim < 1024 → (openFromDeviceWithin lim m GptConfig.new ⟨imageOf sampleHeader (crc32 arr) arr, 0, 4096, [], []⟩).1 = .panic) := by
    intro lim
    obtain ⟨h, a, -, a2, a3⟩ := c120_exact lim m GptConfig.new _ d' s hok
    obtain rfl := Except.ok.inj (ht.symm.trans a)
    rw [hn] at a2 a3
    exact ⟨a2, a3⟩
  exact ⟨s, d', (key 2048).1 (by omega), (key 1024).1 (by omega), (key 1023).2 (by omega)⟩

/-- C120: 16384 bytes are enough to create an empty disk and write it. -/
example (m : Mode) (g : Uuid) : ∃ s, createFromDevice m (GptConfig.new.setWritable true) (some g) g g dev100 = (.ok s, dev100) ∧
    runOpsWithin 16384 m [.writeInplace] s = runOps m [.writeInplace] s := by
  obtain ⟨s, s1, s2, d2, h1, h2, -⟩ := c61_write_open m m (GptConfig.new.setWritable true) GptConfig.new g g g dev100 32 rfl
    (by show 0 < 2 ^ 64; decide) (by rw [dev100_length]; decide) (by rw [dev100_length]; exact Nat.le_refl _) enough512
    (by rw [dev100_length]; decide) rfl rfl rfl
  refine ⟨s, h1, (c120_history 16384 m _ dev100 dev100 s _ (Nat.le_refl _) (.inr ⟨some g, g, g, h1⟩) ?_).1⟩
  have h0 : s.partitions = [] := by
    unfold createFromDevice at h1
    rcases hi : initHeaders m g (blankDisk (GptConfig.new.setWritable true) dev100 ((some g).getD g)) with ⟨r, s'⟩
    rw [hi] at h1
    cases r with
    | ok u =>
      obtain ⟨e1, -⟩ := Prod.mk.inj h1
      obtain rfl := Res.ok.inj e1
      exact (initHeaders_same hi).partitions
    | err e => cases h1
    | panic => cases h1
  intro pre post e
  have hlen : (runOps m pre s).partitions = [] := by
    match pre, e with
    | [], _ => exact h0
    | [_], e =>
      obtain ⟨rfl, -⟩ := List.cons.inj e
      exact (writeInplace_mem m s).partitions.trans h0
    | _ :: _ :: _, e => exact absurd (congrArg List.length e) (by simp)
  rw [hlen]
  decide

end Gpt
