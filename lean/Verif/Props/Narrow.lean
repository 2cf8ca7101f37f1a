import Verif.Model.Narrow
import Verif.Props.Crashes
import Verif.Props.Session
/-!
# 32-bit targets: C103
-/

namespace Gpt

open Spec GptDisk

/-- The arrays of `h` have less than 2^31 bytes. -/
def Spec.Handy (h : Header) : Prop := h.numParts.toNat * h.partSize.toNat < 2 ^ 31

theorem M.lift_bind_congr {σ ε α β : Type} {r : Res ε α} {f g : α → M σ ε β} (h : ∀ a, r = .ok a → f a = g a) :
    (M.lift r >>= f) = (M.lift r >>= g) := by
  funext s
  rw [M.bind_apply, M.bind_apply, M.lift_apply]
  cases r with
  | ok a => simp only; rw [h a rfl]
  | err e => rfl
  | panic => rfl

theorem M.bind_congr {σ ε α β : Type} {x : M σ ε α} {f g : α → M σ ε β} (h : ∀ a, f a = g a) : (x >>= f) = (x >>= g) := by
  rw [show f = g from funext h]

theorem M.pure_bind_congr {σ ε α β : Type} {a : α} {f g : α → M σ ε β} (h : f a = g a) :
    ((pure a : M σ ε α) >>= f) = ((pure a : M σ ε α) >>= g) := by
  show f a = g a
  exact h

theorem Res.ofOption_ok {ε α : Type} {e : ε} {o : Option α} {a : α} (h : (Res.ofOption e o : Res ε α) = .ok a) : o = some a := by
  cases o <;> simp [Res.ofOption] at h
  rw [h]

theorem handy_len {h : Header} (hs : Handy h) {p : UInt64} (hp : checkedMul64 h.numParts.toUInt64 h.partSize.toUInt64 = some p) :
    p.toNat < 2 ^ 31 := by
  obtain ⟨-, e⟩ := checkedMul64_some.mp hp
  rw [e, UInt32.toNat_toUInt64, UInt32.toNat_toUInt64]
  exact hs

theorem vec_same {ε : Type} {p : UInt64} (h : p.toNat < 2 ^ 31) : asUsize32 p = p.toNat ∧ (vecOf32 p.toNat : Res ε Unit) = .ok () ∧
    (vecOf p : Res ε Unit) = .ok () := by
  refine ⟨Nat.mod_eq_of_lt (by omega), if_pos h, if_pos (by omega)⟩

theorem partentryChecksum32_eq {h : Header} (hs : Handy h) (lb : LbSize) : partentryChecksum32 h lb = partentryChecksum h lb := by
  unfold partentryChecksum32 partentryChecksum
  refine M.bind_congr fun _ => M.bind_congr fun _ => M.lift_bind_congr fun p hp => ?_
  obtain ⟨e1, e2, e3⟩ := vec_same (ε := HeaderError) (handy_len hs (Res.ofOption_ok hp))
  rw [e1, e2, e3]

theorem Header.fileWriteHeader32_eq {h : Header} (hs : Handy h) (lba : UInt64) (lb : LbSize) (d : Dev) :
    Header.fileWriteHeader32 lba lb (h, d) = Header.fileWriteHeader lba lb (h, d) := by
  unfold Header.fileWriteHeader32 Header.fileWriteHeader
  rw [M.bind_apply, M.bind_apply]
  simp only [M.get_apply]
  rw [partentryChecksum32_eq hs]

theorem Header.writePrimary32_eq {h : Header} (hs : Handy h) (lb : LbSize) (d : Dev) :
    Header.writePrimary32 lb (h, d) = Header.writePrimary lb (h, d) := by
  unfold Header.writePrimary32 Header.writePrimary
  rw [M.bind_apply, M.bind_apply]
  simp only [M.get_apply]
  split
  · rfl
  · exact fileWriteHeader32_eq hs _ lb d

theorem Header.writeBackup32_eq {h : Header} (hs : Handy h) (lb : LbSize) (d : Dev) :
    Header.writeBackup32 lb (h, d) = Header.writeBackup lb (h, d) := by
  unfold Header.writeBackup32 Header.writeBackup
  rw [M.bind_apply, M.bind_apply]
  simp only [M.get_apply]
  split
  · rfl
  · exact fileWriteHeader32_eq hs _ lb d

theorem Partition.writeToDevice32_eq {z : UInt32} (hz : z.toNat < 2 ^ 31) (m : Mode) (p : Partition) (i l : UInt64) (lb : LbSize) :
    Partition.writeToDevice32 m p i l lb z = Partition.writeToDevice m p i l lb z := by
  unfold Partition.writeToDevice32 Partition.writeToDevice
  refine M.bind_congr fun _ => M.bind_congr fun _ => M.bind_congr fun _ => M.bind_congr fun _ => ?_
  rw [show (vecOf32 z.toNat : Res IoErr Unit) = .ok () from if_pos hz]
  rfl

theorem Partition.writeZeroEntries32_eq {z : UInt32} {n : UInt64} (hz : z.toNat * n.toNat < 2 ^ 31) (m : Mode) (i l : UInt64) (lb : LbSize) :
    Partition.writeZeroEntries32 m i n l lb z = Partition.writeZeroEntries m i n l lb z := by
  unfold Partition.writeZeroEntries32 Partition.writeZeroEntries
  refine M.bind_congr fun _ => M.bind_congr fun _ => M.bind_congr fun _ => M.bind_congr fun _ => ?_
  have hm : checkedMul64 z.toUInt64 n = some (z.toUInt64 * n) := by
    unfold checkedMul64
    rw [if_pos (by rw [UInt32.toNat_toUInt64]; omega)]
  have hn : (z.toUInt64 * n).toNat = z.toNat * n.toNat := by
    rw [UInt64.toNat_mul, UInt32.toNat_toUInt64, Nat.mod_eq_of_lt (by omega)]
  rw [hm, Option.bind_some, show usizeOf32 (z.toUInt64 * n) = some (z.toUInt64 * n).toNat from if_pos (by omega)]
  refine funext fun d => ?_
  obtain ⟨-, e2, e3⟩ := vec_same (ε := IoErr) (p := z.toUInt64 * n) (by omega)
  simp only [M.bind_apply, M.lift_apply, Res.ofOption_some, e2, e3]

theorem GptDisk.writeEntries32_eq {m : Mode} {lb : LbSize} {ph : Header} {bh : Option Header} (hp : Handy ph) (hb : ∀ b ∈ bh, Handy b)
    (ps : List Partition) (i n : Nat) : writeEntries32 m lb ph bh ps i n = writeEntries m lb ph bh ps i n := by
  have one : ∀ {h : Header} {i : Nat}, Handy h → i < h.numParts.toNat → h.partSize.toNat < 2 ^ 31 := by
    intro h i hh hi
    have : 1 * h.partSize.toNat ≤ h.numParts.toNat * h.partSize.toNat := Nat.mul_le_mul_right _ (by omega)
    unfold Handy at hh
    omega
  induction ps generalizing i n with
  | nil => rfl
  | cons p ps ih =>
    unfold writeEntries32 writeEntries
    by_cases hi : i ≥ ph.numParts.toNat
    · rw [if_pos hi, if_pos hi]
    rw [if_neg hi, if_neg hi, Partition.writeToDevice32_eq (one (i := i) hp (by omega))]
    refine M.bind_congr fun _ => ?_
    cases bh with
    | none => simp only; rw [ih]
    | some b =>
      simp only
      by_cases hi2 : i ≥ b.numParts.toNat
      · rw [if_pos hi2, if_pos hi2, ih]
      rw [if_neg hi2, if_neg hi2, Partition.writeToDevice32_eq (one (i := i) (hb b rfl) (by omega)), ih]

theorem GptDisk.writeZeros32_eq {h : Header} (hs : Handy h) (m : Mode) (lb : LbSize) (next : Nat) :
    writeZeros32 m lb h next = writeZeros m lb h next := by
  unfold writeZeros32 writeZeros
  cases hc : checkedSub64 h.numParts.toUInt64 (UInt64.ofNat next) with
  | none => rfl
  | some n =>
    obtain ⟨h1, h2⟩ := checkedSub64_some.mp hc
    rw [UInt32.toNat_toUInt64] at h1 h2
    refine funext fun d => ?_
    simp only [M.bind_apply, M.pure_apply]
    rw [Partition.writeZeroEntries32_eq]
    refine Nat.lt_of_le_of_lt ?_ hs
    rw [Nat.mul_comm]
    exact Nat.mul_le_mul_right _ (by omega)

theorem handy_build {m : Mode} {h k : Header} {lb : LbSize} {b : Bool} (hs : Handy h)
    (hb : (((HeaderBuilder.fromHeader h).setPrimary b).build m lb).mapErr GptError.header = .ok k) : Handy k := by
  cases hx : ((HeaderBuilder.fromHeader h).setPrimary b).build m lb with
  | ok k' =>
    rw [hx] at hb
    cases hb
    obtain ⟨rfl, -⟩ := HeaderBuilder.build_ok (b := (HeaderBuilder.fromHeader h).setPrimary b) (by
      have : h.numParts.toNat * h.partSize.toNat < 2 ^ 31 := hs
      show h.numParts.toNat * h.partSize.toNat < 2 ^ 32
      omega) hx
    exact hs
  | err e => rw [hx] at hb; cases hb
  | panic => rw [hx] at hb; cases hb

theorem onBackup32_eq {h : Header} (hs : Handy h) (lb : LbSize) : onBackup h (Header.writeBackup32 lb) = onBackup h (Header.writeBackup lb) := by
  unfold onBackup
  funext s
  rw [Header.writeBackup32_eq hs]

theorem onPrimary32_eq {h : Header} (hs : Handy h) (lb : LbSize) :
    onPrimary h (Header.writePrimary32 lb) = onPrimary h (Header.writePrimary lb) := by
  unfold onPrimary
  funext s
  rw [Header.writePrimary32_eq hs]

theorem writeInplace32_eq {m : Mode} {s : GptDisk} (hs : ∀ h, s.tryHeader = .ok h → Handy h) : writeInplace32 m s = writeInplace m s := by
  unfold writeInplace32 writeInplace
  rw [M.bind_apply, M.bind_apply]
  simp only [M.get_apply]
  split
  · rfl
  refine congrFun ?_ s
  refine M.bind_congr fun _ => M.lift_bind_congr fun h hh => M.lift_bind_congr fun ph hph => M.bind_congr fun _ => ?_
  have h1 := handy_build (hs h (header_ok_iff.mp hh)) hph
  split
  · refine M.pure_bind_congr ?_
    rw [writeEntries32_eq h1 (by intro b hb; cases hb)]
    refine M.bind_congr fun next => ?_
    rw [writeZeros32_eq h1]
    refine M.bind_congr fun _ => ?_
    simp only
    rw [onPrimary32_eq h1]
  · refine M.lift_bind_congr fun bh hbh => M.bind_congr fun _ => M.pure_bind_congr ?_
    have h2 := handy_build h1 hbh
    rw [writeEntries32_eq h1 (by intro b hb; cases hb; exact h2)]
    refine M.bind_congr fun next => ?_
    rw [writeZeros32_eq h1]
    refine M.bind_congr fun _ => ?_
    simp only
    rw [writeZeros32_eq h2, onBackup32_eq h2, onPrimary32_eq h1]

/-- **C103**, calls: on a 32-bit target every call on a disk whose arrays have less than 2^31 bytes is what it is on a 64-bit one. -/
theorem c103_call (m : Mode) (op : Op) (s : GptDisk) (hs : ∀ h, s.tryHeader = .ok h → Handy h) : op.step32 m s = op.step m s := by
  cases op with
  | writeInplace =>
    unfold Op.step32 Op.step M.mapOk
    simp only
    rw [writeInplace32_eq hs]
  | _ => rfl

/-- **C103**, histories: so is every history, as long as the arrays stay below 2^31 bytes. -/
theorem c103_history (m : Mode) (ops : List Op) (s : GptDisk)
    (hs : ∀ pre post, ops = pre ++ post → ∀ h, (runOps m pre s).tryHeader = .ok h → Handy h) : runOps32 m ops s = runOps m ops s := by
  induction ops generalizing s with
  | nil => rfl
  | cons op ops ih =>
    have h0 := c103_call m op s (hs [] (op :: ops) rfl)
    unfold runOps32 runOps
    simp only [List.foldl_cons]
    rw [h0]
    refine ih _ fun pre post e h hh => hs (op :: pre) post (by rw [e]; rfl) h ?_
    unfold runOps at hh ⊢
    simpa only [List.foldl_cons] using hh

theorem fileReadPartitions32_eq {m : Mode} {h : Header} (hs : h.numParts.toNat < 2 ^ 24) (lb : LbSize) :
    fileReadPartitions32 m h lb = fileReadPartitions m h lb := by
  unfold fileReadPartitions32 fileReadPartitions
  refine M.bind_congr fun _ => M.bind_congr fun _ => ?_
  by_cases hz : h.partSize = 128
  swap
  · rw [if_pos hz, if_pos hz]
  rw [if_neg (fun hn => hn hz), if_neg (fun hn => hn hz)]
  refine M.bind_congr fun _ => M.bind_congr fun _ => M.lift_bind_congr fun p hp => ?_
  have hh : Handy h := by
    unfold Handy
    rw [hz, show (128 : UInt32).toNat = 128 from rfl]
    omega
  obtain ⟨e1, e2, -⟩ := vec_same (ε := IoErr) (handy_len hh (Res.ofOption_ok hp))
  rw [e1, e2]
  rfl

/-- The part of `open_from_device` after the headers were read. -/
def openRest32 (m : Mode) (cfg : GptConfig) (h1 h2 : Except HeaderError Header) (header : Header) : M Dev GptError GptDisk := do
  let table ← (fileReadPartitions32 m header cfg.lbSize).mapErr .io
  let d ← M.get
  pure { config := cfg, device := d, guid := header.diskGuid, primaryHeader := h1, backupHeader := h2, partitions := table, syncAll := false }

theorem openFromDevice32_eq (m : Mode) (cfg : GptConfig) (d : Dev) : openFromDevice32 m cfg d =
    match ((readPrimaryHeader cfg.lbSize).attempt : M Dev GptError _) d with
    | (.err e, d1) => (.err e, d1)
    | (.panic, d1) => (.panic, d1)
    | (.ok h1, d1) => match ((readBackupHeader cfg.lbSize).attempt : M Dev GptError _) d1 with
      | (.err e, d2) => (.err e, d2)
      | (.panic, d2) => (.panic, d2)
      | (.ok h2, d2) => match selectHeader cfg.onlyValidHeaders h1 h2 with
        | .error e => (.err (.header e), d2)
        | .ok h => openRest32 m cfg h1 h2 h d2 := by
  unfold openFromDevice32
  simp only [M.bind_apply]
  split
  · rename_i h1 d1 hp
    simp only [hp]
    split
    · rename_i h2 d2 hb
      simp only [hb]
      cases h1 <;> cases h2 <;> simp only [selectHeader] <;> first
        | (split <;> simp [openRest32, M.bind_apply])
        | (cases cfg.onlyValidHeaders <;> simp [openRest32, M.bind_apply])
    · rename_i e d2 hb; simp only [hb]
    · rename_i d2 hb; simp only [hb]
  · rename_i e d1 hp; simp only [hp]
  · rename_i d1 hp; simp only [hp]

theorem open32_any (m : Mode) (cfg : GptConfig) (d : Dev) :
    ∃ h1 h2, Res.ofExcept h1 = (readPrimaryHeader cfg.lbSize d).1 ∧
      Res.ofExcept h2 = (readBackupHeader cfg.lbSize (readPrimaryHeader cfg.lbSize d).2).1 ∧
      (openFromDevice m cfg d = match selectHeader cfg.onlyValidHeaders h1 h2 with
        | .error e => (.err (.header e), (readBackupHeader cfg.lbSize (readPrimaryHeader cfg.lbSize d).2).2)
        | .ok h => openRest m cfg h1 h2 h (readBackupHeader cfg.lbSize (readPrimaryHeader cfg.lbSize d).2).2) ∧
      (openFromDevice32 m cfg d = match selectHeader cfg.onlyValidHeaders h1 h2 with
        | .error e => (.err (.header e), (readBackupHeader cfg.lbSize (readPrimaryHeader cfg.lbSize d).2).2)
        | .ok h => openRest32 m cfg h1 h2 h (readBackupHeader cfg.lbSize (readPrimaryHeader cfg.lbSize d).2).2) := by
  obtain ⟨h1, e1, f1⟩ := attempt_ofExcept (ε' := GptError) (readPrimaryHeader_noPanic cfg.lbSize d)
  obtain ⟨h2, e2, f2⟩ := attempt_ofExcept (ε' := GptError) (readBackupHeader_noPanic cfg.lbSize (readPrimaryHeader cfg.lbSize d).2)
  refine ⟨h1, h2, e1, e2, ?_, ?_⟩
  · rw [openFromDevice_eq, f1]
    simp only [f2]
    rfl
  · rw [openFromDevice32_eq, f1]
    simp only [f2]

/-- **C103**, opening: on a 32-bit target opening is what it is on a 64-bit one, whatever fails, if the valid headers on the device have
fewer than 2^24 entries (less than 2^31 bytes). -/
theorem c103_open (m : Mode) (cfg : GptConfig) (d : Dev)
    (hs : ∀ off h, ValidAt d.data off → HeaderAt d.data off h → h.numParts.toNat < 2 ^ 24) :
    openFromDevice32 m cfg d = openFromDevice m cfg d ∧ openFile32 m cfg d = openFile m cfg d := by
  have key : openFromDevice32 m cfg d = openFromDevice m cfg d := by
    obtain ⟨h1, h2, e1, e2, e3, e4⟩ := open32_any m cfg d
    have q1 := readPrimaryHeader_quiet cfg.lbSize d
    rw [e3, e4]
    cases hsel : selectHeader cfg.onlyValidHeaders h1 h2 with
    | error e => rfl
    | ok h =>
      have hst : ∃ off, Spec.ValidAt d.data off ∧ Spec.HeaderAt d.data off h := by
        rcases (select_spec.1 h).mp hsel with ⟨r, -⟩ | ⟨-, -, r⟩
        · exact read_stored (d' := (readPrimaryHeader cfg.lbSize d).2) (.inl (Prod.ext (by rw [← e1, r]; rfl) rfl))
        · rw [← q1.data]
          exact read_stored (d' := (readBackupHeader cfg.lbSize (readPrimaryHeader cfg.lbSize d).2).2)
            (.inr (Prod.ext (by rw [← e2, r]; rfl) rfl))
      obtain ⟨off, hv, ha⟩ := hst
      simp only
      unfold openRest32 openRest
      rw [fileReadPartitions32_eq (hs off h hv ha)]
  refine ⟨key, ?_⟩
  unfold openFile32 openFile
  rw [M.bind_apply, M.bind_apply, key]

/-- **C103**, the standalone writers: `write_header` and `Partition::write` do on a 32-bit target what they do on a 64-bit one. -/
theorem c103_writers (m : Mode) (uuid : Option Uuid) (fresh : Uuid) (p : Partition) (i l : UInt64) (lb : LbSize) (d : Dev) :
    writeHeader32 m uuid fresh lb d = writeHeader m uuid fresh lb d ∧ Partition.writeToDevice32 m p i l lb 128 d = p.write m i l lb d := by
  refine ⟨?_, ?_⟩
  · refine congrFun ?_ d
    unfold writeHeader32 writeHeader
    refine M.bind_congr fun bak => M.lift_bind_congr fun h hh => ?_
    have hb : (writeHeaderBuilder uuid fresh bak).numParts = 128 ∧ (writeHeaderBuilder uuid fresh bak).partSize = 128 := by
      unfold writeHeaderBuilder
      cases uuid <;> exact ⟨rfl, rfl⟩
    obtain ⟨rfl, -⟩ := HeaderBuilder.build_ok (by rw [hb.1, hb.2]; decide) hh
    have hy : Handy ((writeHeaderBuilder uuid fresh bak).out lb) := by
      show (writeHeaderBuilder uuid fresh bak).numParts.toNat * (writeHeaderBuilder uuid fresh bak).partSize.toNat < 2 ^ 31
      rw [hb.1, hb.2]
      decide
    unfold writePrimaryGuid32 writePrimaryGuid
    funext d
    rw [Header.writePrimary32_eq hy]
    rfl
  · rw [Partition.writeToDevice32_eq (by decide)]
    rfl

/-- The number of bytes of the array of `h` a 32-bit target computes the checksum of. -/
def Spec.cutLength (h : Header) : Nat := 128 * h.numParts.toNat % 2 ^ 32

theorem fileReadPartitions32_ok {m : Mode} {h : Header} {lb : LbSize} {d : Dev} (hf : d.faults = [])
    (he : m = .release ∨ d.data.length < 2 ^ 38) :
    (∃ t, (fileReadPartitions32 m h lb d).1 = .ok t) ↔ h.partStart.toNat * lb.usize < 2 ^ 64 ∧ h.partSize.toNat = 128 ∧
      (0 < h.numParts.toNat → h.partStart.toNat * lb.usize + 128 * h.numParts.toNat ≤ d.data.length) ∧ cutLength h < 2 ^ 31 ∧
      crc32 (slice d.data (h.partStart.toNat * lb.usize) (cutLength h)) = h.crc32Parts := by
  have hzero : (0 : UInt32).toNat = 0 := rfl
  have hn := h.numParts.toNat_lt
  by_cases hs : 2 ^ 64 ≤ h.partStart.toNat * lb.usize
  · have hps : checkedMul64 h.partStart lb.u64 = none := by
      unfold checkedMul64
      rw [if_neg (by rw [lb_u64_toNat]; omega)]
    refine iff_of_false ?_ (by omega)
    unfold fileReadPartitions32
    simp only [M.bind_apply, M.lift_apply, hps]
    simp [Res.ofOption]
  have hps : checkedMul64 h.partStart lb.u64 = some (h.partStart * lb.u64) := by
    unfold checkedMul64
    rw [if_pos (by rw [lb_u64_toNat]; omega)]
  have hps2 : (h.partStart * lb.u64).toNat = h.partStart.toNat * lb.usize := by
    rw [UInt64.toNat_mul, lb_u64_toNat, Nat.mod_eq_of_lt (by omega)]
  unfold fileReadPartitions32
  simp only [M.bind_apply, M.lift_apply, hps, Res.ofOption_some]
  rw [Dev.seekStart_nil hf]
  simp only
  by_cases h128 : h.partSize = 128
  swap
  · rw [if_pos h128]
    refine iff_of_false ?_ fun ⟨_, h2, _⟩ => h128 (UInt32.toNat_inj.mp h2)
    rintro ⟨t, ht⟩
    cases ht
  rw [if_neg (fun hn => hn h128)]
  have e128 : h.partSize.toNat = 128 := by rw [h128]; rfl
  simp only [M.bind_apply, M.lift_apply]
  have hr := readEntries_runs (m := m) h.numParts.toNat (i := 0) (e := 0) (parts := [])
    (d := { d with pos := (h.partStart * lb.u64).toNat }) hf (by rw [hzero]; omega) (by omega) he
  simp only [hps2] at hr
  by_cases hl : h.numParts.toNat = 0 ∨ h.partStart.toNat * lb.usize + 128 * h.numParts.toNat ≤ d.data.length
  swap
  · refine iff_of_false ?_ (by omega)
    have := hr.2 hl
    simp only [hps2]
    rcases hx : readEntries m h.numParts.toNat 0 0 [] { d with pos := h.partStart.toNat * lb.usize } with ⟨r, d1⟩
    rw [hx] at this
    simp only at this
    subst this
    rintro ⟨t, ht⟩
    cases ht
  obtain ⟨t, ht⟩ := hr.1 hl
  simp only [hps2, ht]
  rw [Dev.seekStart_nil (by exact hf)]
  simp only
  rw [h128, checkedMul_count]
  simp only [Res.ofOption_some]
  have hcut : asUsize32 (h.numParts.toUInt64 * (128 : UInt32).toUInt64) = cutLength h := by
    unfold asUsize32 cutLength
    rw [count128, Nat.mul_comm]
  have hle : cutLength h ≤ 128 * h.numParts.toNat := Nat.mod_le _ _
  rw [hcut]
  by_cases hv : cutLength h < 2 ^ 31
  swap
  · rw [show (vecOf32 (cutLength h) : Res IoErr Unit) = .panic from if_neg hv]
    refine iff_of_false ?_ (by omega)
    rintro ⟨t, ht⟩
    cases ht
  rw [show (vecOf32 (cutLength h) : Res IoErr Unit) = .ok () from if_pos hv]
  simp only
  have hrd : ∃ d2, Dev.readExact (cutLength h) { d with pos := (h.partStart * lb.u64).toNat } =
      (.ok (slice d.data (h.partStart.toNat * lb.usize) (cutLength h)), d2) := by
    rcases Nat.eq_zero_or_pos (cutLength h) with h0 | h0
    · rw [h0]
      exact ⟨{ d with pos := (h.partStart * lb.u64).toNat }, by unfold Dev.readExact; rw [if_pos (by omega)]; simp only [slice, List.take_zero]⟩
    · rw [Dev.readExact_nil (by exact hf) (by show (h.partStart * lb.u64).toNat + _ ≤ d.data.length; rw [hps2]; omega)]
      exact ⟨_, by simp only [hps2]; rfl⟩
  obtain ⟨d2, hd2⟩ := hrd
  rw [hd2]
  simp only
  by_cases hc : crc32 (slice d.data (h.partStart.toNat * lb.usize) (cutLength h)) = h.crc32Parts
  · rw [if_neg (fun hn => hn hc)]
    exact iff_of_true ⟨t, rfl⟩ ⟨by omega, rfl, by omega, hv, hc⟩
  · rw [if_pos hc]
    refine iff_of_false ?_ fun hh => hc hh.2.2.2.2
    rintro ⟨t, ht⟩
    cases ht

theorem governs_select32 {m : Mode} {cfg : GptConfig} {d : Dev} (hf : d.faults = []) (hp : d.pos < 2 ^ 64) (hlen : d.data.length < 2 ^ 64) :
    ∃ h1 h2, (∀ h, Governs cfg d.data h ↔ selectHeader cfg.onlyValidHeaders h1 h2 = .ok h) ∧
      (openFromDevice m cfg d = match selectHeader cfg.onlyValidHeaders h1 h2 with
        | .error e => (.err (.header e), d)
        | .ok h => openRest m cfg h1 h2 h d) ∧
      openFromDevice32 m cfg d = match selectHeader cfg.onlyValidHeaders h1 h2 with
        | .error e => (.err (.header e), d)
        | .ok h => openRest32 m cfg h1 h2 h d := by
  obtain ⟨h1, h2, hg, r1, r2, e⟩ := governs_select (m := m) (cfg := cfg) hf hp hlen
  refine ⟨h1, h2, hg, e, ?_⟩
  have att : ∀ {x : M Dev HeaderError Header} {h : Except HeaderError Header}, x d = (Res.ofExcept h, d) →
      (x.attempt : M Dev GptError _) d = (.ok h, d) := by
    intro x h hx
    rw [M.attempt_apply, hx]
    cases h <;> rfl
  rw [openFromDevice32_eq, att r1]
  simp only [att r2]

/-- **C103**, opening a working device: a governing header of less than 2^24 entries is enough. -/
theorem c103_open_working (m : Mode) (cfg : GptConfig) (d : Dev) (hf : d.faults = []) (hp : d.pos < 2 ^ 64) (hlen : d.data.length < 2 ^ 64)
    (hs : ∀ h, Governs cfg d.data h → h.numParts.toNat < 2 ^ 24) : openFromDevice32 m cfg d = openFromDevice m cfg d := by
  obtain ⟨h1, h2, hg, e, e32⟩ := governs_select32 (m := m) (cfg := cfg) hf hp hlen
  rw [e, e32]
  cases hsel : selectHeader cfg.onlyValidHeaders h1 h2 with
  | error e => rfl
  | ok h =>
    simp only
    unfold openRest32 openRest
    rw [fileReadPartitions32_eq (hs h ((hg h).mpr hsel))]

/-- **C103**, ordinary use: in a session every call does on a 32-bit target what it does on a 64-bit one, and so does opening what has
been written. -/
theorem c103_session {m : Mode} {cfg : GptConfig} {k : Nat} {d : Dev} {s : GptDisk} (hs : InSession m cfg k d s) :
    (∀ op : Op, op.step32 m s = op.step m s) ∧ ∃ s1 s2 d2, writeInplace32 m s = (.ok (), s1) ∧
      openFromDevice32 m cfg s1.device = openFromDevice m cfg s1.device ∧ openFromDevice m cfg s1.device = (.ok s2, d2) := by
  have small : ∀ {s : GptDisk}, InSession m cfg k d s → ∀ h, s.tryHeader = .ok h → h.numParts.toNat = 128 ∧ h.partSize.toNat = 128 := by
    intro s hs h hh
    obtain ⟨B, h', -, -, -, v⟩ := hs.sound
    obtain rfl := Except.ok.inj ((header_try v.sane.header).symm.trans hh)
    exact ⟨by rw [v.count]; rfl, by rw [v.sane.sane.entry]; rfl⟩
  have handy : ∀ h, s.tryHeader = .ok h → Handy h := fun h hh => by
    obtain ⟨a, b⟩ := small hs h hh
    unfold Handy
    rw [a, b]
    decide
  refine ⟨fun op => c103_call m op s handy, ?_⟩
  obtain ⟨s1, s2, d2, -, hw, ho, hs2, -⟩ := c67_write_open hs
  refine ⟨s1, s2, d2, by rw [writeInplace32_eq handy, hw], ?_, ho⟩
  have hs1 : InSession m cfg k d s1 := by
    obtain ⟨guid, fresh, fresh2, s0, d0, hcr, hse⟩ := hs.session
    refine { hs with session := ⟨guid, fresh, fresh2, s0, d0, hcr, ?_⟩ }
    have := hse.call .writeInplace trivial
    simp only [Op.step, M.mapOk, hw] at this
    exact this
  obtain ⟨B, h, -, -, -, v⟩ := hs1.sound
  have hl := v.works.length
  have hc := v.works.cap
  refine c103_open_working m cfg s1.device v.works.faults v.works.pos (by omega) fun h' hg' => ?_
  obtain ⟨h1, h2, hg, e⟩ := governs_select (m := m) (cfg := cfg) v.works.faults v.works.pos (show s1.device.data.length < 2 ^ 64 by omega)
  rw [hg] at hg'
  rw [e.2.2, hg'] at ho
  unfold openRest at ho
  simp only [M.bind_ok] at ho
  obtain ⟨t, d3, -, d4, d5, hd, ho⟩ := ho
  rw [M.pure_apply] at ho
  have hs2h : s2.tryHeader = .ok h' := by
    injection ho with ho _
    injection ho with ho
    rw [← ho]
    unfold tryHeader
    rcases (select_spec.1 h').mp hg' with ⟨r, -⟩ | ⟨-, ⟨e, r⟩, r'⟩
    · simp only [r]
    · simp only [r, r']
  rw [(small hs2 h' hs2h).1]
  decide

/-- **C103**, acceptance: on a 32-bit target opening succeeds exactly when a header governs, its entries have 128 bytes, its array is on
the device, and the first `128 * num_parts mod 2^32` bytes of the array, which must be less than 2^31, have the checksum of the header. -/
theorem c103_accepts (m : Mode) (cfg : GptConfig) (d : Dev) (hf : d.faults = []) (hp : d.pos < 2 ^ 64) (hlen : d.data.length < 2 ^ 64)
    (he : m = .release ∨ d.data.length < 2 ^ 38) :
    (∃ s, (openFromDevice32 m cfg d).1 = .ok s) ↔ ∃ h, Governs cfg d.data h ∧ h.partSize.toNat = 128 ∧
      h.partStart.toNat * cfg.lbSize.usize < 2 ^ 64 ∧
      (0 < h.numParts.toNat → h.partStart.toNat * cfg.lbSize.usize + 128 * h.numParts.toNat ≤ d.data.length) ∧ cutLength h < 2 ^ 31 ∧
      crc32 (slice d.data (h.partStart.toNat * cfg.lbSize.usize) (cutLength h)) = h.crc32Parts := by
  obtain ⟨h1, h2, hg, -, e32⟩ := governs_select32 (m := m) (cfg := cfg) hf hp hlen
  rw [e32]
  cases hs : selectHeader cfg.onlyValidHeaders h1 h2 with
  | error x =>
    refine iff_of_false (by simp) ?_
    rintro ⟨h, a, -⟩
    rw [hg, hs] at a
    cases a
  | ok h =>
    have hone : ∀ h', Governs cfg d.data h' ↔ h' = h := by
      intro h'
      rw [hg, hs]
      simp [eq_comm]
    have hrest : (∃ s, (openRest32 m cfg h1 h2 h d).1 = .ok s) ↔ ∃ t, (fileReadPartitions32 m h cfg.lbSize d).1 = .ok t := by
      unfold openRest32
      simp only [M.bind_apply, M.mapErr_apply, M.get_apply, M.pure_apply]
      rcases fileReadPartitions32 m h cfg.lbSize d with ⟨r, d1⟩
      cases r <;> simp
    simp only
    rw [hrest, fileReadPartitions32_ok hf he]
    simp only [hone, exists_eq_left]
    tauto

/-- A header with an array of 4 GiB. -/
def wideHeader : Header := { sampleHeader with numParts := 2 ^ 25 }

/-- **C103**, 4 GiB: on a 32-bit target an array of 2^25 entries is accepted whatever it holds, if the header has 0 as its checksum, also
where a 64-bit target refuses it. -/
theorem c103_blind (m : Mode) (cap : Nat) :
    (∀ rest : Bytes, rest.length = 2 ^ 32 →
      ∃ s, (openFromDevice32 m GptConfig.new ⟨imageOf wideHeader 0 rest, 0, cap, [], []⟩).1 = .ok s) ∧
    ∃ rest : Bytes, rest.length = 2 ^ 32 ∧
      ¬ ∃ s, (openFromDevice m GptConfig.new ⟨imageOf wideHeader 0 rest, 0, cap, [], []⟩).1 = .ok s := by
  have hlen : ∀ rest : Bytes, rest.length = 2 ^ 32 → (imageOf wideHeader 0 rest).length = 1024 + 2 ^ 32 := by
    intro rest hr
    rw [imageOf_length rfl, hr]
  have hg : ∀ rest : Bytes, Governs GptConfig.new (imageOf wideHeader 0 rest) (wideHeader.sealed 0) := fun rest =>
    imageOf_governs rfl rfl rfl rfl
  have hstart : (wideHeader.sealed 0).partStart.toNat * GptConfig.new.lbSize.usize = 1024 := by decide
  have hnum : (wideHeader.sealed 0).numParts.toNat = 2 ^ 25 := by decide
  have hsz : (wideHeader.sealed 0).partSize.toNat = 128 := by decide
  have hcrc : (wideHeader.sealed 0).crc32Parts = 0 := rfl
  have hcut : cutLength (wideHeader.sealed 0) = 0 := by
    unfold cutLength
    rw [hnum]
    omega
  have hslice : ∀ rest : Bytes, rest.length = 2 ^ 32 → slice (imageOf wideHeader 0 rest) 1024 (2 ^ 32) = rest := by
    intro rest hr
    unfold imageOf
    have hp : (zeros 512 ++ wideHeader.encode 0 ++ zeros 420).length = 1024 := by
      simp only [List.length_append, zeros_length, Header.encode_length (h := wideHeader) rfl 0]
    rw [← List.append_assoc, slice_append_right (by rw [hp]), hp, Nat.sub_self, slice_zero_length hr]
  refine ⟨fun rest hr => ?_, ?_⟩
  · have hl := hlen rest hr
    refine (c103_accepts m _ _ rfl (by show 0 < 2 ^ 64; decide) (by simp only; omega) (.inr (by simp only; omega))).mpr
      ⟨_, hg rest, hsz, by rw [hstart]; omega, fun _ => by rw [hstart, hnum]; simp only; omega, by rw [hcut]; decide, ?_⟩
    rw [hcut, hcrc, hstart]
    simp only [slice, List.take_zero]
    decide
  · have key : ∀ rest : Bytes, rest.length = 2 ^ 32 →
        (∃ s, (openFromDevice m GptConfig.new ⟨imageOf wideHeader 0 rest, 0, cap, [], []⟩).1 = .ok s) → crc32 rest = 0 := by
      intro rest hr ho
      have hl := hlen rest hr
      obtain ⟨h, a, -, -, -, b⟩ := (c84_succeeds m _ _ rfl (by show 0 < 2 ^ 64; decide) (by simp only; omega)
        (.inr (by simp only; omega))).mp ho
      obtain rfl := governs_unique a (hg rest)
      rw [hstart, hnum, hcrc] at b
      rw [← hslice rest hr]
      exact b
    have hl1 : ([0] ++ zeros (2 ^ 32 - 1)).length = 2 ^ 32 := by
      rw [List.length_append, zeros_length, List.length_singleton]
      omega
    have hl2 : ([1] ++ zeros (2 ^ 32 - 1)).length = 2 ^ 32 := by
      rw [List.length_append, zeros_length, List.length_singleton]
      omega
    have hne : crc32 ([0] ++ zeros (2 ^ 32 - 1)) ≠ crc32 ([1] ++ zeros (2 ^ 32 - 1)) := by
      have := crc32_burst (p := []) (a := [0]) (b := [1]) (q := zeros (2 ^ 32 - 1)) rfl (by decide) (by decide)
      simpa only [List.nil_append] using this
    by_cases h0 : crc32 ([0] ++ zeros (2 ^ 32 - 1)) = 0
    · refine ⟨_, hl2, fun ho => hne ?_⟩
      rw [h0, key _ hl2 ho]
    · exact ⟨_, hl1, fun ho => h0 (key _ hl1 ho)⟩

/-! ## The hypotheses are met -/

/-- `c103_session` on a table with one partition. -/
example (m : Mode) : ∃ s1 s2 d2, writeInplace32 m (sessDisk m) = (.ok (), s1) ∧
    openFromDevice m (GptConfig.new.setWritable true) s1.device = (.ok s2, d2) := by
  obtain ⟨-, s1, s2, d2, a, -, b⟩ := c103_session (sessDisk_session m)
  exact ⟨s1, s2, d2, a, b⟩

/-- `c103_call` on the same table, adding a partition that fits and one that does not. -/
example (m : Mode) (size : UInt64) : (Op.addPartition "b" size (exPart 0 0).partType 0 none Uuid.nil Uuid.nil).step32 m (sessDisk m) =
    (Op.addPartition "b" size (exPart 0 0).partType 0 none Uuid.nil Uuid.nil).step m (sessDisk m) :=
  (c103_session (sessDisk_session m)).1 _

/-- The boundary of `Handy`: 2^24 - 1 entries of 128 bytes are handy, 2^24 are not. -/
example : Handy { sampleHeader with numParts := 2 ^ 24 - 1 } ∧ ¬ Handy { sampleHeader with numParts := 2 ^ 24 } := by
  unfold Handy
  decide

end Gpt
