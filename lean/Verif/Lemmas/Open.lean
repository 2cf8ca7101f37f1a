import Verif.Lemmas.ReadTable
import Verif.Model.Gpt
import Verif.Spec.Entry
/-!
# Opening a disk
-/

namespace Gpt

/-- Which header `open_from_device` reads the table with. -/
def selectHeader (onlyValid : Bool) : Except HeaderError Header → Except HeaderError Header → Except HeaderError Header
  | .ok h, .ok _ => .ok h
  | .error e, .error _ => .error e
  | .ok h, .error e => if onlyValid then .error e else .ok h
  | .error e, .ok h => if onlyValid then .error e else .ok h

/-- The part of `open_from_device` after the headers were read. -/
def openRest (m : Mode) (cfg : GptConfig) (h1 h2 : Except HeaderError Header) (header : Header) : M Dev GptError GptDisk := do
  let table ← (fileReadPartitions m header cfg.lbSize).mapErr .io
  let d ← M.get
  pure { config := cfg, device := d, guid := header.diskGuid, primaryHeader := h1, backupHeader := h2, partitions := table, syncAll := false }

theorem openFromDevice_eq (m : Mode) (cfg : GptConfig) (d : Dev) : openFromDevice m cfg d =
    match ((readPrimaryHeader cfg.lbSize).attempt : M Dev GptError _) d with
    | (.err e, d1) => (.err e, d1)
    | (.panic, d1) => (.panic, d1)
    | (.ok h1, d1) => match ((readBackupHeader cfg.lbSize).attempt : M Dev GptError _) d1 with
      | (.err e, d2) => (.err e, d2)
      | (.panic, d2) => (.panic, d2)
      | (.ok h2, d2) => match selectHeader cfg.onlyValidHeaders h1 h2 with
        | .error e => (.err (.header e), d2)
        | .ok h => openRest m cfg h1 h2 h d2 := by
  unfold openFromDevice
  simp only [M.bind_apply]
  split
  · rename_i h1 d1 hp
    simp only [hp]
    split
    · rename_i h2 d2 hb
      simp only [hb]
      cases h1 <;> cases h2 <;> simp only [selectHeader] <;> first
        | (split <;> simp [openRest, M.bind_apply])
        | (cases cfg.onlyValidHeaders <;> simp [openRest, M.bind_apply])
        | simp [openRest, M.bind_apply]
    · rename_i e d2 hb; simp only [hb]
    · rename_i d2 hb; simp only [hb]
  · rename_i e d1 hp; simp only [hp]
  · rename_i d1 hp; simp only [hp]

theorem readPrimaryHeader_quiet (lb : LbSize) : M.Pres Dev.Quiet (readPrimaryHeader lb) := by
  have C := Dev.quiet_chain
  unfold readPrimaryHeader
  refine M.Pres.bind C (M.Pres.attempt Dev.streamPosition_quiet) fun _ => ?_
  refine M.Pres.bind C (M.Pres.attempt (fileReadHeader_quiet _)) fun _ => ?_
  refine M.Pres.bind C (M.Pres.attempt (Dev.seekStart_quiet _)) fun _ => ?_
  split
  · exact M.Pres.pure C _
  · exact M.Pres.throw C _

theorem readBackupHeader_quiet (lb : LbSize) : M.Pres Dev.Quiet (readBackupHeader lb) := by
  have C := Dev.quiet_chain
  unfold readBackupHeader
  refine M.Pres.bind C (M.Pres.attempt Dev.streamPosition_quiet) fun _ => ?_
  refine M.Pres.bind C (findBackupLba_quiet lb) fun _ => ?_
  refine M.Pres.bind C (M.Pres.lift C _) fun _ => ?_
  refine M.Pres.bind C (M.Pres.attempt (fileReadHeader_quiet _)) fun _ => ?_
  refine M.Pres.bind C (M.Pres.attempt (Dev.seekStart_quiet _)) fun _ => ?_
  split
  · exact M.Pres.pure C _
  · exact M.Pres.throw C _

theorem readPrimaryHeader_noPanic (lb : LbSize) : M.NoPanic (readPrimaryHeader lb) := by
  unfold readPrimaryHeader
  refine M.NoPanic.bind (M.NoPanic.attempt Dev.streamPosition_noPanic) fun _ => ?_
  refine M.NoPanic.bind (M.NoPanic.attempt (fileReadHeader_noPanic _)) fun _ => ?_
  refine M.NoPanic.bind (M.NoPanic.attempt (Dev.seekStart_noPanic _)) fun _ => ?_
  split
  · exact M.NoPanic.pure _
  · exact M.NoPanic.throw _

theorem readBackupHeader_noPanic (lb : LbSize) : M.NoPanic (readBackupHeader lb) := by
  unfold readBackupHeader
  refine M.NoPanic.bind (M.NoPanic.attempt Dev.streamPosition_noPanic) fun _ => ?_
  refine M.NoPanic.bind (findBackupLba_noPanic lb) fun _ => ?_
  refine M.NoPanic.bind (M.NoPanic.lift Res.ofOption_ne_panic) fun _ => ?_
  refine M.NoPanic.bind (M.NoPanic.attempt (fileReadHeader_noPanic _)) fun _ => ?_
  refine M.NoPanic.bind (M.NoPanic.attempt (Dev.seekStart_noPanic _)) fun _ => ?_
  split
  · exact M.NoPanic.pure _
  · exact M.NoPanic.throw _

/-- The `Res` of a value that is not a panic. -/
def Res.ofExcept {ε α : Type} : Except ε α → Res ε α
  | .ok a => .ok a
  | .error e => .err e

theorem attempt_ofExcept {σ ε ε' α : Type} {x : M σ ε α} {s : σ} (h : (x s).1 ≠ .panic) :
    ∃ r, Res.ofExcept r = (x s).1 ∧ (x.attempt : M σ ε' (Except ε α)) s = (.ok r, (x s).2) := by
  rw [M.attempt_apply]
  rcases hx : x s with ⟨r, s'⟩
  rw [hx] at h
  cases r with
  | ok a => exact ⟨.ok a, rfl, rfl⟩
  | err e => exact ⟨.error e, rfl, rfl⟩
  | panic => exact absurd rfl h

/-- `open_from_device` in every outcome: the two header reads, the choice, the table. -/
theorem openFromDevice_any (m : Mode) (cfg : GptConfig) (d : Dev) :
    ∃ h1 h2, Res.ofExcept h1 = (readPrimaryHeader cfg.lbSize d).1 ∧
      Res.ofExcept h2 = (readBackupHeader cfg.lbSize (readPrimaryHeader cfg.lbSize d).2).1 ∧
      openFromDevice m cfg d = match selectHeader cfg.onlyValidHeaders h1 h2 with
        | .error e => (.err (.header e), (readBackupHeader cfg.lbSize (readPrimaryHeader cfg.lbSize d).2).2)
        | .ok h => openRest m cfg h1 h2 h (readBackupHeader cfg.lbSize (readPrimaryHeader cfg.lbSize d).2).2 := by
  obtain ⟨h1, e1, f1⟩ := attempt_ofExcept (ε' := GptError) (readPrimaryHeader_noPanic cfg.lbSize d)
  obtain ⟨h2, e2, f2⟩ := attempt_ofExcept (ε' := GptError) (readBackupHeader_noPanic cfg.lbSize (readPrimaryHeader cfg.lbSize d).2)
  refine ⟨h1, h2, e1, e2, ?_⟩
  rw [openFromDevice_eq, f1]
  simp only
  rw [f2]

/-- `open_from_device` without faults. -/
theorem openFromDevice_nil (m : Mode) (cfg : GptConfig) {d : Dev} (hf : d.faults = []) (hp : d.pos < 2 ^ 64)
    (hlen : d.data.length < 2 ^ 64) :
    ∃ h1 h2, Res.ofExcept h1 = readHeaderAt d.data cfg.lbSize.usize ∧ Res.ofExcept h2 = readBackupAt d.data cfg.lbSize ∧
      openFromDevice m cfg d = match selectHeader cfg.onlyValidHeaders h1 h2 with
        | .error e => (.err (.header e), d)
        | .ok h => openRest m cfg h1 h2 h d := by
  obtain ⟨h1, h2, e1, e2, e3⟩ := openFromDevice_any m cfg d
  rw [readPrimaryHeader_nil hf hp] at e1 e2 e3
  simp only at e1 e2 e3
  rw [readBackupHeader_nil hf hp hlen] at e2 e3
  exact ⟨h1, h2, e1, e2, e3⟩

theorem openRest_ok {m : Mode} {cfg : GptConfig} {h1 h2 : Except HeaderError Header} {h : Header} {d d' : Dev} {s : GptDisk}
    (hok : openRest m cfg h1 h2 h d = (.ok s, d')) :
    fileReadPartitions m h cfg.lbSize d = (.ok s.partitions, d') ∧
    s = { config := cfg, device := d', guid := h.diskGuid, primaryHeader := h1, backupHeader := h2, partitions := s.partitions, syncAll := false } := by
  unfold openRest at hok
  simp only [M.bind_ok, M.mapErr_ok, M.get_ok, M.pure_ok] at hok
  obtain ⟨t, d1, h3, _, _, ⟨rfl, rfl⟩, rfl, rfl⟩ := hok
  exact ⟨h3, rfl⟩

theorem select_try {b : Bool} {h1 h2 : Except HeaderError Header} {h : Header} (hsel : selectHeader b h1 h2 = .ok h) :
    (match h1 with
    | .ok h => Except.ok h
    | .error _ => match h2 with
      | .ok h => .ok h
      | .error e => .error e.lossyClone) = .ok h := by
  cases h1 <;> cases h2 <;> cases b <;> simp [selectHeader] at hsel ⊢ <;> exact hsel

/-- A successful `open_from_device`. -/
theorem openFromDevice_ok {m : Mode} {cfg : GptConfig} {d d' : Dev} {s : GptDisk}
    (hok : openFromDevice m cfg d = (.ok s, d')) :
    ∃ h d2, Res.ofExcept s.primaryHeader = (readPrimaryHeader cfg.lbSize d).1 ∧
      Res.ofExcept s.backupHeader = (readBackupHeader cfg.lbSize (readPrimaryHeader cfg.lbSize d).2).1 ∧
      selectHeader cfg.onlyValidHeaders s.primaryHeader s.backupHeader = .ok h ∧ s.tryHeader = .ok h ∧
      s.guid = h.diskGuid ∧ s.config = cfg ∧ s.syncAll = false ∧ s.device = d' ∧ d2.data = d.data ∧
      fileReadPartitions m h cfg.lbSize d2 = (.ok s.partitions, d') := by
  obtain ⟨h1, h2, e1, e2, e3⟩ := openFromDevice_any m cfg d
  rw [hok] at e3
  cases hsel : selectHeader cfg.onlyValidHeaders h1 h2 with
  | error e => rw [hsel] at e3; simp at e3
  | ok h =>
    rw [hsel] at e3
    obtain ⟨f1, f2⟩ := openRest_ok e3.symm
    have p1 : s.primaryHeader = h1 := by rw [f2]
    have p2 : s.backupHeader = h2 := by rw [f2]
    refine ⟨h, _, by rw [p1]; exact e1, by rw [p2]; exact e2, by rw [p1, p2]; exact hsel, ?_, by rw [f2], by rw [f2], by rw [f2],
      by rw [f2], ?_, f1⟩
    · unfold GptDisk.tryHeader
      rw [p1, p2]
      exact select_try hsel
    · exact ((readPrimaryHeader_quiet _ d).trans (readBackupHeader_quiet _ _)).data

theorem openRest_quiet (m : Mode) (cfg : GptConfig) (h1 h2 : Except HeaderError Header) (h : Header) :
    M.Pres Dev.Quiet (openRest m cfg h1 h2 h) := by
  have C := Dev.quiet_chain
  unfold openRest
  refine M.Pres.bind C (M.Pres.mapErr _ (fileReadPartitions_quiet m h _)) fun _ => ?_
  exact M.Pres.bind C (M.Pres.get C) fun _ => M.Pres.pure C _

/-- Opening never changes the content. -/
theorem openFromDevice_quiet (m : Mode) (cfg : GptConfig) : M.Pres Dev.Quiet (openFromDevice m cfg) := by
  intro d
  obtain ⟨h1, h2, _, _, e3⟩ := openFromDevice_any m cfg d
  have hq := (readPrimaryHeader_quiet cfg.lbSize d).trans (readBackupHeader_quiet cfg.lbSize _)
  rw [e3]
  split
  · exact hq
  · exact hq.trans (openRest_quiet m cfg h1 h2 _ _)

/-- The header decoding as a specification. -/
theorem entryAt_decode {data : Bytes} {off : Nat} (hl : off + 128 ≤ data.length) :
    Spec.EntryAt data off (partitionOfBytes (slice data off 128)) := by
  have hlen := slice_length_of_le hl
  have key : ∀ a n, a + n ≤ 128 → slice (slice data off 128) a n = slice data (off + a) n := fun a n h => slice_slice h
  refine ⟨?_, ?_, ?_, ?_, ?_, ?_⟩
  · show Spec.guidBytes (PType.ofGuid _).guid = _
    rw [PType.ofGuid_guid]
    have := (ofDisk_iff (b := slice data off 128) (off := 0) (by omega)).mp rfl
    rw [this, key 0 16 (by omega)]; rfl
  · have := (ofDisk_iff (b := slice data off 128) (off := 16) (by omega)).mp rfl
    rw [key 16 16 (by omega)] at this
    exact this
  · have := (rd64_iff (b := slice data off 128) (off := 32) (by omega)).mp rfl
    rw [key 32 8 (by omega)] at this
    exact this
  · have := (rd64_iff (b := slice data off 128) (off := 40) (by omega)).mp rfl
    rw [key 40 8 (by omega)] at this
    exact this
  · have := (rd64_iff (b := slice data off 128) (off := 48) (by omega)).mp rfl
    rw [key 48 8 (by omega)] at this
    exact this
  · show fromUtf16Lossy ((nameUnits _).takeWhile _) = _
    congr 2
    unfold nameUnits
    apply List.map_congr_left
    intro i hi
    have hi := List.mem_range.mp hi
    unfold rd16 Spec.nameUnit Spec.num
    rw [key _ _ (by omega), Nat.add_assoc]

theorem slotFull_iff {data : Bytes} {off j : Nat} (hl : off + 128 * j + 128 ≤ data.length) :
    Spec.SlotFull data off j ↔ slice data (off + 128 * j) 128 ≠ zeros 128 := by
  constructor
  · rintro ⟨i, hi, hb⟩ h
    apply hb
    have := congrArg (fun b => byteAt b i) h
    simp only [byteAt_zeros, byteAt_slice, if_pos hi] at this
    exact this
  · intro h
    by_contra hc
    apply h
    apply slice_eq_of_byteAt hl (zeros_length _)
    intro i hi
    rw [byteAt_zeros]
    by_contra hb
    exact hc ⟨i, hi, hb⟩

end Gpt
