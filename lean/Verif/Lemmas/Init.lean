import Verif.Lemmas.Add
/-!
# `init_headers`: which headers it installs
-/

namespace Gpt

namespace GptDisk

/-- The builder of `init_headers`. -/
def initBuilder (s : GptDisk) (bak : UInt64) (fresh : Uuid) : HeaderBuilder :=
  ((((HeaderBuilder.fromMaybeHeader s.tryHeader fresh).setNumParts (UInt32.ofNat s.partitions.length)).setBackupLba
    bak).setDiskGuid s.guid).setPrimary true

/-- The result of rebuilding the backup header from `h`. -/
def backupOf (m : Mode) (h : Header) (lb : LbSize) : Res HeaderError Header :=
  ((HeaderBuilder.fromHeader h).setPrimary false).build m lb

/-- Every outcome of `init_headers`. -/
theorem initHeaders_any {m : Mode} {fresh : Uuid} {s s' : GptDisk} {r : Res GptError Unit}
    (h : initHeaders m fresh s = (r, s')) :
    (s'.primaryHeader = s.primaryHeader ∧ s'.backupHeader = s.backupHeader ∧ r ≠ .ok ()) ∨
    ∃ bak h1, findBackupLba s.config.lbSize s.device = (.ok bak, s'.device) ∧
      (s.initBuilder bak fresh).build m s.config.lbSize = .ok h1 ∧ s'.primaryHeader = .ok h1 ∧
      ((s.config.readonlyBackup = true ∧ s'.backupHeader = s.backupHeader ∧ r = .ok ()) ∨
       (s.config.readonlyBackup = false ∧ ∃ h2, backupOf m h1 s.config.lbSize = .ok h2 ∧ s'.backupHeader = .ok h2 ∧ r = .ok ()) ∨
       (s.config.readonlyBackup = false ∧ (∀ h2, backupOf m h1 s.config.lbSize ≠ .ok h2) ∧
          s'.backupHeader = s.backupHeader ∧ r ≠ .ok ())) := by
  unfold initHeaders at h
  simp only [M.bind_apply, M.get_apply] at h
  unfold onDev at h
  simp only [M.zoom_apply, M.mapErr_apply] at h
  rcases hx : findBackupLba s.config.lbSize s.device with ⟨r1, d1⟩
  rw [hx] at h
  cases r1 with
  | panic =>
    simp only [Res.mapErr_panic, Prod.mk.injEq] at h
    obtain ⟨rfl, rfl⟩ := h
    exact .inl ⟨rfl, rfl, by simp⟩
  | err e =>
    simp only [Res.mapErr_err, Prod.mk.injEq] at h
    obtain ⟨rfl, rfl⟩ := h
    exact .inl ⟨rfl, rfl, by simp⟩
  | ok bak =>
    simp only [Res.mapErr_ok, M.lift_apply] at h
    have hbd : (((((HeaderBuilder.fromMaybeHeader s.tryHeader fresh).setNumParts (UInt32.ofNat s.partitions.length)).setBackupLba
      bak).setDiskGuid s.guid).setPrimary true) = s.initBuilder bak fresh := rfl
    rw [hbd] at h
    cases hb : (s.initBuilder bak fresh).build m s.config.lbSize with
    | panic =>
      rw [hb] at h
      simp only [Res.mapErr_panic, Prod.mk.injEq] at h
      obtain ⟨rfl, rfl⟩ := h
      exact .inl ⟨rfl, rfl, by simp⟩
    | err e =>
      rw [hb] at h
      simp only [Res.mapErr_err, Prod.mk.injEq] at h
      obtain ⟨rfl, rfl⟩ := h
      exact .inl ⟨rfl, rfl, by simp⟩
    | ok h1 =>
      rw [hb] at h
      simp only [Res.mapErr_ok, M.modify_apply] at h
      refine .inr ⟨bak, h1, ?_⟩
      cases hr : s.config.readonlyBackup with
      | true =>
        rw [hr] at h
        simp only [if_true, M.pure_apply, Prod.mk.injEq] at h
        obtain ⟨rfl, rfl⟩ := h
        exact ⟨rfl, hb, rfl, .inl ⟨rfl, rfl, rfl⟩⟩
      | false =>
        rw [hr] at h
        simp only [Bool.false_eq_true, if_false, M.bind_apply, M.lift_apply] at h
        have hbk : ((HeaderBuilder.fromHeader h1).setPrimary false).build m s.config.lbSize = backupOf m h1 s.config.lbSize := rfl
        rw [hbk] at h
        cases hb2 : backupOf m h1 s.config.lbSize with
        | panic =>
          rw [hb2] at h
          simp only [Res.mapErr_panic, Prod.mk.injEq] at h
          obtain ⟨rfl, rfl⟩ := h
          exact ⟨rfl, hb, rfl, .inr (.inr ⟨rfl, by simp, rfl, by simp⟩)⟩
        | err e =>
          rw [hb2] at h
          simp only [Res.mapErr_err, Prod.mk.injEq] at h
          obtain ⟨rfl, rfl⟩ := h
          exact ⟨rfl, hb, rfl, .inr (.inr ⟨rfl, by simp, rfl, by simp⟩)⟩
        | ok h2 =>
          rw [hb2] at h
          simp only [Res.mapErr_ok, M.modify_apply, Prod.mk.injEq] at h
          obtain ⟨rfl, rfl⟩ := h
          exact ⟨rfl, hb, rfl, .inr (.inl ⟨rfl, h2, rfl, rfl, rfl⟩)⟩

/-- A successful `init_headers`, run forwards. -/
theorem initHeaders_eq {m : Mode} {fresh : Uuid} {s : GptDisk} {bak : UInt64} {d1 : Dev} {h1 h2 : Header}
    (hf : findBackupLba s.config.lbSize s.device = (.ok bak, d1))
    (hb : (s.initBuilder bak fresh).build m s.config.lbSize = .ok h1)
    (hb2 : s.config.readonlyBackup = false → backupOf m h1 s.config.lbSize = .ok h2) :
    initHeaders m fresh s = (.ok (),
      { s with device := d1, primaryHeader := .ok h1, backupHeader := if s.config.readonlyBackup then s.backupHeader else .ok h2 }) := by
  unfold initHeaders
  simp only [M.bind_apply, M.get_apply]
  unfold onDev
  simp only [M.zoom_apply, M.mapErr_apply, hf, Res.mapErr_ok, M.lift_apply]
  unfold initBuilder at hb
  simp only [hb, Res.mapErr_ok, M.modify_apply]
  cases hr : s.config.readonlyBackup with
  | true => rfl
  | false =>
    have hb2' := hb2 hr
    unfold backupOf at hb2'
    simp [M.bind_apply, hb2']

/-- An `init_headers` that fails because the header cannot be built. -/
theorem initHeaders_build_err {m : Mode} {fresh : Uuid} {s : GptDisk} {bak : UInt64} {d1 : Dev} {e : HeaderError}
    (hf : findBackupLba s.config.lbSize s.device = (.ok bak, d1))
    (hb : (s.initBuilder bak fresh).build m s.config.lbSize = .err e) :
    initHeaders m fresh s = (.err (.header e), { s with device := d1 }) := by
  unfold initHeaders
  simp only [M.bind_apply, M.get_apply]
  unfold onDev
  simp only [M.zoom_apply, M.mapErr_apply, hf, Res.mapErr_ok, M.lift_apply]
  unfold initBuilder at hb
  simp only [hb, Res.mapErr_err]

/-- An `init_headers` that fails because the end of the device cannot be found. -/
theorem initHeaders_find_err {m : Mode} {fresh : Uuid} {s : GptDisk} {d1 : Dev} {e : HeaderError}
    (hf : findBackupLba s.config.lbSize s.device = (.err e, d1)) :
    initHeaders m fresh s = (.err (.header e), { s with device := d1 }) := by
  unfold initHeaders
  simp only [M.bind_apply, M.get_apply]
  unfold onDev
  simp only [M.zoom_apply, M.mapErr_apply, hf, Res.mapErr_err]

end GptDisk

end Gpt
