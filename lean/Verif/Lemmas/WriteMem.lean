import Verif.Lemmas.Steps
/-!
# `write_inplace`: what it does to the in-memory state
-/

namespace Gpt

/-- Equal up to the two checksum fields. -/
def Header.SameBut (h h' : Header) : Prop := h' = { h with crc32 := h'.crc32, crc32Parts := h'.crc32Parts }

theorem Header.SameBut.refl (h : Header) : h.SameBut h := rfl

theorem Header.SameBut.trans {a b c : Header} (h1 : a.SameBut b) (h2 : b.SameBut c) : a.SameBut c := by
  unfold SameBut at *
  rw [h2, h1]

theorem sameBut_chain : M.Chain (fun (s s' : Header × Dev) => s.1.SameBut s'.1) where
  refl s := .refl _
  trans _ _ _ h1 h2 := h1.trans h2

theorem fileWriteHeader_mem (lba : UInt64) (lb : LbSize) :
    M.Pres (fun (s s' : Header × Dev) => s.1.SameBut s'.1) (Header.fileWriteHeader lba lb) := by
  have C := sameBut_chain
  have hd : ∀ {ε α : Type} (x : M Dev ε α), M.Pres (fun (s s' : Header × Dev) => s.1.SameBut s'.1) (Header.onDev x) :=
    fun x s => .refl _
  unfold Header.fileWriteHeader
  refine M.Pres.bind C (M.Pres.get C) fun s => ?_
  refine M.Pres.bind C (hd _) fun c => ?_
  refine M.Pres.bind C (fun _ => rfl) fun _ => ?_
  refine M.Pres.bind C (M.Pres.get C) fun s => ?_
  refine M.Pres.bind C (M.Pres.lift C _) fun s => ?_
  refine M.Pres.bind C (fun _ => rfl) fun _ => ?_
  refine M.Pres.bind C (M.Pres.lift C _) fun s => ?_
  refine M.Pres.bind C (hd _) fun c => ?_
  refine M.Pres.bind C (hd _) fun c => ?_
  exact M.Pres.pure C _

theorem writePrimary_mem (lb : LbSize) (h : Header) (d : Dev) : h.SameBut (Header.writePrimary lb (h, d)).2.1 := by
  have C := sameBut_chain
  have : M.Pres (fun (s s' : Header × Dev) => s.1.SameBut s'.1) (Header.writePrimary lb) := by
    unfold Header.writePrimary
    refine M.Pres.bind C (M.Pres.get C) fun s => ?_
    split
    · exact M.Pres.throw C _
    · exact fileWriteHeader_mem _ _
  exact this (h, d)

theorem writeBackup_mem (lb : LbSize) (h : Header) (d : Dev) : h.SameBut (Header.writeBackup lb (h, d)).2.1 := by
  have C := sameBut_chain
  have : M.Pres (fun (s s' : Header × Dev) => s.1.SameBut s'.1) (Header.writeBackup lb) := by
    unfold Header.writeBackup
    refine M.Pres.bind C (M.Pres.get C) fun s => ?_
    split
    · exact M.Pres.throw C _
    · exact fileWriteHeader_mem _ _
  exact this (h, d)

namespace GptDisk

/-- The primary header `write_inplace` rebuilds from `h`. -/
def primaryOf (m : Mode) (h : Header) (lb : LbSize) : Res HeaderError Header :=
  ((HeaderBuilder.fromHeader h).setPrimary true).build m lb

/-- What `write_inplace` may do to the in-memory state, whatever happens. -/
structure WroteMem (m : Mode) (s s' : GptDisk) : Prop where
  config : s'.config = s.config
  guid : s'.guid = s.guid
  partitions : s'.partitions = s.partitions
  syncAll : s'.syncAll = s.syncAll
  headers : (s'.primaryHeader = s.primaryHeader ∧ s'.backupHeader = s.backupHeader) ∨
    ∃ h ph ph', s.tryHeader = .ok h ∧ primaryOf m h s.config.lbSize = .ok ph ∧ ph.SameBut ph' ∧ s'.primaryHeader = .ok ph' ∧
      (s'.backupHeader = s.backupHeader ∨
       (s.config.readonlyBackup = false ∧ ∃ bh bh', backupOf m ph s.config.lbSize = .ok bh ∧ bh.SameBut bh' ∧
         s'.backupHeader = .ok bh'))

/-- The writing part of `write_inplace`, after the headers are rebuilt. -/
def writeRest (m : Mode) (lb : LbSize) (ph : Header) (bh : Option Header) (parts : List Partition) (sync : Bool) :
    M GptDisk GptError Unit := do
  let next ← onDev id (writeEntries m lb ph bh parts 0 0)
  onDev id (writeZeros m lb ph next)
  match bh with
  | some bh => do
    onDev id (writeZeros m lb bh next)
    onBackup bh (Header.writeBackup lb)
  | none => pure ()
  onPrimary ph (Header.writePrimary lb)
  onDev .io Dev.flush
  if sync then onDev .io Dev.syncAll else pure ()

/-- `write_inplace` up to the writing part. -/
theorem writeInplace_eq (m : Mode) (s : GptDisk) : writeInplace m s =
    if s.config.writable = false then (.err .readOnly, s)
    else match findBackupLba s.config.lbSize s.device with
    | (.err e, d1) => (.err (.header e), { s with device := d1 })
    | (.panic, d1) => (.panic, { s with device := d1 })
    | (.ok _, d1) => match s.tryHeader with
      | .error _ => (.panic, { s with device := d1 })
      | .ok h => match primaryOf m h s.config.lbSize with
        | .err e => (.err (.header e), { s with device := d1 })
        | .panic => (.panic, { s with device := d1 })
        | .ok ph =>
          if s.config.readonlyBackup then
            writeRest m s.config.lbSize ph none (usedParts s.partitions) s.syncAll { s with device := d1, primaryHeader := .ok ph }
          else match backupOf m ph s.config.lbSize with
            | .err e => (.err (.header e), { s with device := d1, primaryHeader := .ok ph })
            | .panic => (.panic, { s with device := d1, primaryHeader := .ok ph })
            | .ok bh => writeRest m s.config.lbSize ph (some bh) (usedParts s.partitions) s.syncAll
                { s with device := d1, primaryHeader := .ok ph, backupHeader := .ok bh } := by
  unfold writeInplace
  simp only [M.bind_apply, M.get_apply]
  cases hw : s.config.writable with
  | false => rfl
  | true =>
    simp only [Bool.not_true, Bool.false_eq_true, if_false, M.bind_apply, reduceCtorEq]
    unfold onDev
    simp only [M.zoom_apply, M.mapErr_apply]
    rcases hx : findBackupLba s.config.lbSize s.device with ⟨r1, d1⟩
    cases r1 with
    | err e => rfl
    | panic => rfl
    | ok bak =>
      simp only [Res.mapErr_ok, M.lift_apply]
      unfold header
      cases hh : s.tryHeader with
      | error e => rfl
      | ok h =>
        simp only
        unfold primaryOf
        cases hp : ((HeaderBuilder.fromHeader h).setPrimary true).build m s.config.lbSize with
        | err e => rfl
        | panic => rfl
        | ok ph =>
          simp only [Res.mapErr_ok, M.modify_apply]
          cases hr : s.config.readonlyBackup with
          | true =>
            simp only [if_true, M.bind_apply, M.pure_apply]
            rfl
          | false =>
            simp only [Bool.false_eq_true, if_false, M.bind_apply, M.lift_apply]
            unfold backupOf
            cases hb : ((HeaderBuilder.fromHeader ph).setPrimary false).build m s.config.lbSize with
            | err e => rfl
            | panic => rfl
            | ok bh => rfl

/-- The state while writing: everything but the device and the checksums is fixed. -/
structure Writing (s0 : GptDisk) (ph : Header) (bak : Except HeaderError Header → Prop) (s : GptDisk) : Prop where
  config : s.config = s0.config
  guid : s.guid = s0.guid
  partitions : s.partitions = s0.partitions
  syncAll : s.syncAll = s0.syncAll
  primary : ∃ ph', ph.SameBut ph' ∧ s.primaryHeader = .ok ph'
  backup : bak s.backupHeader

theorem writeRest_mem (m : Mode) (lb : LbSize) (ph : Header) (bh : Option Header) (parts : List Partition) (sync : Bool)
    {s0 : GptDisk} {bak : Except HeaderError Header → Prop} (hb : ∀ b b', bh = some b → b.SameBut b' → bak (.ok b')) :
    M.Pres (fun s s' => Writing s0 ph bak s → Writing s0 ph bak s') (writeRest m lb ph bh parts sync) := by
  have C : M.Chain (fun s s' => Writing s0 ph bak s → Writing s0 ph bak s') := ⟨fun _ => id, fun _ _ _ h1 h2 => h2 ∘ h1⟩
  have hd : ∀ {ε ε' α : Type} (g : ε → ε') (x : M Dev ε α),
      M.Pres (fun s s' => Writing s0 ph bak s → Writing s0 ph bak s') (onDev g x) :=
    fun g x s h => ⟨h.config, h.guid, h.partitions, h.syncAll, h.primary, h.backup⟩
  have hp : M.Pres (fun s s' => Writing s0 ph bak s → Writing s0 ph bak s') (onPrimary ph (Header.writePrimary lb)) :=
    fun s h => ⟨h.config, h.guid, h.partitions, h.syncAll, ⟨_, writePrimary_mem lb ph s.device, rfl⟩, h.backup⟩
  unfold writeRest
  refine M.Pres.bind C (hd _ _) fun next => ?_
  refine M.Pres.bind C (hd _ _) fun _ => ?_
  have htail : M.Pres (fun s s' => Writing s0 ph bak s → Writing s0 ph bak s') (do
      onPrimary ph (Header.writePrimary lb)
      onDev GptError.io Dev.flush
      if sync = true then onDev GptError.io Dev.syncAll else pure () : M GptDisk GptError Unit) := by
    refine M.Pres.bind C hp fun _ => ?_
    refine M.Pres.bind C (hd _ _) fun _ => ?_
    split
    · exact hd _ _
    · exact M.Pres.pure C _
  cases bh with
  | none => exact htail
  | some b =>
    refine M.Pres.bind C (hd _ _) fun _ => ?_
    refine M.Pres.bind C ?_ fun _ => htail
    exact fun s h => ⟨h.config, h.guid, h.partitions, h.syncAll, h.primary, hb b _ rfl (writeBackup_mem lb b s.device)⟩

theorem writeInplace_mem (m : Mode) (s : GptDisk) : WroteMem m s (writeInplace m s).2 := by
  rw [writeInplace_eq]
  split
  · exact ⟨rfl, rfl, rfl, rfl, .inl ⟨rfl, rfl⟩⟩
  · split
    · exact ⟨rfl, rfl, rfl, rfl, .inl ⟨rfl, rfl⟩⟩
    · exact ⟨rfl, rfl, rfl, rfl, .inl ⟨rfl, rfl⟩⟩
    · rename_i d1 hx
      split
      · exact ⟨rfl, rfl, rfl, rfl, .inl ⟨rfl, rfl⟩⟩
      · rename_i h hh
        split
        · exact ⟨rfl, rfl, rfl, rfl, .inl ⟨rfl, rfl⟩⟩
        · exact ⟨rfl, rfl, rfl, rfl, .inl ⟨rfl, rfl⟩⟩
        · rename_i ph hp
          split
          · have hw := writeRest_mem m s.config.lbSize ph none (usedParts s.partitions) s.syncAll (s0 := s)
              (bak := fun b => b = s.backupHeader) (by simp) { s with device := d1, primaryHeader := .ok ph }
              ⟨rfl, rfl, rfl, rfl, ⟨ph, .refl _, rfl⟩, rfl⟩
            obtain ⟨ph', h1, h2⟩ := hw.primary
            exact ⟨hw.config, hw.guid, hw.partitions, hw.syncAll, .inr ⟨h, ph, ph', hh, hp, h1, h2, .inl hw.backup⟩⟩
          · rename_i hr
            split
            · exact ⟨rfl, rfl, rfl, rfl, .inr ⟨h, ph, ph, hh, hp, .refl _, rfl, .inl rfl⟩⟩
            · exact ⟨rfl, rfl, rfl, rfl, .inr ⟨h, ph, ph, hh, hp, .refl _, rfl, .inl rfl⟩⟩
            · rename_i bh hbh
              have hw := writeRest_mem m s.config.lbSize ph (some bh) (usedParts s.partitions) s.syncAll (s0 := s)
                (bak := fun b => ∃ bh', bh.SameBut bh' ∧ b = .ok bh') (by rintro b b' ⟨⟩ hsb; exact ⟨b', hsb, rfl⟩)
                { s with device := d1, primaryHeader := .ok ph, backupHeader := .ok bh }
                ⟨rfl, rfl, rfl, rfl, ⟨ph, .refl _, rfl⟩, ⟨bh, .refl _, rfl⟩⟩
              obtain ⟨ph', h1, h2⟩ := hw.primary
              obtain ⟨bh', h3, h4⟩ := hw.backup
              exact ⟨hw.config, hw.guid, hw.partitions, hw.syncAll,
                .inr ⟨h, ph, ph', hh, hp, h1, h2, .inr ⟨by simpa using hr, bh, bh', hbh, h3, h4⟩⟩⟩

end GptDisk

end Gpt
