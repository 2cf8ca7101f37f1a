import Verif.Props.Types
import Verif.Props.Alloc
import Verif.Lemmas.Errors
/-!
# The errors of each call (C78), the names of operating systems (C79)
-/

namespace Gpt

open GptDisk

/-! ## C78 -/

namespace Spec

/-- Headers cannot be laid out on the device. -/
def LayoutError : HeaderError → Prop
  | .io _ | .missingBackupLba | .backupLbaToEarly | .toSmallForBackup => True
  | _ => False

/-- A header cannot be written. -/
def WriteError : HeaderError → Prop
  | .overflow _ | .writingToWrongLba => True
  | e => LayoutError e

/-- A header cannot be read. -/
def ReadError : HeaderError → Prop
  | .io _ | .invalidGptSignature | .invalidCrc32Checksum | .overflow _ | .toSmallForBackup => True
  | _ => False

/-- The errors a call may return on a disk with the configuration `cfg`. Calls that are not listed return none. -/
def MayFail (cfg : GptConfig) : Op → GptError → Prop
  | .addPartition .., .notEnoughSpace => True
  | .addPartition .., .partitionCountWouldChange => cfg.changePartitionCount = false
  | .addPartition .., .header e => cfg.changePartitionCount = true ∧ LayoutError e
  | .addPartitionAt .., .notEnoughSpace => True
  | .addPartitionAt .., .partitionIdAlreadyUsed => True
  | .addPartitionAt .., .partitionCountWouldChange => cfg.changePartitionCount = false
  | .addPartitionAt .., .header e => cfg.changePartitionCount = true ∧ LayoutError e
  | .updatePartitions .., .partitionCountWouldChange => cfg.changePartitionCount = false
  | .updatePartitions .., .header e => LayoutError e
  | .writeInplace, .readOnly => cfg.writable = false
  | .writeInplace, .io _ => cfg.writable = true
  | .writeInplace, .overflowPartitionCount => cfg.writable = true
  | .writeInplace, .header e => cfg.writable = true ∧ WriteError e
  | _, _ => False

/-- Errors returned before anything was changed. -/
def Early : GptError → Prop
  | .notEnoughSpace | .partitionCountWouldChange | .partitionIdAlreadyUsed | .readOnly => True
  | _ => False

end Spec

namespace M
variable {σ τ ε ε' α β : Type}

theorem Errs.mono {P Q : ε → Prop} {x : M σ ε α} (h : Errs P x) (hpq : ∀ e, P e → Q e) : Errs Q x := fun s e he => hpq e (h s e he)
theorem Errs.attempt {P : ε' → Prop} (x : M σ ε α) : Errs P (M.attempt x : M σ ε' _) := by
  intro s e h
  unfold M.attempt at h
  split at h <;> cases h
theorem Errs.lift {P : ε → Prop} {r : Res ε α} (h : ∀ e, r = .err e → P e) : Errs P (M.lift r : M σ ε α) := fun _ e he => h e he
theorem Errs.get {P : ε → Prop} : Errs P (M.get : M σ ε σ) := fun s e h => by cases h
theorem Errs.modify {P : ε → Prop} (f : σ → σ) : Errs P (M.modify f : M σ ε Unit) := fun s e h => by cases h

end M

theorem findBackupLba_errs (lb : LbSize) : M.Errs Spec.LayoutError (findBackupLba lb) := by
  unfold findBackupLba
  refine M.Errs.bind (M.Errs.mapErr fun _ => trivial) fun _ => M.Errs.bind (M.Errs.mapErr fun _ => trivial) fun _ =>
    M.Errs.bind (M.Errs.mapErr fun _ => trivial) fun _ => ?_
  split
  · exact M.Errs.throw trivial
  · exact M.Errs.pure _

theorem build_errs {m : Mode} {b : HeaderBuilder} {lb : LbSize} {e : HeaderError} (h : b.build m lb = .err e) : Spec.LayoutError e := by
  unfold HeaderBuilder.build at h
  split at h
  · cases h; trivial
  simp only [Res.bind_eq_err] at h
  rcases h with h | ⟨_, _, h⟩
  · exact absurd h arith_ne_err
  rcases h with h | ⟨_, _, h⟩
  · exfalso
    unfold HeaderBuilder.divCeil at h
    simp only [Res.bind_eq_err] at h
    rcases h with h | ⟨_, _, h | ⟨_, _, h⟩⟩
    · exact arith_ne_err h
    · exact arith_ne_err h
    · cases h
  rcases h with h | ⟨_, _, h⟩
  · exact absurd h arith_ne_err
  rcases h with h | ⟨_, _, h⟩
  · exact absurd h arith_ne_err
  rcases h with h | ⟨_, _, h⟩
  · unfold Res.ofOption at h
    split at h <;> cases h
    trivial
  split at h
  · cases h; trivial
  split at h <;> simp only [Res.bind_eq_err] at h <;> rcases h with h | ⟨_, _, h⟩ <;>
    first | exact absurd h arith_ne_err | cases h

theorem initHeaders_errs (m : Mode) (fresh : Uuid) :
    M.Errs (fun e => ∃ e', e = .header e' ∧ Spec.LayoutError e') (initHeaders m fresh) := by
  have hl : ∀ {σ : Type} {b : HeaderBuilder} {lb : LbSize},
      M.Errs (fun e => ∃ e', e = .header e' ∧ Spec.LayoutError e') (M.lift ((b.build m lb).mapErr GptError.header) : M σ _ _) := by
    intro σ b lb
    refine M.Errs.lift fun e he => ?_
    rw [Res.mapErr_eq_err] at he
    obtain ⟨e0, h0, rfl⟩ := he
    exact ⟨e0, rfl, build_errs h0⟩
  unfold initHeaders
  refine M.Errs.bind M.Errs.get fun s => M.Errs.bind ?_ fun bak => M.Errs.bind hl fun h1 => M.Errs.bind (M.Errs.modify _) fun _ => ?_
  · intro s e he
    unfold onDev at he
    rw [M.zoom_apply, M.mapErr_apply] at he
    simp only [Res.mapErr_eq_err] at he
    obtain ⟨e0, h0, rfl⟩ := he
    exact ⟨e0, rfl, findBackupLba_errs _ _ _ h0⟩
  · split
    · exact M.Errs.pure _
    · exact M.Errs.bind hl fun h2 => M.Errs.modify _

/-- What the writing part may return. -/
def Spec.WErr : GptError → Prop
  | .io _ | .overflowPartitionCount => True
  | .header e => Spec.WriteError e
  | _ => False

theorem LayoutError.write {e : HeaderError} (h : Spec.LayoutError e) : Spec.WriteError e := by
  cases e <;> first | trivial | exact h.elim

theorem fileWriteHeader_errs (lba : UInt64) (lb : LbSize) : M.Errs Spec.WriteError (Header.fileWriteHeader lba lb) := by
  have hz : ∀ {α : Type} {x : M Dev HeaderError α}, M.Errs Spec.WriteError x → M.Errs Spec.WriteError (Header.onDev x) := by
    intro α x hx s e he
    unfold Header.onDev at he
    rw [M.zoom_apply] at he
    exact hx _ _ he
  have hov : ∀ {α σ : Type} {msg : String} {o : Option α},
      M.Errs Spec.WriteError (M.lift (Res.ofOption (.overflow msg) o) : M σ HeaderError α) := by
    intro α σ msg o
    refine M.Errs.lift fun e he => ?_
    unfold Res.ofOption at he
    split at he <;> cases he
    trivial
  have hio : ∀ {α : Type} {x : M Dev IoErr α}, M.Errs Spec.WriteError (x.mapErr HeaderError.io) := M.Errs.mapErr fun _ => trivial
  have hp : ∀ h : Header, M.Errs Spec.WriteError (partentryChecksum h lb) := by
    intro h
    unfold partentryChecksum
    refine M.Errs.bind hov fun _ => M.Errs.bind hio fun _ => M.Errs.bind hov fun n => M.Errs.bind (M.Errs.lift fun e he => ?_) fun _ =>
      M.Errs.bind hio fun _ => M.Errs.pure _
    unfold vecOf at he
    split at he <;> cases he
  unfold Header.fileWriteHeader
  refine M.Errs.bind M.Errs.get fun s => M.Errs.bind (hz (hp _)) fun _ => M.Errs.bind (M.Errs.modify _) fun _ =>
    M.Errs.bind M.Errs.get fun s => M.Errs.bind ?_ fun x => ?_
  · refine M.Errs.lift fun e he => ?_
    unfold Header.toBytes at he
    split at he <;> cases he
  · exact M.Errs.bind (M.Errs.modify _) fun _ => M.Errs.bind hov fun _ => M.Errs.bind (hz hio) fun _ =>
      M.Errs.bind (hz hio) fun _ => M.Errs.pure _

theorem writePrimary_errs (lb : LbSize) : M.Errs Spec.WriteError (Header.writePrimary lb) := by
  unfold Header.writePrimary
  refine M.Errs.bind M.Errs.get fun s => ?_
  split
  · exact M.Errs.throw trivial
  · exact fileWriteHeader_errs _ _

theorem writeBackup_errs (lb : LbSize) : M.Errs Spec.WriteError (Header.writeBackup lb) := by
  unfold Header.writeBackup
  refine M.Errs.bind M.Errs.get fun s => ?_
  split
  · exact M.Errs.throw trivial
  · exact fileWriteHeader_errs _ _

theorem writeEntries_wErr (m : Mode) (lb : LbSize) (ph : Header) (bh : Option Header) : ∀ (ps : List Partition) (idx next : Nat),
    M.Errs Spec.WErr (writeEntries m lb ph bh ps idx next)
  | [], _, _ => M.Errs.pure _
  | p :: ps, idx, next => by
    have ih := writeEntries_wErr m lb ph bh ps (idx + 1) (idx + 1)
    unfold writeEntries
    split
    · exact M.Errs.throw trivial
    · refine M.Errs.bind (M.Errs.mapErr fun _ => trivial) fun _ => ?_
      split
      · split
        · exact M.Errs.bind (M.Errs.throw trivial) fun _ => ih
        · split
          · exact M.Errs.bind (M.Errs.mapErr fun _ => trivial) fun _ => ih
          · exact ih
      · exact ih

theorem writeZeros_wErr (m : Mode) (lb : LbSize) (h : Header) (next : Nat) : M.Errs Spec.WErr (writeZeros m lb h next) := by
  unfold writeZeros
  split
  · exact M.Errs.bind (M.Errs.pure _) fun _ => M.Errs.mapErr fun _ => trivial
  · exact M.Errs.bind M.Errs.panic fun _ => M.Errs.mapErr fun _ => trivial

theorem writeRest_wErr (m : Mode) (lb : LbSize) (ph : Header) (bh : Option Header) (parts : List Partition) (sync : Bool) :
    M.Errs Spec.WErr (writeRest m lb ph bh parts sync) := by
  unfold writeRest
  refine M.Errs.bind (onDev_id_errs (writeEntries_wErr m lb ph bh parts 0 0)) fun next => ?_
  refine M.Errs.bind (onDev_id_errs (writeZeros_wErr _ _ _ _)) fun _ => ?_
  have hfin : M.Errs Spec.WErr
      (do
        onPrimary ph (Header.writePrimary lb)
        onDev .io Dev.flush
        if sync then onDev .io Dev.syncAll else pure ()) := by
    refine M.Errs.bind ?_ fun _ => M.Errs.bind (onDev_errs _ fun _ => trivial) fun _ => ?_
    · intro s e he
      unfold onPrimary at he
      simp only at he
      split at he <;> simp only [reduceCtorEq, Res.err.injEq] at he
      rename_i hx
      subst he
      exact writePrimary_errs lb _ _ hx
    · split
      · exact onDev_errs _ fun _ => trivial
      · exact M.Errs.pure _
  cases bh with
  | none => exact hfin
  | some b =>
    refine M.Errs.bind (onDev_id_errs (writeZeros_wErr _ _ _ _)) fun _ => M.Errs.bind ?_ fun _ => hfin
    intro s e he
    unfold onBackup at he
    simp only at he
    split at he <;> simp only [reduceCtorEq, Res.err.injEq] at he
    rename_i hx
    subst he
    exact writeBackup_errs lb _ _ hx

theorem writeInplace_wErr {m : Mode} {s : GptDisk} {e : GptError} (he : (writeInplace m s).1 = .err e) :
    (e = .readOnly ∧ s.config.writable = false ∧ (writeInplace m s).2 = s) ∨ (s.config.writable = true ∧ Spec.WErr e) := by
  have hb : ∀ {b : HeaderBuilder} {lb : LbSize} {e : HeaderError}, b.build m lb = .err e → Spec.WriteError e :=
    fun h => LayoutError.write (build_errs h)
  rw [writeInplace_eq] at he ⊢
  split at he
  · rename_i hw
    simp only [Res.err.injEq] at he
    exact .inl ⟨he.symm, hw, by rw [if_pos hw]⟩
  rename_i hw
  refine .inr ⟨by simpa using hw, ?_⟩
  split at he
  · rename_i hx
    simp only [Res.err.injEq] at he; subst he
    exact LayoutError.write (findBackupLba_errs _ _ _ (congrArg Prod.fst hx))
  · cases he
  · split at he
    · cases he
    · split at he
      · rename_i hx
        simp only [Res.err.injEq] at he; subst he
        exact hb hx
      · cases he
      · split at he
        · exact writeRest_wErr _ _ _ _ _ _ _ _ he
        · split at he
          · rename_i hx
            simp only [Res.err.injEq] at he; subst he
            exact hb hx
          · cases he
          · exact writeRest_wErr _ _ _ _ _ _ _ _ he

theorem mapOk_err {σ ε α β : Type} {f : α → β} {x : M σ ε α} {s : σ} {e : ε} : (M.mapOk f x s).1 = .err e ↔ (x s).1 = .err e := by
  unfold M.mapOk
  cases h : (x s).1 <;> simp

theorem mapOk_state {σ ε α β : Type} {f : α → β} {x : M σ ε α} {s : σ} : (M.mapOk f x s).2 = (x s).2 := rfl

theorem inserted_errs {m : Mode} {id : UInt32} {p : Partition} {fresh2 : Uuid} {s s' : GptDisk} {r : Res GptError UInt32} {e : GptError}
    (h : Inserted m id p fresh2 s r s') (he : r = .err e) :
    (e = .partitionCountWouldChange ∧ s.config.changePartitionCount = false ∧ s' = s) ∨
    ∃ e', e = .header e' ∧ s.config.changePartitionCount = true ∧ Spec.LayoutError e' := by
  cases h with
  | panic => cases he
  | refused h h1 h2 h3 => cases he; exact .inl ⟨rfl, h3, rfl⟩
  | plain => cases he
  | rebuilt h r0 s' h1 h2 h3 h4 =>
    cases r0 with
    | ok u => cases he
    | panic => cases he
    | err e0 =>
      cases he
      obtain ⟨e', rfl, hl⟩ := initHeaders_errs m fresh2 _ _ (congrArg Prod.fst h4)
      exact .inr ⟨e', rfl, h3, hl⟩

/-- **C78**, calls on a disk: the errors are those of the table, and the early ones leave disk and device exactly as they were. -/
theorem c78_errors (m : Mode) (op : Op) (s : GptDisk) (e : GptError) (he : (op.step m s).1 = .err e) :
    Spec.MayFail s.config op e ∧ (Spec.Early e → (op.step m s).2 = s) := by
  cases op with
  | addPartition n sz t f a r r2 =>
    unfold Op.step at he ⊢
    rw [mapOk_err] at he
    rw [mapOk_state]
    rcases addPartition_any m n sz t f a r r2 s with ⟨h1, h2 | h2⟩ | ⟨id, first, last, -, h⟩
    · rw [h2] at he; cases he
    · rw [h2] at he; cases he; exact ⟨trivial, fun _ => h1⟩
    · rcases inserted_errs h he with ⟨rfl, hc, hs⟩ | ⟨e', rfl, hc, hl⟩
      · exact ⟨hc, fun _ => hs⟩
      · exact ⟨⟨hc, hl⟩, fun h => h.elim⟩
  | addPartitionAt n i fl l t f r r2 =>
    unfold Op.step at he ⊢
    rw [mapOk_err] at he
    rw [mapOk_state]
    rcases addPartitionAt_any m n i fl l t f r r2 s with ⟨h1, h2 | h2 | h2⟩ | ⟨-, -, -, -, h⟩
    · rw [h2] at he; cases he
    · rw [h2] at he; cases he; exact ⟨trivial, fun _ => h1⟩
    · rw [h2] at he; cases he; exact ⟨trivial, fun _ => h1⟩
    · rcases inserted_errs h he with ⟨rfl, hc, hs⟩ | ⟨e', rfl, hc, hl⟩
      · exact ⟨hc, fun _ => hs⟩
      · exact ⟨⟨hc, hl⟩, fun h => h.elim⟩
  | removePartition i =>
    unfold Op.step at he
    rw [mapOk_err] at he
    unfold removePartition at he
    split at he <;> cases he
  | removePartitionByGuid g =>
    unfold Op.step at he
    rw [mapOk_err] at he
    unfold removePartitionByGuid at he
    split at he <;> cases he
  | takePartitions => cases he
  | updateGuid u r => cases he
  | updatePartitions pp r =>
    unfold Op.step at he ⊢
    rw [mapOk_err] at he
    rw [mapOk_state]
    rcases updatePartitions_any m pp r s with ⟨h1, h2 | ⟨h2, h, -, -, hc⟩⟩ | ⟨-, h, -, -, heq⟩
    · rw [h2] at he; cases he
    · rw [h2] at he; cases he; exact ⟨hc, fun _ => h1⟩
    · rw [heq] at he
      obtain ⟨e', rfl, hl⟩ := initHeaders_errs m r _ _ he
      exact ⟨hl, fun h => h.elim⟩
  | updateDiskDevice d w => cases he
  | deviceMut d => cases he
  | writeInplace =>
    unfold Op.step at he ⊢
    rw [mapOk_err] at he
    rw [mapOk_state]
    rcases writeInplace_wErr he with ⟨rfl, hw, hs⟩ | ⟨hw, hc⟩
    · exact ⟨hw, fun _ => hs⟩
    · cases e with
      | io e => exact ⟨hw, fun h => h.elim⟩
      | header e => exact ⟨⟨hw, hc⟩, fun h => h.elim⟩
      | overflowPartitionCount => exact ⟨hw, fun h => h.elim⟩
      | _ => exact hc.elim

theorem fileReadHeader_errs (off : UInt64) : M.Errs Spec.ReadError (fileReadHeader off) := by
  unfold fileReadHeader
  refine M.Errs.bind (M.Errs.attempt _) fun _ => M.Errs.bind (M.Errs.mapErr fun _ => trivial) fun b => M.Errs.lift fun e he => ?_
  unfold parseHeader at he
  split at he
  · cases he; trivial
  · split at he <;> cases he
    trivial

/-- A computation that is tried leaves its error in the value. -/
theorem attempt_error {σ ε ε' α : Type} {P : ε → Prop} {x : M σ ε α} (hx : M.Errs P x) {s s' : σ} {e : ε}
    (h : (M.attempt x : M σ ε' _) s = (.ok (.error e), s')) : P e := by
  unfold M.attempt at h
  split at h <;> cases h
  rename_i hxs
  exact hx s e (congrArg Prod.fst hxs)

theorem errs_bind_val {σ ε α β : Type} {P : ε → Prop} {x : M σ ε α} {f : α → M σ ε β} (hx : M.Errs P x)
    (hf : ∀ a s s', x s = (.ok a, s') → M.Errs P (f a)) : M.Errs P (x >>= f) := by
  intro s e h
  have h0 := hx s
  rw [M.bind_apply] at h
  rcases hxs : x s with ⟨r, s1⟩
  rw [hxs] at h h0
  cases r with
  | ok a => exact hf a s s1 hxs s1 e h
  | err e' =>
    simp only [Res.err.injEq] at h
    exact h0 e (by rw [h])
  | panic => cases h

theorem readPrimaryHeader_errs (lb : LbSize) : M.Errs Spec.ReadError (readPrimaryHeader lb) := by
  unfold readPrimaryHeader
  refine M.Errs.bind (M.Errs.attempt _) fun _ => errs_bind_val (M.Errs.attempt _) fun r s s' hr =>
    M.Errs.bind (M.Errs.attempt _) fun _ => ?_
  cases r with
  | ok h => exact M.Errs.pure _
  | error e => exact M.Errs.throw (attempt_error (fileReadHeader_errs _) hr)

theorem findBackupLba_readErr (lb : LbSize) : M.Errs Spec.ReadError (findBackupLba lb) := by
  unfold findBackupLba
  refine M.Errs.bind (M.Errs.mapErr fun _ => trivial) fun _ => M.Errs.bind (M.Errs.mapErr fun _ => trivial) fun _ =>
    M.Errs.bind (M.Errs.mapErr fun _ => trivial) fun _ => ?_
  split
  · exact M.Errs.throw trivial
  · exact M.Errs.pure _

theorem readBackupHeader_errs (lb : LbSize) : M.Errs Spec.ReadError (readBackupHeader lb) := by
  unfold readBackupHeader
  refine M.Errs.bind (M.Errs.attempt _) fun _ => M.Errs.bind (findBackupLba_readErr lb) fun _ => M.Errs.bind ?_ fun _ =>
    errs_bind_val (M.Errs.attempt _) fun r s s' hr => M.Errs.bind (M.Errs.attempt _) fun _ => ?_
  · refine M.Errs.lift fun e he => ?_
    unfold Res.ofOption at he
    split at he <;> cases he
    trivial
  · cases r with
    | ok h => exact M.Errs.pure _
    | error e => exact M.Errs.throw (attempt_error (fileReadHeader_errs _) hr)

/-- The errors of opening. -/
def Spec.OpenError : GptError → Prop
  | .io _ => True
  | .header e => Spec.ReadError e
  | _ => False

/-- **C78**, opening, on every device and with every fault. -/
theorem c78_open (m : Mode) (cfg : GptConfig) (d : Dev) (e : GptError) (he : (openFromDevice m cfg d).1 = .err e) :
    Spec.OpenError e := by
  revert he
  refine (?_ : M.Errs Spec.OpenError (openFromDevice m cfg)) d e
  unfold openFromDevice
  refine errs_bind_val (M.Errs.attempt _) fun r1 s1 s1' h1 => errs_bind_val (M.Errs.attempt _) fun r2 s2 s2' h2 => ?_
  have hr : ∀ hd : Header, M.Errs Spec.OpenError (do
      let table ← (fileReadPartitions m hd cfg.lbSize).mapErr .io
      let d ← M.get
      pure ({ config := cfg, device := d, guid := hd.diskGuid, primaryHeader := r1, backupHeader := r2, partitions := table,
              syncAll := false } : GptDisk)) := fun hd =>
    M.Errs.bind (M.Errs.mapErr fun _ => trivial) fun _ => M.Errs.bind M.Errs.get fun _ => M.Errs.pure _
  cases r1 with
  | ok a =>
    cases r2 with
    | ok b => exact hr a
    | error e2 =>
      have := attempt_error (readBackupHeader_errs _) h2
      by_cases hv : cfg.onlyValidHeaders = true
      · simp only [hv, if_true]
        exact M.Errs.bind (M.Errs.throw this) fun hd => hr hd
      · simp only [hv, if_false]
        exact hr a
  | error e1 =>
    have := attempt_error (readPrimaryHeader_errs _) h1
    cases r2 with
    | ok b =>
      by_cases hv : cfg.onlyValidHeaders = true
      · simp only [hv, if_true]
        exact M.Errs.bind (M.Errs.throw this) fun hd => hr hd
      · simp only [hv, if_false]
        exact hr b
    | error e2 => exact M.Errs.bind (M.Errs.throw this) fun hd => hr hd

/-- **C78**, creating. -/
theorem c78_create (m : Mode) (cfg : GptConfig) (g : Option Uuid) (fresh fresh2 : Uuid) (d : Dev) (e : GptError)
    (he : (createFromDevice m cfg g fresh fresh2 d).1 = .err e) : ∃ e', e = .header e' ∧ Spec.LayoutError e' := by
  unfold createFromDevice at he
  split at he <;> cases he
  rename_i hx
  exact initHeaders_errs m fresh2 _ _ (congrArg Prod.fst hx)

/-- Errors of the table that occur (the disk of the examples has an empty device); others are beside C76. -/
example : ((Op.writeInplace).step .debug exDisk).1 = .err .readOnly ∧
    ((Op.writeInplace).step .debug { exDisk with config := { GptConfig.new with writable := true } }).1 = .err (.header .toSmallForBackup) ∧
    ((Op.updatePartitions exTable Uuid.nil).step .debug exDisk).1 = .err (.header .toSmallForBackup) ∧
    ((Op.addPartitionAt "n" 200 50 10 (exPart 0 0).partType 0 Uuid.nil Uuid.nil).step .debug
      { exDisk with config := { GptConfig.new with changePartitionCount := true } }).1 = .err (.header .toSmallForBackup) ∧
    (openFromDevice .debug GptConfig.new exDisk.device).1 = .err (.header (.io .unexpectedEof)) ∧
    (createFromDevice .debug GptConfig.new none Uuid.nil Uuid.nil exDisk.device).1 = .err (.header .toSmallForBackup) := by
  refine ⟨?_, ?_, ?_, ?_, ?_, ?_⟩ <;> first | rfl | decide +kernel

/-! ## C79 -/

/-- The names, from the documentation of the variants' spelling in `from_str`. -/
def Spec.osNames : List (String × OS) :=
  [("unused", .none), ("android", .android), ("atari", .atari), ("Ceph", .ceph), ("Chrome", .chrome),
   ("DragonFlyBsd", .dragonFlyBsd), ("FreeBsd", .freeBsd), ("FreeDesktop", .freeDesktop), ("Haiku", .haiku), ("HP-UX", .hpUnix),
   ("Linux", .linux), ("MacOS", .macOs), ("MidnightBsd", .midnightBsd), ("Onie", .onie), ("PowerPc", .powerPc),
   ("Solaris Illumos", .solaris)]

theorem ite_cases {α : Type} {c : Prop} [Decidable c] {a b r : α} (h : (if c then a else b) = r) : (c ∧ a = r) ∨ (¬ c ∧ b = r) := by
  by_cases hc : c
  · rw [if_pos hc] at h; exact .inl ⟨hc, h⟩
  · rw [if_neg hc] at h; exact .inr ⟨hc, h⟩

/-- The chain of comparisons looks the name up. -/
theorem osFromStr_cases (s : String) : (∃ o, (s, o) ∈ Spec.osNames ∧ OS.fromStr s = .ok o) ∨
    OS.fromStr s = .err ("Unknown operating system: " ++ s) := by
  generalize hr : OS.fromStr s = r
  unfold OS.fromStr at hr
  iterate 16
    rcases ite_cases hr with ⟨rfl, rfl⟩ | ⟨-, hr⟩
    · exact .inl ⟨_, by simp only [Spec.osNames, List.mem_cons, Prod.mk.injEq, true_and, true_or, or_true], rfl⟩
    rename_i hr0
    clear hr0
  exact .inr hr.symm

/-- **C79**: a name is accepted exactly if it is listed. -/
theorem c79_accepts (s : String) (o : OS) : OS.fromStr s = .ok o ↔ (s, o) ∈ Spec.osNames := by
  constructor
  · intro h
    rcases osFromStr_cases s with ⟨o', hm, hr⟩ | hr <;> rw [h] at hr <;> cases hr
    exact hm
  · intro h
    simp only [Spec.osNames, List.mem_cons, Prod.mk.injEq, List.not_mem_nil, or_false] at h
    rcases h with ⟨rfl, rfl⟩ | ⟨rfl, rfl⟩ | ⟨rfl, rfl⟩ | ⟨rfl, rfl⟩ | ⟨rfl, rfl⟩ | ⟨rfl, rfl⟩ | ⟨rfl, rfl⟩ | ⟨rfl, rfl⟩ |
      ⟨rfl, rfl⟩ | ⟨rfl, rfl⟩ | ⟨rfl, rfl⟩ | ⟨rfl, rfl⟩ | ⟨rfl, rfl⟩ | ⟨rfl, rfl⟩ | ⟨rfl, rfl⟩ | ⟨rfl, rfl⟩ <;> decide +kernel

/-- **C79**: no two names mean the same. -/
theorem c79_injective (s t : String) (o : OS) (h1 : OS.fromStr s = .ok o) (h2 : OS.fromStr t = .ok o) : s = t := by
  have key : ∀ a ∈ Spec.osNames, ∀ b ∈ Spec.osNames, a.2 = b.2 → a.1 = b.1 := by decide +kernel
  exact key _ ((c79_accepts s o).mp h1) _ ((c79_accepts t o).mp h2) rfl

/-- **C79**: everything else is refused, quoting what was given. -/
theorem c79_refused (s : String) (h : ∀ o, (s, o) ∉ Spec.osNames) : OS.fromStr s = .err ("Unknown operating system: " ++ s) := by
  rcases osFromStr_cases s with ⟨o, hm, -⟩ | hr
  · exact absurd hm (h o)
  · exact hr

/-- Seven operating systems that occur in the table of types, or are variants, cannot be named. -/
theorem c79_unnamed (s : String) (o : OS) (h : OS.fromStr s = .ok o) :
    o ≠ .coreOs ∧ o ≠ .netBsd ∧ o ≠ .openBsd ∧ o ≠ .plan9 ∧ o ≠ .vmWare ∧ o ≠ .windows ∧ o ≠ .qnx ∧ ∀ c, o ≠ .custom c := by
  have hm := (c79_accepts s o).mp h
  simp only [Spec.osNames, List.mem_cons, Prod.mk.injEq, List.not_mem_nil, or_false] at hm
  rcases hm with ⟨-, rfl⟩ | ⟨-, rfl⟩ | ⟨-, rfl⟩ | ⟨-, rfl⟩ | ⟨-, rfl⟩ | ⟨-, rfl⟩ | ⟨-, rfl⟩ | ⟨-, rfl⟩ |
      ⟨-, rfl⟩ | ⟨-, rfl⟩ | ⟨-, rfl⟩ | ⟨-, rfl⟩ | ⟨-, rfl⟩ | ⟨-, rfl⟩ | ⟨-, rfl⟩ | ⟨-, rfl⟩ <;>
    exact ⟨by simp, by simp, by simp, by simp, by simp, by simp, by simp, by simp⟩

example : OS.fromStr "Linux" = .ok .linux ∧ OS.fromStr "linux" = .err "Unknown operating system: linux" := by
  constructor <;> decide +kernel

end Gpt
