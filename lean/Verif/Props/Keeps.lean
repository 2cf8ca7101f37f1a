import Verif.Props.Build
import Verif.Props.Decides
/-!
# C133: what `readonly_backup` decides
-/

namespace Gpt

open Spec GptDisk

/-- `s'` is `s` with `readonly_backup` set, but for the backup header, which is the same at least while it is the one in use. -/
structure Spec.Kept (s s' : GptDisk) : Prop where
  config : s'.config = s.config.setReadonlyBackup true
  device : s'.device = s.device
  guid : s'.guid = s.guid
  primary : s'.primaryHeader = s.primaryHeader
  partitions : s'.partitions = s.partitions
  syncs : s'.syncAll = s.syncAll
  backup : (∃ h, s.primaryHeader = .ok h) ∨ s'.backupHeader = s.backupHeader

/-- Results `r` (without the setting, leaving `t`) and `r'` (with it) agree, but for one panic: building the backup header in a debug build
when the usable range ends at the last block a 64-bit number can name. -/
def Spec.SameBut (m : Mode) (r : Res GptError α) (t : GptDisk) (r' : Res GptError α) : Prop :=
  r = r' ∨ (m = .debug ∧ r = .panic ∧ (∃ h, t.primaryHeader = .ok h ∧ h.lastUsable.toNat = 2 ^ 64 - 1) ∧ ∃ a, r' = .ok a)

/-- The second header can be built when the first one could. -/
theorem second_build {m : Mode} {lb : LbSize} {b : HeaderBuilder} {h : Header} (hb : b.build m lb = .ok h) (hp : b.primary = true) :
    (∃ h2, ((HeaderBuilder.fromHeader h).setPrimary false).build m lb = .ok h2) ∨
    (m = .debug ∧ h.lastUsable.toNat = 2 ^ 64 - 1 ∧ ((HeaderBuilder.fromHeader h).setPrimary false).build m lb = .panic) := by
  obtain ⟨e, h1 | h1⟩ := backup_built hp ((c86_build m lb b _).mp hb)
  · exact .inr ⟨h1.1, h1.2.1, by rw [e]; exact (c86_build m lb _ _).mpr h1.2.2⟩
  · obtain ⟨-, h2, h3⟩ := h1
    exact .inl ⟨h2, by rw [e]; exact (c86_build m lb _ _).mpr h3⟩

namespace Spec.Kept
variable {s s' : GptDisk}

theorem tryHeader (h : Kept s s') : s'.tryHeader = s.tryHeader := by
  unfold GptDisk.tryHeader
  rw [h.primary]
  rcases h.backup with ⟨k, e⟩ | e
  · rw [e]
  · rw [e]

theorem header {ε : Type} (h : Kept s s') : (s'.header : Res ε Header) = s.header := by
  unfold GptDisk.header
  rw [h.tryHeader]

theorem free {ε : Type} (m : Mode) (h : Kept s s') : (s'.findFreeSectors m : Res ε _) = s.findFreeSectors m := by
  unfold findFreeSectors
  rw [h.header, h.partitions]

theorem next {ε : Type} (h : Kept s s') : (s'.findNextPartitionId : Res ε _) = s.findNextPartitionId := by
  unfold findNextPartitionId
  rw [h.header, h.partitions]

theorem setParts (h : Kept s s') (t : PMap) : Kept { s with partitions := t } { s' with partitions := t } := { h with partitions := rfl }

theorem setDevice (h : Kept s s') (d : Dev) : Kept { s with device := d } { s' with device := d } := { h with device := rfl }

end Spec.Kept

/-- From related disks, the programs leave related disks and agree. -/
def M.Near (m : Mode) (x y : M GptDisk GptError α) : Prop :=
  ∀ s s', Kept s s' → Kept (x s).2 (y s').2 ∧ SameBut m (x s).1 (x s).2 (y s').1

namespace M.Near
variable {α β : Type} {m : Mode}

theorem throw (e : GptError) : M.Near m (M.throw e : M GptDisk GptError α) (M.throw e) := fun _ _ h => ⟨h, .inl rfl⟩
theorem pure (a : α) : M.Near m (Pure.pure a : M GptDisk GptError α) (Pure.pure a) := fun _ _ h => ⟨h, .inl rfl⟩
theorem panic : M.Near m (M.panic : M GptDisk GptError α) M.panic := fun _ _ h => ⟨h, .inl rfl⟩

theorem lift (r : Res GptError β) {f g : β → M GptDisk GptError α} (k : ∀ a, M.Near m (f a) (g a)) : M.Near m (M.lift r >>= f) (M.lift r >>= g) := by
  intro s s' h
  cases r with
  | ok a => exact k a s s' h
  | err e => exact ⟨h, .inl rfl⟩
  | panic => exact ⟨h, .inl rfl⟩

theorem get {f g : GptDisk → M GptDisk GptError α} (k : ∀ s s', Kept s s' → M.Near m (f s) (g s')) :
    M.Near m (M.get >>= f) (M.get >>= g) := fun s s' h => k s s' h s s' h

theorem modify {u v : GptDisk → GptDisk} (huv : ∀ s s', Kept s s' → Kept (u s) (v s')) {x y : M GptDisk GptError α} (k : M.Near m x y) :
    M.Near m (M.modify u >>= fun _ => x) (M.modify v >>= fun _ => y) := fun s s' h => k _ _ (huv s s' h)

theorem ite {c : Prop} [Decidable c] {x y x' y' : M GptDisk GptError α} (h1 : M.Near m x y) (h2 : M.Near m x' y') :
    M.Near m (if c then x else x') (if c then y else y') := by
  split <;> assumption

theorem mapOk {x y : M GptDisk GptError α} (f : α → β) (k : M.Near m x y) : M.Near m (x.mapOk f) (y.mapOk f) := by
  intro s s' h
  obtain ⟨h1, h2⟩ := k s s' h
  refine ⟨h1, ?_⟩
  unfold M.mapOk
  simp only
  rcases h2 with e | ⟨a, b, c, r, e⟩
  · rw [e]
    exact .inl rfl
  · rw [b, e]
    exact .inr ⟨a, rfl, c, _, rfl⟩

theorem andThen {x y : M GptDisk GptError Unit} (a : α) (k : M.Near m x y) : M.Near m (x >>= fun _ => Pure.pure a) (y >>= fun _ => Pure.pure a) := by
  intro s s' h
  obtain ⟨h1, h2⟩ := k s s' h
  rw [M.bind_apply, M.bind_apply]
  revert h1 h2
  rcases x s with ⟨r, t⟩
  rcases y s' with ⟨r', t'⟩
  intro h1 h2
  change Kept t t' at h1
  change SameBut m r t r' at h2
  rcases h2 with e | ⟨a1, b, c, r, e⟩
  · subst e
    cases r with
    | ok => exact ⟨h1, .inl rfl⟩
    | err => exact ⟨h1, .inl rfl⟩
    | panic => exact ⟨h1, .inl rfl⟩
  · subst b e
    exact ⟨h1, .inr ⟨a1, rfl, c, _, rfl⟩⟩

end M.Near

theorem initHeaders_near (m : Mode) (fresh : Uuid) : M.Near m (initHeaders m fresh) (initHeaders m fresh) := by
  intro s s' hk
  have hlb : s'.config.lbSize = s.config.lbSize := by rw [hk.config]; rfl
  have hro : s'.config.readonlyBackup = true := by rw [hk.config]; rfl
  unfold initHeaders
  simp only [M.bind_apply, M.get_apply, hlb, hk.partitions, hk.tryHeader, hk.guid, hro, if_true]
  rw [show onDev GptError.header (findBackupLba s.config.lbSize) s' = (((findBackupLba s.config.lbSize s.device).1.mapErr GptError.header), { s' with device := (findBackupLba s.config.lbSize s.device).2 }) by
    rw [← hk.device]; rfl]
  rw [show onDev GptError.header (findBackupLba s.config.lbSize) s = (((findBackupLba s.config.lbSize s.device).1.mapErr GptError.header), { s with device := (findBackupLba s.config.lbSize s.device).2 }) from rfl]
  rcases findBackupLba s.config.lbSize s.device with ⟨r, d⟩
  cases r with
  | err e => exact ⟨hk.setDevice d, .inl rfl⟩
  | panic => exact ⟨hk.setDevice d, .inl rfl⟩
  | ok bak =>
    simp only [Res.mapErr]
    generalize hb : ((((HeaderBuilder.fromMaybeHeader s.tryHeader fresh).setNumParts (UInt32.ofNat s.partitions.length)).setBackupLba bak).setDiskGuid s.guid).setPrimary true = b
    have hp : b.primary = true := by rw [← hb]; rfl
    cases hx : b.build m s.config.lbSize with
    | err e => exact ⟨hk.setDevice d, .inl rfl⟩
    | panic => exact ⟨hk.setDevice d, .inl rfl⟩
    | ok h1 =>
      have hset : Kept { s with device := d, primaryHeader := .ok h1 } { s' with device := d, primaryHeader := .ok h1 } :=
        { hk.setDevice d with primary := rfl, backup := .inl ⟨h1, rfl⟩ }
      cases hr : s.config.readonlyBackup with
      | true => exact ⟨hset, .inl rfl⟩
      | false =>
        simp only [Bool.false_eq_true, if_false]
        simp only [M.lift_apply, M.modify_apply]
        rcases second_build hx hp with ⟨h2, e2⟩ | ⟨q1, q2, e2⟩
        · rw [e2]
          exact ⟨{ hset with backup := .inl ⟨h1, rfl⟩ }, .inl rfl⟩
        · rw [e2]
          exact ⟨hset, .inr ⟨q1, rfl, ⟨h1, rfl, q2⟩, _, rfl⟩⟩

theorem insertPartition_near (m : Mode) (name : String) (i : UInt32) (first length : UInt64) (ty : PType) (flags : UInt64) (fresh fresh2 : Uuid) :
    M.Near m (insertPartition m name i first length ty flags fresh fresh2) (insertPartition m name i first length ty flags fresh fresh2) := by
  unfold insertPartition
  refine .lift _ fun e => .lift _ fun last => .get fun s s' h => ?_
  have hp : s'.config.changePartitionCount = s.config.changePartitionCount := by rw [h.config]; rfl
  rw [h.header, hp]
  refine .lift _ fun hd => .ite (.throw _) ?_
  refine .modify (fun s s' h => ?_) ?_
  · rw [h.partitions]
    exact h.setParts _
  · exact .ite (.andThen _ (initHeaders_near m fresh2)) (.pure _)

theorem addPartitionLoop_near (m : Mode) (name : String) (n : UInt64) (ty : PType) (flags : UInt64) (align : Option UInt64) (fresh fresh2 : Uuid)
    (L : List (UInt64 × UInt64)) : M.Near m (addPartitionLoop m name n ty flags align fresh fresh2 L) (addPartitionLoop m name n ty flags align fresh fresh2 L) := by
  induction L with
  | nil => exact .throw _
  | cons g L ih =>
    obtain ⟨st, len⟩ := g
    unfold addPartitionLoop
    refine .lift _ fun off => .lift _ fun need => .ite (.lift _ fun start => .get fun s s' h => ?_) ih
    rw [h.next]
    refine .lift _ fun id? => ?_
    cases id? with
    | some i => exact insertPartition_near _ _ _ _ _ _ _ _ _
    | none =>
      dsimp only
      rw [h.header]
      exact .lift _ fun hd => .lift _ fun id => insertPartition_near _ _ _ _ _ _ _ _ _

theorem addPartitionAtLoop_near (m : Mode) (name : String) (i : UInt32) (first length : UInt64) (ty : PType) (flags : UInt64) (fresh fresh2 : Uuid)
    (L : List (UInt64 × UInt64)) : M.Near m (addPartitionAtLoop m name i first length ty flags fresh fresh2 L) (addPartitionAtLoop m name i first length ty flags fresh fresh2 L) := by
  induction L with
  | nil => exact .throw _
  | cons g L ih =>
    obtain ⟨st, len⟩ := g
    unfold addPartitionAtLoop
    exact .ite (insertPartition_near _ _ _ _ _ _ _ _ _) ih

/-- **C133**, one call: whatever a call other than `write_inplace` does, `readonly_backup` changes neither the table, the primary header, the
GUID, the device nor the header in use, and the result is the same but for the one panic. -/
theorem c133_call (m : Mode) (op : Op) (hop : op ≠ .writeInplace) {s s' : GptDisk} (hk : Kept s s') :
    Kept (op.step m s).2 (op.step m s').2 ∧ SameBut m (op.step m s).1 (op.step m s).2 (op.step m s').1 := by
  have key : M.Near m (op.step m) (op.step m) := by
    cases op with
    | addPartition n sz t f a r r2 =>
      refine M.Near.mapOk _ ?_
      unfold addPartition
      refine .ite .panic (.get fun s s' h => ?_)
      have hlb : s'.config.lbSize = s.config.lbSize := by rw [h.config]; rfl
      rw [hlb, h.free m]
      exact .lift _ fun _ => .lift _ fun _ => .lift _ fun _ => addPartitionLoop_near _ _ _ _ _ _ _ _ _
    | addPartitionAt n i fl l t f r r2 =>
      refine M.Near.mapOk _ ?_
      unfold addPartitionAt
      refine .ite .panic (.ite .panic (.get fun s s' h => ?_))
      rw [h.partitions, h.free m]
      exact .ite (.throw _) (.lift _ fun _ => addPartitionAtLoop_near _ _ _ _ _ _ _ _ _ _)
    | removePartition i =>
      refine M.Near.mapOk _ fun s s' h => ?_
      unfold removePartition
      rw [h.partitions]
      cases PMap.get s.partitions i with
      | some p => exact ⟨h.setParts _, .inl rfl⟩
      | none => exact ⟨h, .inl rfl⟩
    | removePartitionByGuid g =>
      refine M.Near.mapOk _ fun s s' h => ?_
      unfold removePartitionByGuid
      rw [h.partitions]
      cases s.partitions.find? (fun e => e.2.partGuid == g) with
      | some e => exact ⟨h.setParts _, .inl rfl⟩
      | none => exact ⟨h, .inl rfl⟩
    | takePartitions => exact M.Near.mapOk _ fun s s' h => ⟨h.setParts _, .inl (congrArg Res.ok h.partitions.symm)⟩
    | updateGuid u r => exact M.Near.mapOk _ fun s s' h => ⟨{ h with guid := rfl }, .inl rfl⟩
    | updatePartitions pp r =>
      refine M.Near.mapOk _ ?_
      unfold updatePartitions
      refine .ite .panic (.get fun s s' h => ?_)
      have hp : s'.config.changePartitionCount = s.config.changePartitionCount := by rw [h.config]; rfl
      rw [h.header, hp]
      exact .lift _ fun hd => .ite (.throw _) (.modify (fun s s' h => h.setParts pp) (initHeaders_near m r))
    | updateDiskDevice d w =>
      refine M.Near.mapOk _ fun s s' h => ⟨{ h with device := rfl, config := ?_ }, .inl (congrArg Res.ok h.device.symm)⟩
      show { s'.config with writable := w } = _
      rw [h.config]
      rfl
    | deviceMut d => exact M.Near.mapOk _ fun s s' h => ⟨h.setDevice d, .inl rfl⟩
    | writeInplace => exact absurd rfl hop
  exact key s s' hk

/-- The disk `s` as if it had been opened with `readonly_backup`. -/
def Spec.keeping (s : GptDisk) : GptDisk := { s with config := s.config.setReadonlyBackup true }

theorem kept_keeping (s : GptDisk) : Kept s (keeping s) := ⟨rfl, rfl, rfl, rfl, rfl, rfl, .inr rfl⟩

/-- **C133**, histories: the table, the primary header, the GUID and the device go the same way with `readonly_backup`, whatever the calls return. -/
theorem c133_run (m : Mode) (ops : List Op) (hops : Op.writeInplace ∉ ops) (s : GptDisk) :
    Kept (runOps m ops s) (runOps m ops (keeping s)) := by
  have key : ∀ s s', Kept s s' → Kept (runOps m ops s) (runOps m ops s') := by
    induction ops with
    | nil => exact fun s s' h => h
    | cons op ops ih =>
      intro s s' h
      exact ih (fun h => hops (List.mem_cons_of_mem _ h)) _ _ (c133_call m op (fun e => hops (e ▸ List.mem_cons_self)) h).1
  exact key s _ (kept_keeping s)

/-- **C133**, results: they are the same in release builds, and in debug builds unless a call panics. -/
theorem c133_outcomes (m : Mode) (ops : List Op) (hops : Op.writeInplace ∉ ops) (s : GptDisk) (hp : m = .release ∨ .panic ∉ outcomes m ops s) :
    outcomes m ops (keeping s) = outcomes m ops s := by
  have key : ∀ s s', Kept s s' → (m = .release ∨ .panic ∉ outcomes m ops s) → outcomes m ops s' = outcomes m ops s := by
    clear hp
    induction ops with
    | nil => exact fun s s' _ _ => rfl
    | cons op ops ih =>
      intro s s' h hp
      obtain ⟨k, a⟩ := c133_call m op (fun e => hops (e ▸ List.mem_cons_self)) h
      show _ :: outcomes m ops _ = _ :: outcomes m ops _
      rw [ih (fun h => hops (List.mem_cons_of_mem _ h)) _ _ k (hp.imp_right fun h q => h (List.mem_cons_of_mem _ q))]
      rcases a with e | ⟨a1, a2, -⟩
      · rw [e]
      · rcases hp with hp | hp
        · rw [a1] at hp
          cases hp
        · exact absurd (show Res.panic ∈ (op.step m s).1 :: outcomes m ops (op.step m s).2 by rw [a2]; exact List.mem_cons_self) hp
  exact key s _ (kept_keeping s) hp

/-- **C133**, writing: on a working device, where a write of both copies succeeds, the write with `readonly_backup` succeeds too, leaves the
same bytes in the primary copy and the same primary header in memory, and keeps every other byte. -/
theorem c133_write {m m' : Mode} {s s' t : GptDisk} {h : Header} {k B : Nat} (hs : SaneDisk s h k B) (hk : Kept s s') (hw : s.device.Works)
    (ht : writeInplace m s = (.ok (), t)) :
    ∃ t', writeInplace m' s' = (.ok (), t') ∧ t'.primaryHeader = t.primaryHeader ∧ t'.partitions = t.partitions ∧
      t'.device.data.length = t.device.data.length ∧ t'.backupHeader = s'.backupHeader ∧
      (∀ i, InPrimary s.config.lbSize h.numParts.toNat i → byteAt t'.device.data i = byteAt t.device.data i) ∧
      ∀ i, ¬ InPrimary s.config.lbSize h.numParts.toNat i → byteAt t'.device.data i = byteAt s.device.data i := by
  have w := write_ok hs ht
  have hlb : s'.config.lbSize = s.config.lbSize := by rw [hk.config]; rfl
  have hro : s'.config.readonlyBackup = true := by rw [hk.config]; rfl
  have hwr : s'.config.writable = true := by rw [hk.config]; exact w.writable
  have hs' : SaneDisk s' h k B := ⟨by rw [hk.header]; exact hs.header, by rw [hlb]; exact hs.sane, by rw [hlb, hk.device]; exact hs.fits,
    by rw [hk.device]; exact hs.length⟩
  have ok := write_nil (m := m') hs' hwr (by rw [hk.partitions]; exact w.room) (by rw [hk.device]; exact hw.faults)
    (by rw [hlb, hk.device]; exact hs.fits.trans hw.length)
  rcases hx : writeInplace m' s' with ⟨r, t'⟩
  rw [hx] at ok
  simp only at ok
  subst ok
  have w' := write_ok hs' hx
  have c := (c33_readonly_backup m' s' h k B hs' hro).1
  rw [hx, hlb, hk.device] at c
  refine ⟨t', rfl, ?_, ?_, ?_, ?_, fun i hi => ?_, c⟩
  · rw [w'.primary, w.primary, hk.partitions]
  · rw [w'.rest.partitions, w.rest.partitions, hk.partitions]
  · rw [w'.length, w.length, hk.device]
  · rw [w'.backup, hro]; rfl
  · rw [w'.bytes, w.bytes, hlb, hk.partitions, hk.device]
    have hn : (rebuiltP k B h).numParts = h.numParts := rfl
    unfold finalByte
    rw [hn]
    unfold InPrimary at hi
    by_cases hc : s.config.lbSize.usize ≤ i ∧ i < 2 * s.config.lbSize.usize
    · rw [if_pos hc, if_pos hc]
    · have : InP s.config.lbSize h.numParts.toNat i := by unfold InP; omega
      rw [if_neg hc, if_neg hc, if_pos this, if_pos this]

/-- A history without `write_inplace` and without a panic. -/
example : Op.writeInplace ∉ decideOps ∧ .panic ∉ outcomes .debug decideOps exDisk ∧ exDisk.config.readonlyBackup = false := by
  refine ⟨by simp [decideOps], ?_, rfl⟩
  have h : (outcomes .debug decideOps exDisk).all (fun r => decide (r ≠ .panic)) = true := by decide +kernel
  exact fun hr => of_decide_eq_true (List.all_eq_true.mp h _ hr) rfl

/-- A disk of 40 blocks whose header claims all blocks a 64-bit number can name. -/
def endlessDisk : GptDisk := { exDisk with
  device := ⟨zeros 20480, 0, 20480, [], []⟩, primaryHeader := .ok { exHeader with lastUsable := 0xFFFFFFFFFFFFFFFF } }

/-- The one panic does occur without `readonly_backup`, and does not with it. -/
example : ((Op.updatePartitions [] Uuid.nil).step .debug endlessDisk).1 = .panic ∧
    ((Op.updatePartitions [] Uuid.nil).step .debug (keeping endlessDisk)).1 = .ok .unit ∧
    ((Op.updatePartitions [] Uuid.nil).step .release endlessDisk).1 = .ok .unit := by
  decide +kernel

/-- The disk of C116 meets the hypotheses of `c133_write`. -/
example (m : Mode) : ∃ t, SaneDisk wideDisk exWideHeader 64 399 ∧ Kept wideDisk (keeping wideDisk) ∧ wideDisk.device.Works ∧
    writeInplace m wideDisk = (.ok (), t) ∧ wideDisk.config.readonlyBackup = false := by
  have hok := write_nil (m := m) wideDisk_sane rfl (by decide) rfl (by decide)
  rcases hx : writeInplace m wideDisk with ⟨r, t⟩
  rw [hx] at hok
  simp only at hok
  subst hok
  exact ⟨t, wideDisk_sane, kept_keeping _,
    ⟨rfl, by show 204800 < 2 ^ 64; decide, Nat.le_of_eq bigDev_length, by show 0 < 2 ^ 64; decide⟩, rfl, rfl⟩

end Gpt
