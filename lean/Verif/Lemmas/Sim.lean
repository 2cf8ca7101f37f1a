import Verif.Lemmas.Base
import Verif.Model.Gpt
/-!
# Two runs side by side

A relation between disks that the calls cannot tell apart (`Sim`): every call returns the same from related disks and leaves related disks.
-/

namespace Gpt

open GptDisk

/-- From disks related by `R`, the programs return the same and leave related disks. -/
structure Both (R : GptDisk → GptDisk → Prop) {ε α : Type} (x y : M GptDisk ε α) : Prop where
  run : ∀ s s', R s s' → (x s).1 = (y s').1 ∧ R (x s).2 (y s').2

variable {R : GptDisk → GptDisk → Prop}

theorem Both.pure {ε α : Type} (a : α) : Both R (Pure.pure a : M GptDisk ε α) (Pure.pure a) := ⟨fun _ _ h => ⟨rfl, h⟩⟩
theorem Both.throw {ε α : Type} (e : ε) : Both R (M.throw e : M GptDisk ε α) (M.throw e) := ⟨fun _ _ h => ⟨rfl, h⟩⟩
theorem Both.panic {ε α : Type} : Both R (M.panic : M GptDisk ε α) M.panic := ⟨fun _ _ h => ⟨rfl, h⟩⟩
theorem Both.lift {ε α : Type} (r : Res ε α) : Both R (M.lift r : M GptDisk ε α) (M.lift r) := ⟨fun _ _ h => ⟨rfl, h⟩⟩

theorem Both.bind {ε α β : Type} {x y : M GptDisk ε α} {f g : α → M GptDisk ε β} (h : Both R x y) (k : ∀ a, Both R (f a) (g a)) :
    Both R (x >>= f) (y >>= g) := by
  refine ⟨fun s s' hs => ?_⟩
  obtain ⟨h1, h2⟩ := h.run s s' hs
  simp only [M.bind_apply]
  rcases hx : x s with ⟨r, t⟩
  rcases hy : y s' with ⟨r', t'⟩
  rw [hx, hy] at h1 h2
  simp only at h1 h2
  subst h1
  cases r with
  | ok a => exact (k a).run t t' h2
  | err e => exact ⟨rfl, h2⟩
  | panic => exact ⟨rfl, h2⟩

theorem Both.get {ε β : Type} {f g : GptDisk → M GptDisk ε β} (k : ∀ s s', R s s' → Both R (f s) (g s')) :
    Both R (M.get >>= f) (M.get >>= g) := ⟨fun s s' hs => (k s s' hs).run s s' hs⟩

theorem Both.ite {ε α : Type} {c : Prop} [Decidable c] {x y x' y' : M GptDisk ε α} (h1 : Both R x y) (h2 : Both R x' y') :
    Both R (if c then x else x') (if c then y else y') := by
  split <;> assumption

theorem Both.mapOk {ε α β : Type} (f : α → β) {x : M GptDisk ε α} (h : Both R x x) : Both R (x.mapOk f) (x.mapOk f) := by
  refine ⟨fun s s' hs => ?_⟩
  obtain ⟨h1, h2⟩ := h.run s s' hs
  unfold M.mapOk
  simp only
  rw [h1]
  exact ⟨rfl, h2⟩

/-- The relation is kept by what the calls other than `write_inplace` are made of. -/
structure SimCalls (R : GptDisk → GptDisk → Prop) : Prop where
  config : ∀ {s s'}, R s s' → s.config = s'.config
  syncs : ∀ {s s'}, R s s' → s.syncAll = s'.syncAll
  tryHeader : ∀ {s s'}, R s s' → s.tryHeader = s'.tryHeader
  parts : ∀ {s s'}, R s s' → s.partitions = s'.partitions
  guid : ∀ {s s'}, R s s' → s.guid = s'.guid
  setParts : ∀ {s s'}, R s s' → ∀ p, R { s with partitions := p } { s' with partitions := p }
  setPrimary : ∀ {s s'}, R s s' → ∀ h, R { s with primaryHeader := .ok h } { s' with primaryHeader := .ok h }
  setBackup : ∀ {s s'}, R s s' → ∀ h, R { s with backupHeader := .ok h } { s' with backupHeader := .ok h }
  setGuid : ∀ {s s'}, R s s' → ∀ g, R { s with guid := g } { s' with guid := g }
  setDevice : ∀ {s s'}, R s s' → ∀ d, R { s with device := d } { s' with device := d }
  setWritable : ∀ {s s'}, R s s' → ∀ w, R { s with config := { s.config with writable := w } } { s' with config := { s'.config with writable := w } }
  find : ∀ lb, Both R (onDev GptError.header (findBackupLba lb)) (onDev GptError.header (findBackupLba lb))

/-- The relation is kept by what all calls are made of. -/
structure Sim (R : GptDisk → GptDisk → Prop) : Prop extends SimCalls R where
  entries : ∀ m lb ph bh ps i n, Both R (onDev (id : GptError → GptError) (writeEntries m lb ph bh ps i n)) (onDev id (writeEntries m lb ph bh ps i n))
  zeros : ∀ m lb h n, Both R (onDev (id : GptError → GptError) (writeZeros m lb h n)) (onDev id (writeZeros m lb h n))
  flush : Both R (onDev GptError.io Dev.flush) (onDev GptError.io Dev.flush)
  sync : Both R (onDev GptError.io Dev.syncAll) (onDev GptError.io Dev.syncAll)
  backup : ∀ h lb, Both R (onBackup h (Header.writeBackup lb)) (onBackup h (Header.writeBackup lb))
  primary : ∀ h lb, Both R (onPrimary h (Header.writePrimary lb)) (onPrimary h (Header.writePrimary lb))

namespace SimCalls
variable (S : SimCalls R)
include S

theorem header {ε : Type} {s s' : GptDisk} (h : R s s') : (s.header : Res ε Header) = s'.header := by
  unfold GptDisk.header
  rw [S.tryHeader h]

theorem free {ε : Type} {s s' : GptDisk} (m : Mode) (h : R s s') : (s.findFreeSectors m : Res ε _) = s'.findFreeSectors m := by
  unfold findFreeSectors
  rw [S.header h, S.parts h]

theorem next {ε : Type} {s s' : GptDisk} (h : R s s') : (s.findNextPartitionId : Res ε _) = s'.findNextPartitionId := by
  unfold findNextPartitionId
  rw [S.header h, S.parts h]

theorem modParts {ε : Type} (g : PMap → PMap) : Both R (M.modify fun s => { s with partitions := g s.partitions } : M GptDisk ε Unit)
    (M.modify fun s => { s with partitions := g s.partitions }) := by
  refine ⟨fun s s' h => ⟨rfl, ?_⟩⟩
  have := S.setParts h (g s.partitions)
  simp only [M.modify_apply]
  rwa [← S.parts h]

theorem modPrimary {ε : Type} (x : Header) : Both R (M.modify fun s => { s with primaryHeader := .ok x } : M GptDisk ε Unit)
    (M.modify fun s => { s with primaryHeader := .ok x }) := ⟨fun _ _ h => ⟨rfl, S.setPrimary h x⟩⟩

theorem modBackup {ε : Type} (x : Header) : Both R (M.modify fun s => { s with backupHeader := .ok x } : M GptDisk ε Unit)
    (M.modify fun s => { s with backupHeader := .ok x }) := ⟨fun _ _ h => ⟨rfl, S.setBackup h x⟩⟩

theorem init (m : Mode) (fresh : Uuid) : Both R (initHeaders m fresh) (initHeaders m fresh) := by
  unfold initHeaders
  refine .get fun s s' h => ?_
  rw [S.config h, S.tryHeader h, S.parts h, S.guid h]
  refine .bind (S.find _) fun bak => ?_
  refine .bind (.lift _) fun h1 => ?_
  refine .bind (S.modPrimary _) fun _ => ?_
  refine .ite (.pure _) ?_
  exact .bind (.lift _) fun h2 => S.modBackup _

theorem insert (m : Mode) (name : String) (id : UInt32) (first length : UInt64) (ty : PType) (flags : UInt64) (fresh fresh2 : Uuid) :
    Both R (insertPartition m name id first length ty flags fresh fresh2) (insertPartition m name id first length ty flags fresh fresh2) := by
  unfold insertPartition
  refine .bind (.lift _) fun e => ?_
  refine .bind (.lift _) fun last => ?_
  refine .get fun s s' h => ?_
  rw [S.header h, S.config h]
  refine .bind (.lift _) fun hd => ?_
  refine .ite (.throw _) ?_
  refine .bind (S.modParts _) fun _ => ?_
  exact .ite (.bind (S.init _ _) fun _ => .pure _) (.pure _)

theorem addLoop (m : Mode) (name : String) (n : UInt64) (ty : PType) (flags : UInt64) (align : Option UInt64) (fresh fresh2 : Uuid)
    (L : List (UInt64 × UInt64)) : Both R (addPartitionLoop m name n ty flags align fresh fresh2 L) (addPartitionLoop m name n ty flags align fresh fresh2 L) := by
  induction L with
  | nil => exact .throw _
  | cons g L ih =>
    obtain ⟨st, len⟩ := g
    unfold addPartitionLoop
    refine .bind (.lift _) fun off => ?_
    refine .bind (.lift _) fun need => ?_
    refine .ite ?_ ih
    refine .bind (.lift _) fun start => ?_
    refine .get fun s s' h => ?_
    rw [S.next h]
    refine .bind (.lift _) fun id? => ?_
    cases id? with
    | some i => exact .bind (.pure _) fun id => S.insert ..
    | none =>
      dsimp only
      rw [S.header h]
      exact .bind (.lift _) fun hd => .bind (.lift _) fun id => S.insert ..

theorem addAtLoop (m : Mode) (name : String) (id : UInt32) (first length : UInt64) (ty : PType) (flags : UInt64) (fresh fresh2 : Uuid)
    (L : List (UInt64 × UInt64)) : Both R (addPartitionAtLoop m name id first length ty flags fresh fresh2 L) (addPartitionAtLoop m name id first length ty flags fresh fresh2 L) := by
  induction L with
  | nil => exact .throw _
  | cons g L ih =>
    obtain ⟨st, len⟩ := g
    unfold addPartitionAtLoop
    exact .ite (S.insert ..) ih

theorem add (m : Mode) (name : String) (size : UInt64) (ty : PType) (flags : UInt64) (align : Option UInt64) (fresh fresh2 : Uuid) :
    Both R (addPartition m name size ty flags align fresh fresh2) (addPartition m name size ty flags align fresh fresh2) := by
  unfold addPartition
  refine .ite .panic ?_
  refine .get fun s s' h => ?_
  rw [S.config h, S.free m h]
  refine .bind (.lift _) fun _ => ?_
  refine .bind (.lift _) fun _ => ?_
  exact .bind (.lift _) fun _ => S.addLoop ..

theorem addAt (m : Mode) (name : String) (id : UInt32) (first length : UInt64) (ty : PType) (flags : UInt64) (fresh fresh2 : Uuid) :
    Both R (addPartitionAt m name id first length ty flags fresh fresh2) (addPartitionAt m name id first length ty flags fresh fresh2) := by
  unfold addPartitionAt
  refine .ite .panic (.ite .panic ?_)
  refine .get fun s s' h => ?_
  rw [S.parts h, S.free m h]
  exact .ite (.throw _) (.bind (.lift _) fun _ => S.addAtLoop ..)

theorem update (m : Mode) (pp : PMap) (fresh : Uuid) : Both R (updatePartitions m pp fresh) (updatePartitions m pp fresh) := by
  unfold updatePartitions
  refine .ite .panic ?_
  refine .get fun s s' h => ?_
  rw [S.header h, S.config h]
  refine .bind (.lift _) fun hd => ?_
  exact .ite (.throw _) (.bind (S.modParts fun _ => pp) fun _ => S.init _ _)

theorem step (m : Mode) (op : Op) (hop : ∀ d w, op ≠ .updateDiskDevice d w) (hw : op ≠ .writeInplace) : Both R (op.step m) (op.step m) := by
  cases op <;> unfold Op.step
  case addPartition => exact .mapOk _ (S.add ..)
  case addPartitionAt => exact .mapOk _ (S.addAt ..)
  case removePartition id =>
    refine .mapOk _ ⟨fun s s' h => ?_⟩
    unfold removePartition
    rw [← S.parts h]
    cases PMap.get s.partitions id with
    | some p => exact ⟨rfl, S.setParts h _⟩
    | none => exact ⟨rfl, h⟩
  case removePartitionByGuid g =>
    refine .mapOk _ ⟨fun s s' h => ?_⟩
    unfold removePartitionByGuid
    rw [← S.parts h]
    cases s.partitions.find? (fun e => e.2.partGuid == g) with
    | some e => exact ⟨rfl, S.setParts h _⟩
    | none => exact ⟨rfl, h⟩
  case takePartitions => exact .mapOk _ ⟨fun s s' h => ⟨congrArg Res.ok (S.parts h), S.setParts h _⟩⟩
  case updateGuid u r => exact .mapOk _ ⟨fun s s' h => ⟨rfl, S.setGuid h _⟩⟩
  case updatePartitions => exact .mapOk _ (S.update ..)
  case updateDiskDevice d w => exact absurd rfl (hop d w)
  case deviceMut d => exact .mapOk _ ⟨fun s s' h => ⟨rfl, S.setDevice h _⟩⟩
  case writeInplace => exact absurd rfl hw

/-- `update_disk_device` leaves related disks; it returns the old device. -/
theorem updateDiskDevice (d : Dev) (w : Bool) {s s' : GptDisk} (h : R s s') :
    R (GptDisk.updateDiskDevice (ε := GptError) d w s).2 (GptDisk.updateDiskDevice (ε := GptError) d w s').2 :=
  S.setDevice (S.setWritable h w) d

end SimCalls

namespace Sim
variable (S : Sim R)
include S

theorem write (m : Mode) : Both R (writeInplace m) (writeInplace m) := by
  unfold writeInplace
  refine .get fun s s' h => ?_
  rw [S.config h, S.syncs h, S.header h, S.parts h]
  refine .ite (.throw _) ?_
  dsimp only
  refine .bind (S.find _) fun _ => ?_
  refine .bind (.lift _) fun hd => ?_
  refine .bind (.lift _) fun ph => ?_
  refine .bind (S.modPrimary _) fun _ => ?_
  have rest : ∀ bh, Both R (do
      let next ← onDev id (writeEntries m s'.config.lbSize ph bh (usedParts s'.partitions) 0 0)
      onDev id (writeZeros m s'.config.lbSize ph next)
      match bh with
      | some bh => do
        onDev id (writeZeros m s'.config.lbSize bh next)
        onBackup bh (Header.writeBackup s'.config.lbSize)
      | none => pure ()
      onPrimary ph (Header.writePrimary s'.config.lbSize)
      onDev .io Dev.flush
      if s'.syncAll then onDev .io Dev.syncAll else pure ()) (do
      let next ← onDev id (writeEntries m s'.config.lbSize ph bh (usedParts s'.partitions) 0 0)
      onDev id (writeZeros m s'.config.lbSize ph next)
      match bh with
      | some bh => do
        onDev id (writeZeros m s'.config.lbSize bh next)
        onBackup bh (Header.writeBackup s'.config.lbSize)
      | none => pure ()
      onPrimary ph (Header.writePrimary s'.config.lbSize)
      onDev .io Dev.flush
      if s'.syncAll then onDev .io Dev.syncAll else pure ()) := by
    intro bh
    refine .bind (S.entries ..) fun next => ?_
    refine .bind (S.zeros ..) fun _ => ?_
    have last : Both R (do
        onPrimary ph (Header.writePrimary s'.config.lbSize)
        onDev .io Dev.flush
        if s'.syncAll then onDev .io Dev.syncAll else pure ()) (do
        onPrimary ph (Header.writePrimary s'.config.lbSize)
        onDev .io Dev.flush
        if s'.syncAll then onDev .io Dev.syncAll else pure ()) :=
      .bind (S.primary _ _) fun _ => .bind S.flush fun _ => .ite S.sync (.pure _)
    cases bh with
    | some bh => exact .bind (S.zeros ..) fun _ => .bind (S.backup _ _) fun _ => last
    | none => exact last
  refine .ite (.bind (.pure _) rest) ?_
  exact .bind (.lift _) fun bh => .bind (S.modBackup _) fun _ => .bind (.pure _) rest

theorem step (m : Mode) (op : Op) (hop : ∀ d w, op ≠ .updateDiskDevice d w) : Both R (op.step m) (op.step m) := by
  cases op
  case writeInplace => exact .mapOk _ (S.write ..)
  all_goals exact S.toSimCalls.step m _ hop nofun

end Sim

end Gpt
