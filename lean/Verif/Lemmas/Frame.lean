import Verif.Lemmas.WriteSane
/-!
# Whatever the device operations preserve, the library preserves

The library reaches the device only through the seven operations of `Model/Device.lean`.
-/

namespace Gpt

/-- `P` relates the device before and after every operation, whatever its outcome. -/
structure Dev.Frame (P : Dev → Dev → Prop) : Prop where
  chain : M.Chain P
  seekStart : ∀ n, M.Pres P (Dev.seekStart n)
  seekEnd : M.Pres P Dev.seekEnd
  streamPosition : M.Pres P Dev.streamPosition
  readExact : ∀ n, M.Pres P (Dev.readExact n)
  writeAll : ∀ bs, M.Pres P (Dev.writeAll bs)
  flush : M.Pres P Dev.flush
  syncAll : M.Pres P Dev.syncAll

namespace Dev.Frame
variable {P : Dev → Dev → Prop} (F : Dev.Frame P)
include F

theorem partentryChecksum (h : Header) (lb : LbSize) : M.Pres P (partentryChecksum h lb) := by
  have C := F.chain
  unfold Gpt.partentryChecksum
  refine M.Pres.bind C (M.Pres.lift C _) fun _ => ?_
  refine M.Pres.bind C (M.Pres.mapErr _ (F.seekStart _)) fun _ => ?_
  refine M.Pres.bind C (M.Pres.lift C _) fun _ => ?_
  refine M.Pres.bind C (M.Pres.lift C _) fun _ => ?_
  exact M.Pres.bind C (M.Pres.mapErr _ (F.readExact _)) fun _ => M.Pres.pure C _

theorem findBackupLba (lb : LbSize) : M.Pres P (findBackupLba lb) := by
  have C := F.chain
  unfold Gpt.findBackupLba
  refine M.Pres.bind C (M.Pres.mapErr _ F.streamPosition) fun _ => ?_
  refine M.Pres.bind C (M.Pres.mapErr _ F.seekEnd) fun _ => ?_
  refine M.Pres.bind C (M.Pres.mapErr _ (F.seekStart _)) fun _ => ?_
  split
  · exact M.Pres.throw C _
  · exact M.Pres.pure C _

theorem fileReadHeader (o : UInt64) : M.Pres P (fileReadHeader o) := by
  have C := F.chain
  unfold Gpt.fileReadHeader
  refine M.Pres.bind C (M.Pres.attempt (F.seekStart _)) fun _ => ?_
  exact M.Pres.bind C (M.Pres.mapErr _ (F.readExact _)) fun _ => M.Pres.lift C _

theorem readPrimaryHeader (lb : LbSize) : M.Pres P (readPrimaryHeader lb) := by
  have C := F.chain
  unfold Gpt.readPrimaryHeader
  refine M.Pres.bind C (M.Pres.attempt F.streamPosition) fun _ => ?_
  refine M.Pres.bind C (M.Pres.attempt (F.fileReadHeader _)) fun _ => ?_
  refine M.Pres.bind C (M.Pres.attempt (F.seekStart _)) fun _ => ?_
  split
  · exact M.Pres.pure C _
  · exact M.Pres.throw C _

theorem readBackupHeader (lb : LbSize) : M.Pres P (readBackupHeader lb) := by
  have C := F.chain
  unfold Gpt.readBackupHeader
  refine M.Pres.bind C (M.Pres.attempt F.streamPosition) fun _ => ?_
  refine M.Pres.bind C (F.findBackupLba lb) fun _ => ?_
  refine M.Pres.bind C (M.Pres.lift C _) fun _ => ?_
  refine M.Pres.bind C (M.Pres.attempt (F.fileReadHeader _)) fun _ => ?_
  refine M.Pres.bind C (M.Pres.attempt (F.seekStart _)) fun _ => ?_
  split
  · exact M.Pres.pure C _
  · exact M.Pres.throw C _

theorem readEntries (m : Mode) (n : Nat) (i : UInt32) (e : Nat) (t : PMap) : M.Pres P (readEntries m n i e t) := by
  have C := F.chain
  induction n generalizing i e t with
  | zero => exact M.Pres.pure C _
  | succ n ih =>
    unfold Gpt.readEntries
    refine M.Pres.bind C (F.readExact _) fun _ => ?_
    split
    · exact M.Pres.bind C (M.Pres.lift C _) fun _ => ih _ _ _
    · exact M.Pres.bind C (M.Pres.lift C _) fun _ => ih _ _ _

theorem fileReadPartitions (m : Mode) (h : Header) (lb : LbSize) : M.Pres P (fileReadPartitions m h lb) := by
  have C := F.chain
  unfold Gpt.fileReadPartitions
  refine M.Pres.bind C (M.Pres.lift C _) fun _ => ?_
  refine M.Pres.bind C (F.seekStart _) fun _ => ?_
  split
  · exact M.Pres.panic C
  · refine M.Pres.bind C (F.readEntries _ _ _ _ _) fun _ => ?_
    refine M.Pres.bind C (F.seekStart _) fun _ => ?_
    refine M.Pres.bind C (M.Pres.lift C _) fun _ => ?_
    refine M.Pres.bind C (F.readExact _) fun _ => ?_
    split
    · exact M.Pres.throw C _
    · exact M.Pres.pure C _

theorem openFromDevice (m : Mode) (cfg : GptConfig) : M.Pres P (openFromDevice m cfg) := by
  have C := F.chain
  unfold Gpt.openFromDevice
  refine M.Pres.bind C (M.Pres.attempt (F.readPrimaryHeader _)) fun h1 => ?_
  refine M.Pres.bind C (M.Pres.attempt (F.readBackupHeader _)) fun h2 => ?_
  have hrest : ∀ h : Header, M.Pres P (do
      let table ← (Gpt.fileReadPartitions m h cfg.lbSize).mapErr GptError.io
      let d ← M.get
      pure { config := cfg, device := d, guid := h.diskGuid, primaryHeader := h1, backupHeader := h2, partitions := table, syncAll := false } :
        M Dev GptError GptDisk) := by
    intro h
    refine M.Pres.bind C (M.Pres.mapErr _ (F.fileReadPartitions _ _ _)) fun _ => ?_
    exact M.Pres.bind C (M.Pres.get C) fun _ => M.Pres.pure C _
  have ht : ∀ e : GptError, ∀ f : Header → M Dev GptError GptDisk, M.Pres P (M.throw e >>= f) := fun e f d => F.chain.refl d
  cases h1 <;> cases h2 <;> simp only
  · exact ht _ _
  · split
    · exact ht _ _
    · exact hrest _
  · split
    · exact ht _ _
    · exact hrest _
  · exact hrest _

theorem writeToDevice (m : Mode) (p : Partition) (i st : UInt64) (lb : LbSize) (sz : UInt32) :
    M.Pres P (Partition.writeToDevice m p i st lb sz) := by
  have C := F.chain
  unfold Partition.writeToDevice
  refine M.Pres.bind C (M.Pres.lift C _) fun _ => ?_
  refine M.Pres.bind C (M.Pres.lift C _) fun _ => ?_
  refine M.Pres.bind C (M.Pres.lift C _) fun _ => ?_
  exact M.Pres.bind C (F.seekStart _) fun _ => F.writeAll _

theorem writeZeroEntries (m : Mode) (i n st : UInt64) (lb : LbSize) (sz : UInt32) :
    M.Pres P (Partition.writeZeroEntries m i n st lb sz) := by
  have C := F.chain
  unfold Partition.writeZeroEntries
  refine M.Pres.bind C (M.Pres.lift C _) fun _ => ?_
  refine M.Pres.bind C (M.Pres.lift C _) fun _ => ?_
  refine M.Pres.bind C (M.Pres.lift C _) fun _ => ?_
  refine M.Pres.bind C (F.seekStart _) fun _ => ?_
  refine M.Pres.bind C (M.Pres.lift C _) fun _ => ?_
  exact M.Pres.bind C (M.Pres.lift C _) fun _ => F.writeAll _

theorem onSnd : M.Chain (fun (s s' : Header × Dev) => P s.2 s'.2) :=
  ⟨fun s => F.chain.refl s.2, fun a b c => F.chain.trans a.2 b.2 c.2⟩

theorem fileWriteHeader (lba : UInt64) (lb : LbSize) :
    M.Pres (fun (s s' : Header × Dev) => P s.2 s'.2) (Header.fileWriteHeader lba lb) := by
  have C := F.onSnd
  unfold Header.fileWriteHeader
  refine M.Pres.bind C (M.Pres.get C) fun s => ?_
  refine M.Pres.bind C (fun s1 => F.partentryChecksum s.1 lb s1.2) fun c => ?_
  refine M.Pres.bind C (fun _ => F.chain.refl _) fun _ => ?_
  refine M.Pres.bind C (M.Pres.get C) fun s => ?_
  refine M.Pres.bind C (M.Pres.lift C _) fun s => ?_
  refine M.Pres.bind C (fun _ => F.chain.refl _) fun _ => ?_
  refine M.Pres.bind C (M.Pres.lift C _) fun s => ?_
  refine M.Pres.bind C (fun s1 => F.seekStart _ s1.2) fun c => ?_
  refine M.Pres.bind C (fun s1 => F.writeAll _ s1.2) fun c => ?_
  exact M.Pres.pure C _

theorem writePrimary (lb : LbSize) : M.Pres (fun (s s' : Header × Dev) => P s.2 s'.2) (Header.writePrimary lb) := by
  have C := F.onSnd
  unfold Header.writePrimary
  refine M.Pres.bind C (M.Pres.get C) fun s => ?_
  split
  · exact M.Pres.throw C _
  · exact F.fileWriteHeader _ _

theorem writeBackup (lb : LbSize) : M.Pres (fun (s s' : Header × Dev) => P s.2 s'.2) (Header.writeBackup lb) := by
  have C := F.onSnd
  unfold Header.writeBackup
  refine M.Pres.bind C (M.Pres.get C) fun s => ?_
  split
  · exact M.Pres.throw C _
  · exact F.fileWriteHeader _ _

theorem writeHeader (m : Mode) (uuid : Option Uuid) (fresh : Uuid) (lb : LbSize) : M.Pres P (writeHeader m uuid fresh lb) := by
  have C := F.chain
  unfold Gpt.writeHeader
  refine M.Pres.bind C (F.findBackupLba lb) fun _ => ?_
  exact M.Pres.bind C (M.Pres.lift C _) fun h d => F.writePrimary lb (h, d)

theorem writeEntries (m : Mode) (lb : LbSize) (ph : Header) (bh : Option Header) (parts : List Partition) (idx next : Nat) :
    M.Pres P (GptDisk.writeEntries m lb ph bh parts idx next) := by
  have C := F.chain
  induction parts generalizing idx next with
  | nil => exact M.Pres.pure C _
  | cons p ps ih =>
    unfold GptDisk.writeEntries
    split
    · exact M.Pres.throw C _
    · refine M.Pres.bind C (M.Pres.mapErr _ (F.writeToDevice _ _ _ _ _ _)) fun _ => ?_
      cases bh with
      | none => exact ih _ _
      | some b =>
        simp only
        split
        · exact M.Pres.bind C (M.Pres.throw C _) fun _ => ih _ _
        · split
          · exact M.Pres.bind C (M.Pres.mapErr _ (F.writeToDevice _ _ _ _ _ _)) fun _ => ih _ _
          · exact M.Pres.bind C (M.Pres.pure C _) fun _ => ih _ _

theorem writeZeros (m : Mode) (lb : LbSize) (h : Header) (next : Nat) : M.Pres P (GptDisk.writeZeros m lb h next) := by
  have C := F.chain
  unfold GptDisk.writeZeros
  cases checkedSub64 h.numParts.toUInt64 (UInt64.ofNat next) with
  | some n => exact M.Pres.mapErr _ (F.writeZeroEntries _ _ _ _ _ _)
  | none => exact fun d => F.chain.refl d

/-! ### The disk -/

theorem onDisk : M.Chain (fun (s s' : GptDisk) => P s.device s'.device) :=
  ⟨fun s => F.chain.refl s.device, fun a b c => F.chain.trans a.device b.device c.device⟩

theorem initHeaders (m : Mode) (fresh : Uuid) : M.Pres (fun (s s' : GptDisk) => P s.device s'.device) (GptDisk.initHeaders m fresh) := by
  have C := F.onDisk
  unfold GptDisk.initHeaders
  refine M.Pres.bind C (M.Pres.get C) fun s => ?_
  refine M.Pres.bind C (fun s1 => F.findBackupLba _ s1.device) fun _ => ?_
  refine M.Pres.bind C (M.Pres.lift C _) fun _ => ?_
  refine M.Pres.bind C (fun _ => F.chain.refl _) fun _ => ?_
  split
  · exact M.Pres.pure C _
  · refine M.Pres.bind C (M.Pres.lift C _) fun _ => ?_
    exact fun _ => F.chain.refl _

theorem insertPartition (m : Mode) (name : String) (id : UInt32) (first length : UInt64) (ty : PType) (flags : UInt64) (fresh fresh2 : Uuid) :
    M.Pres (fun (s s' : GptDisk) => P s.device s'.device) (GptDisk.insertPartition m name id first length ty flags fresh fresh2) := by
  have C := F.onDisk
  unfold GptDisk.insertPartition
  refine M.Pres.bind C (M.Pres.lift C _) fun _ => ?_
  refine M.Pres.bind C (M.Pres.lift C _) fun _ => ?_
  refine M.Pres.bind C (M.Pres.get C) fun _ => ?_
  refine M.Pres.bind C (M.Pres.lift C _) fun _ => ?_
  simp only
  split
  · exact M.Pres.throw C _
  · refine M.Pres.bind C (fun _ => F.chain.refl _) fun _ => ?_
    split
    · exact M.Pres.bind C (F.initHeaders _ _) fun _ => M.Pres.pure C _
    · exact M.Pres.pure C _

theorem addPartition (m : Mode) (name : String) (size : UInt64) (ty : PType) (flags : UInt64) (align : Option UInt64) (fresh fresh2 : Uuid) :
    M.Pres (fun (s s' : GptDisk) => P s.device s'.device) (GptDisk.addPartition m name size ty flags align fresh fresh2) := by
  have C := F.onDisk
  unfold GptDisk.addPartition
  split
  · exact M.Pres.panic C
  · refine M.Pres.bind C (M.Pres.get C) fun _ => ?_
    refine M.Pres.bind C (M.Pres.lift C _) fun _ => ?_
    refine M.Pres.bind C (M.Pres.lift C _) fun w => ?_
    refine M.Pres.bind C (M.Pres.lift C _) fun free => ?_
    induction free with
    | nil => exact M.Pres.throw C _
    | cons sec rest ih =>
      unfold GptDisk.addPartitionLoop
      refine M.Pres.bind C (M.Pres.lift C _) fun _ => ?_
      refine M.Pres.bind C (M.Pres.lift C _) fun _ => ?_
      split
      · refine M.Pres.bind C (M.Pres.lift C _) fun _ => ?_
        refine M.Pres.bind C (M.Pres.get C) fun _ => ?_
        refine M.Pres.bind C (M.Pres.lift C _) fun i => ?_
        cases i with
        | some i => exact F.insertPartition _ _ _ _ _ _ _ _ _
        | none =>
          refine M.Pres.bind C (M.Pres.lift C _) fun _ => ?_
          exact M.Pres.bind C (M.Pres.lift C _) fun _ => F.insertPartition _ _ _ _ _ _ _ _ _
      · exact ih

theorem addPartitionAt (m : Mode) (name : String) (id : UInt32) (first length : UInt64) (ty : PType) (flags : UInt64) (fresh fresh2 : Uuid) :
    M.Pres (fun (s s' : GptDisk) => P s.device s'.device) (GptDisk.addPartitionAt m name id first length ty flags fresh fresh2) := by
  have C := F.onDisk
  unfold GptDisk.addPartitionAt
  split
  · exact M.Pres.panic C
  · split
    · exact M.Pres.panic C
    · refine M.Pres.bind C (M.Pres.get C) fun _ => ?_
      split
      · exact M.Pres.throw C _
      · refine M.Pres.bind C (M.Pres.lift C _) fun free => ?_
        induction free with
        | nil => exact M.Pres.throw C _
        | cons sec rest ih =>
          unfold GptDisk.addPartitionAtLoop
          split
          · exact F.insertPartition _ _ _ _ _ _ _ _ _
          · exact ih

theorem updatePartitions (m : Mode) (pp : PMap) (fresh : Uuid) :
    M.Pres (fun (s s' : GptDisk) => P s.device s'.device) (GptDisk.updatePartitions m pp fresh) := by
  have C := F.onDisk
  unfold GptDisk.updatePartitions
  split
  · exact M.Pres.panic C
  · refine M.Pres.bind C (M.Pres.get C) fun _ => ?_
    refine M.Pres.bind C (M.Pres.lift C _) fun _ => ?_
    simp only
    split
    · exact M.Pres.throw C _
    · exact M.Pres.bind C (fun _ => F.chain.refl _) fun _ => F.initHeaders _ _

theorem writeRest (m : Mode) (lb : LbSize) (ph : Header) (bh : Option Header) (parts : List Partition) (sync : Bool) :
    M.Pres (fun (s s' : GptDisk) => P s.device s'.device) (GptDisk.writeRest m lb ph bh parts sync) := by
  have C := F.onDisk
  unfold GptDisk.writeRest
  refine M.Pres.bind C (fun s1 => F.writeEntries _ _ _ _ _ _ _ s1.device) fun next => ?_
  refine M.Pres.bind C (fun s1 => F.writeZeros _ _ _ _ s1.device) fun _ => ?_
  have htail : M.Pres (fun (s s' : GptDisk) => P s.device s'.device) (do
      GptDisk.onPrimary ph (Header.writePrimary lb)
      GptDisk.onDev GptError.io Dev.flush
      if sync = true then GptDisk.onDev GptError.io Dev.syncAll else pure () : M GptDisk GptError Unit) := by
    refine M.Pres.bind C (fun s1 => F.writePrimary _ (ph, s1.device)) fun _ => ?_
    refine M.Pres.bind C (fun s1 => F.flush s1.device) fun _ => ?_
    split
    · exact fun s1 => F.syncAll s1.device
    · exact M.Pres.pure C _
  cases bh with
  | none => exact htail
  | some b =>
    refine M.Pres.bind C (fun s1 => F.writeZeros _ _ _ _ s1.device) fun _ => ?_
    exact M.Pres.bind C (fun s1 => F.writeBackup _ (b, s1.device)) fun _ => htail

theorem writeInplace (m : Mode) (s : GptDisk) : P s.device (GptDisk.writeInplace m s).2.device := by
  rw [GptDisk.writeInplace_eq]
  have hf := F.findBackupLba s.config.lbSize s.device
  split
  · exact F.chain.refl _
  · rcases hx : Gpt.findBackupLba s.config.lbSize s.device with ⟨r, d1⟩
    rw [hx] at hf
    cases r with
    | err e => exact hf
    | panic => exact hf
    | ok b =>
      simp only
      split
      · exact hf
      · split
        · exact hf
        · exact hf
        · have key : ∀ bh s1, s1.device = d1 → P s.device (GptDisk.writeRest m s.config.lbSize ‹Header› bh (GptDisk.usedParts s.partitions) s.syncAll s1).2.device :=
            fun bh s1 e => F.chain.trans _ _ _ hf (e ▸ F.writeRest m _ _ bh _ _ s1)
          split
          · exact key _ _ rfl
          · split
            · exact hf
            · exact hf
            · exact key _ _ rfl

/-- Every call of the API but those that exchange the device. -/
theorem step (m : Mode) (op : Op) (h1 : ∀ d w, op ≠ .updateDiskDevice d w) (h2 : ∀ d, op ≠ .deviceMut d) (s : GptDisk) :
    P s.device (op.step m s).2.device := by
  cases op with
  | addPartition n sz t f a r r2 => exact F.addPartition m n sz t f a r r2 s
  | addPartitionAt n i fl l t f r r2 => exact F.addPartitionAt m n i fl l t f r r2 s
  | removePartition i =>
    show P s.device ((GptDisk.removePartition i : M GptDisk GptError _) s).2.device
    unfold GptDisk.removePartition; split <;> exact F.chain.refl _
  | removePartitionByGuid g =>
    show P s.device ((GptDisk.removePartitionByGuid g : M GptDisk GptError _) s).2.device
    unfold GptDisk.removePartitionByGuid; split <;> exact F.chain.refl _
  | takePartitions => exact F.chain.refl _
  | updateGuid u r => exact F.chain.refl _
  | updateDiskDevice d w => exact absurd rfl (h1 d w)
  | deviceMut d => exact absurd rfl (h2 d)
  | updatePartitions pp fresh => exact F.updatePartitions m pp fresh s
  | writeInplace => exact F.writeInplace m s

end Dev.Frame

/-! ## A working device stays one -/

/-- No injected failures, a size below 2^64, the position below 2^64. -/
structure Dev.Works (d : Dev) : Prop where
  faults : d.faults = []
  cap : d.cap < 2 ^ 64
  length : d.data.length ≤ d.cap
  pos : d.pos < 2 ^ 64

theorem Dev.works_frame : Dev.Frame (fun d d' => d.Works → d'.Works ∧ d'.cap = d.cap) where
  chain := ⟨fun _ h => ⟨h, rfl⟩, fun _ _ _ h1 h2 h => ⟨(h2 (h1 h).1).1, (h2 (h1 h).1).2.trans (h1 h).2⟩⟩
  seekStart n d h := by
    unfold Dev.seekStart
    rw [nextFault_of_nil h.faults, tick_of_nil h.faults]
    exact ⟨⟨h.faults, h.cap, h.length, n.toNat_lt⟩, rfl⟩
  seekEnd d h := by
    unfold Dev.seekEnd
    rw [nextFault_of_nil h.faults, tick_of_nil h.faults]
    exact ⟨⟨h.faults, h.cap, h.length, Nat.lt_of_le_of_lt h.length h.cap⟩, rfl⟩
  streamPosition d h := by
    unfold Dev.streamPosition
    rw [nextFault_of_nil h.faults, tick_of_nil h.faults]
    exact ⟨h, rfl⟩
  readExact n d h := by
    have h1 := h.length
    have h2 := h.cap
    have h3 := h.pos
    unfold Dev.readExact
    rw [nextFault_of_nil h.faults, tick_of_nil h.faults]
    split
    · exact ⟨h, rfl⟩
    · simp only
      split
      · exact ⟨⟨h.faults, h.cap, h.length, by simp only; omega⟩, rfl⟩
      · exact ⟨⟨h.faults, h.cap, h.length, by simp only; omega⟩, rfl⟩
  writeAll bs d h := by
    have h1 := h.length
    have h2 := h.cap
    have h3 := h.pos
    have key : ∀ b : Bytes, b.length ≤ d.cap - d.pos → (d.put b).Works ∧ (d.put b).cap = d.cap := by
      intro b hb
      unfold Dev.put
      split
      · exact ⟨h, rfl⟩
      · rename_i hne
        have : 0 < b.length := by
          cases b with
          | nil => exact absurd rfl hne
          | cons => simp
        refine ⟨⟨h.faults, h.cap, ?_, ?_⟩, rfl⟩
        · simp only [patch, List.length_append, List.length_take, List.length_drop, zeros_length]
          omega
        · simp only
          omega
    unfold Dev.writeAll
    rw [nextFault_of_nil h.faults, tick_of_nil h.faults]
    split
    · exact ⟨h, rfl⟩
    · simp only
      split
      · exact key _ (by omega)
      · exact key _ (by rw [List.length_take]; omega)
  flush d h := by
    unfold Dev.flush
    rw [nextFault_of_nil h.faults, tick_of_nil h.faults]
    exact ⟨⟨h.faults, h.cap, h.length, h.pos⟩, rfl⟩
  syncAll d h := by
    unfold Dev.syncAll
    rw [nextFault_of_nil h.faults, tick_of_nil h.faults]
    exact ⟨⟨h.faults, h.cap, h.length, h.pos⟩, rfl⟩

end Gpt
