import Verif.Model.Partition
/-!
# src/lib.rs

The `D` of `GptDisk<D>` is the device of `Model/Device.lean`. Values of `Uuid::new_v4()` are the arguments called
`fresh`.
-/

namespace Gpt

/-- `GptError` (src/lib.rs:100-124). -/
inductive GptError where
  | io (e : IoErr)
  | header (e : HeaderError)
  | creatingInitializedDisk
  | overflow (msg : String)
  | notEnoughSpace
  | readOnly
  | overflowPartitionCount
  | partitionCountWouldChange
  | partitionIdAlreadyUsed
  deriving DecidableEq, Repr

/-- `GptConfig` (src/lib.rs:183-198). -/
structure GptConfig where
  lbSize : LbSize
  writable : Bool
  onlyValidHeaders : Bool
  readonlyBackup : Bool
  changePartitionCount : Bool
  deriving DecidableEq, Repr

namespace GptConfig

/-- `GptConfig::new` / `default` (src/lib.rs:201-204, 326-336). -/
def new : GptConfig := ⟨defaultSectorSize, false, false, false, false⟩
/-- `writable` (src/lib.rs:206-210). -/
def setWritable (c : GptConfig) (b : Bool) : GptConfig := { c with writable := b }
/-- `logical_block_size` (src/lib.rs:212-216). -/
def setLogicalBlockSize (c : GptConfig) (l : LbSize) : GptConfig := { c with lbSize := l }
/-- `only_valid_headers` (src/lib.rs:218-222). -/
def setOnlyValidHeaders (c : GptConfig) (b : Bool) : GptConfig := { c with onlyValidHeaders := b }
/-- `readonly_backup` (src/lib.rs:224-228). -/
def setReadonlyBackup (c : GptConfig) (b : Bool) : GptConfig := { c with readonlyBackup := b }
/-- `change_partition_count` (src/lib.rs:230-237). -/
def setChangePartitionCount (c : GptConfig) (b : Bool) : GptConfig := { c with changePartitionCount := b }

end GptConfig

/-- `GptDisk` (src/lib.rs:338-351). `syncAll` says whether the function pointer is set. -/
structure GptDisk where
  config : GptConfig
  device : Dev
  guid : Uuid
  primaryHeader : Except HeaderError Header
  backupHeader : Except HeaderError Header
  partitions : PMap
  syncAll : Bool

/-- `.as_ref().map_err(|e| e.lossy_clone()).cloned()` (src/lib.rs:375-384). -/
def lossyHeader : Except HeaderError Header → Except HeaderError Header
  | .ok h => .ok h
  | .error e => .error e.lossyClone

namespace GptDisk
variable {ε : Type}

/-- `impl Clone` (src/lib.rs:369-389). -/
def clone (s : GptDisk) : GptDisk :=
  { s with primaryHeader := lossyHeader s.primaryHeader, backupHeader := lossyHeader s.backupHeader }

/-- `primary_header` (src/lib.rs:392-395). -/
def primaryHeader? (s : GptDisk) : Except HeaderError Header := lossyHeader s.primaryHeader

/-- `backup_header` (src/lib.rs:397-400). -/
def backupHeader? (s : GptDisk) : Except HeaderError Header := lossyHeader s.backupHeader

/-- `try_header` (src/lib.rs:402-410). -/
def tryHeader (s : GptDisk) : Except HeaderError Header :=
  match s.primaryHeader with
  | .ok h => .ok h
  | .error _ => match s.backupHeader with
    | .ok h => .ok h
    | .error e => .error e.lossyClone

/-- `header` (src/lib.rs:412-415): panics without any header. -/
def header (s : GptDisk) : Res ε Header :=
  match s.tryHeader with
  | .ok h => .ok h
  | .error _ => .panic

/-- `update_disk_device` (src/lib.rs:432-437). -/
def updateDiskDevice (d : Dev) (writable : Bool) : M GptDisk ε Dev := fun s =>
  (.ok s.device, { s with config := { s.config with writable := writable }, device := d })

/-- `device_mut` (src/lib.rs:469-473): whatever the caller does through the reference, the device ends up as some `d`. -/
def deviceMut (d : Dev) : M GptDisk ε Unit := fun s => (.ok (), { s with device := d })

/-- `with_disk_device` (src/lib.rs:439-463). -/
def withDiskDevice (s : GptDisk) (d : Dev) (writable : Bool) : GptDisk where
  config := { s.config with writable := writable }
  device := d
  guid := s.guid
  primaryHeader := lossyHeader s.primaryHeader
  backupHeader := lossyHeader s.backupHeader
  partitions := s.partitions
  syncAll := false

/-- Run a device computation. (e.g. src/lib.rs:969) -/
def onDev {ε' α : Type} (g : ε → ε') (x : M Dev ε α) : M GptDisk ε' α :=
  M.zoom (·.device) (fun d s => { s with device := d }) (x.mapErr g)

/-! ## Free space -/

/-- `sort_unstable` on `u64`: the order of equal numbers is not observable, so the result is the sorted list. (src/lib.rs:725) -/
def insertSorted (x : UInt64) : List UInt64 → List UInt64
  | [] => [x]
  | y :: ys => if x ≤ y then x :: y :: ys else y :: insertSorted x ys

/-- `disk_positions.sort_unstable()` (src/lib.rs:725). -/
def sort64 : List UInt64 → List UInt64
  | [] => []
  | x :: xs => insertSorted x (sort64 xs)

/-- The used entries, in id order (`.filter(|p| p.1.is_used())`, src/lib.rs:714, 893-898). -/
def usedParts (m : PMap) : List Partition := (m.filter (fun e => e.2.isUsed)).map (·.2)

/-- The boundary list before sorting (src/lib.rs:713-723). -/
def diskPositions (lo hi : UInt64) (m : PMap) : List UInt64 :=
  [lo] ++ (usedParts m).flatMap (fun p => [p.firstLba, p.lastLba]) ++ [hi]

/-- `.chunks_exact(2).filter_map(..)` (src/lib.rs:727-739). -/
def freeChunks (m : Mode) : List UInt64 → Res ε (List (UInt64 × UInt64))
  | a :: b :: rest => do
    let start ← add64 m a 1
    let end_ ← sub64 m b 1
    if start ≤ end_ then do
      let d ← sub64 m end_ start
      let len ← add64 m d 1
      let tl ← freeChunks m rest
      pure ((start, len) :: tl)
    else freeChunks m rest
  | _ => pure []

/-- `find_free_sectors` (src/lib.rs:706-740). -/
def findFreeSectors (m : Mode) (s : GptDisk) : Res ε (List (UInt64 × UInt64)) := do
  let h ← s.header
  let lo ← sub64 m h.firstUsable 1
  let hi ← add64 m h.lastUsable 1
  freeChunks m (sort64 (diskPositions lo hi s.partitions))

/-- The loop `for i in 1..=num_parts` (src/lib.rs:752-762) with `n` iterations left. -/
def nextIdLoop (parts : PMap) : (n : Nat) → (i : UInt32) → Option UInt32
  | 0, _ => none
  | n + 1, i =>
    match PMap.get parts i with
    | some p => if p.isUsed then nextIdLoop parts n (i + 1) else some i
    | none => some i

/-- `find_next_partition_id` (src/lib.rs:742-763). -/
def findNextPartitionId (s : GptDisk) : Res ε (Option UInt32) :=
  if s.partitions = [] then .ok (some 1)
  else do
    let h ← s.header
    pure (nextIdLoop s.partitions h.numParts.toNat 1)

/-- The inner `loop` of `calculate_alignment` (src/lib.rs:671-678) for one partition, from the current exponent. With
exponent 0 the remainder is 0 and the loop ends, so the decrement of 0 is not reached (`Props` proves the panic below
never happens). -/
def alignLoop (firstLba : UInt64) : (exponent : Nat) → Res ε Nat
  | 0 => if firstLba % UInt64.ofNat (2 ^ 0) = 0 then .ok 0 else .panic
  | e + 1 => if firstLba % UInt64.ofNat (2 ^ (e + 1)) = 0 then .ok (e + 1) else alignLoop firstLba e

/-- The `for` of `calculate_alignment` (src/lib.rs:670-679): the exponent after all partitions. -/
def alignAll : List Partition → Nat → Res ε Nat
  | [], e => .ok e
  | p :: ps, e => do
    let e' ← alignLoop p.firstLba e
    alignAll ps e'

/-- `calculate_alignment` (src/lib.rs:656-682). `(2048 as f64).log2() as u32` is 11, and `align` is always
`2^exponent`. -/
def calculateAlignment (s : GptDisk) : Res ε UInt64 :=
  if s.partitions = [] then .ok 0
  else do
    let e ← alignAll (usedParts s.partitions) 11
    pure (UInt64.ofNat (2 ^ e))

/-! ## Headers -/

/-- `init_headers` (src/lib.rs:814-836). -/
def initHeaders (m : Mode) (fresh : Uuid) : M GptDisk GptError Unit := do
  let s ← M.get
  let bak ← onDev .header (findBackupLba s.config.lbSize)
  let numParts := UInt32.ofNat s.partitions.length
  let b := HeaderBuilder.fromMaybeHeader s.tryHeader fresh
  let b := (((b.setNumParts numParts).setBackupLba bak).setDiskGuid s.guid).setPrimary true
  let h1 ← M.lift ((b.build m s.config.lbSize).mapErr .header)
  M.modify fun s => { s with primaryHeader := .ok h1 }
  if s.config.readonlyBackup then pure ()
  else do
    let h2 ← M.lift ((((HeaderBuilder.fromHeader h1).setPrimary false).build m s.config.lbSize).mapErr .header)
    M.modify fun s => { s with backupHeader := .ok h2 }

/-! ## Changing the table -/

/-- What `add_partition` and `add_partition_at` do once the extent is chosen: check the count, insert, rebuild the headers
(src/lib.rs:537-567, 615-649). The `debug!` arguments `first + length - 1` are evaluated first, then again for the
entry. -/
def insertPartition (m : Mode) (name : String) (id : UInt32) (first length : UInt64) (ty : PType) (flags : UInt64)
    (fresh fresh2 : Uuid) : M GptDisk GptError UInt32 := do
  let e ← M.lift (add64 m first length)
  let last ← M.lift (sub64 m e 1)
  let s ← M.get
  let h ← M.lift s.header
  let changes := h.numPartsWouldChange id
  if changes && !s.config.changePartitionCount then M.throw .partitionCountWouldChange
  else
    let part : Partition := ⟨ty, fresh, first, last, flags, name⟩
    M.modify fun s => { s with partitions := PMap.insert id part s.partitions }
    if changes then initHeaders m fresh2
    pure id

/-- `(alignment - (starting_lba % alignment)) % alignment`, or 0 (src/lib.rs:521-524). -/
def alignmentOffset (m : Mode) (start : UInt64) : Option UInt64 → Res ε UInt64
  | some a => do
    let r ← rem64 start a
    let d ← sub64 m a r
    rem64 d a
  | none => .ok 0

/-- The loop over the free sections in `add_partition` (src/lib.rs:517-571). -/
def addPartitionLoop (m : Mode) (name : String) (sizeLba : UInt64) (ty : PType) (flags : UInt64) (align : Option UInt64)
    (fresh fresh2 : Uuid) : List (UInt64 × UInt64) → M GptDisk GptError UInt32
  | [] => M.throw .notEnoughSpace
  | (start, length) :: rest => do
    let off ← M.lift (alignmentOffset m start align)
    let need ← M.lift (add64 m off sizeLba)
    if length ≥ need then do
      let start ← M.lift (add64 m start off)
      let s ← M.get
      let id? ← M.lift s.findNextPartitionId
      let id ← match id? with
        | some i => (pure i : M GptDisk GptError UInt32)
        | none => do
          let h ← M.lift s.header
          M.lift (add32 m h.numParts 1)
      insertPartition m name id start sizeLba ty flags fresh fresh2
    else addPartitionLoop m name sizeLba ty flags align fresh fresh2 rest

/-- `add_partition` (src/lib.rs:488-572). The `checked_div` never fails: the block size is not 0. -/
def addPartition (m : Mode) (name : String) (size : UInt64) (ty : PType) (flags : UInt64) (align : Option UInt64)
    (fresh fresh2 : Uuid) : M GptDisk GptError UInt32 := do
  if size = 0 then M.panic
  else
    let s ← M.get
    let size1 ← M.lift (sub64 m size 1)
    let sizeLba ← M.lift (add64 m (size1 / s.config.lbSize.u64) 1)
    let free ← M.lift (s.findFreeSectors m)
    addPartitionLoop m name sizeLba ty flags align fresh fresh2 free

/-- The loop over the free sections in `add_partition_at` (src/lib.rs:605-653). -/
def addPartitionAtLoop (m : Mode) (name : String) (id : UInt32) (first length : UInt64) (ty : PType) (flags : UInt64)
    (fresh fresh2 : Uuid) : List (UInt64 × UInt64) → M GptDisk GptError UInt32
  | [] => M.throw .notEnoughSpace
  | (start, len) :: rest =>
    if first ≥ start ∧ length ≤ len then insertPartition m name id first length ty flags fresh fresh2
    else addPartitionAtLoop m name id first length ty flags fresh fresh2 rest

/-- `add_partition_at` (src/lib.rs:574-654). -/
def addPartitionAt (m : Mode) (name : String) (id : UInt32) (first length : UInt64) (ty : PType) (flags : UInt64)
    (fresh fresh2 : Uuid) : M GptDisk GptError UInt32 := do
  if length = 0 then M.panic
  else if id = 0 then M.panic
  else
    let s ← M.get
    if (PMap.get s.partitions id).any (·.isUsed) then M.throw .partitionIdAlreadyUsed
    else
      let free ← M.lift (s.findFreeSectors m)
      addPartitionAtLoop m name id first length ty flags fresh fresh2 free

/-- `remove_partition` (src/lib.rs:684-690). -/
def removePartition (id : UInt32) : M GptDisk ε (Option UInt32) := fun s =>
  match PMap.get s.partitions id with
  | some _ => (.ok (some id), { s with partitions := PMap.remove s.partitions id })
  | none => (.ok none, s)

/-- `remove_partition_by_guid` (src/lib.rs:692-704). -/
def removePartitionByGuid (g : Uuid) : M GptDisk ε (Option UInt32) := fun s =>
  match s.partitions.find? (fun e => e.2.partGuid == g) with
  | some e => (.ok (some e.1), { s with partitions := PMap.remove s.partitions e.1 })
  | none => (.ok none, s)

/-- `take_partitions` (src/lib.rs:765-768). -/
def takePartitions : M GptDisk ε PMap := fun s => (.ok s.partitions, { s with partitions := [] })

/-- `update_guid` (src/lib.rs:770-784). -/
def updateGuid (uuid : Option Uuid) (fresh : Uuid) : M GptDisk ε Unit := fun s =>
  (.ok (), { s with guid := uuid.getD fresh })

/-- `update_partitions` (src/lib.rs:786-812). -/
def updatePartitions (m : Mode) (pp : PMap) (fresh : Uuid) : M GptDisk GptError Unit := do
  if (PMap.get pp 0).isSome then M.panic
  else
    let s ← M.get
    let h ← M.lift s.header
    let changes := h.numPartsWouldChange (UInt32.ofNat pp.length)
    if changes && !s.config.changePartitionCount then M.throw .partitionCountWouldChange
    else
      M.modify fun s => { s with partitions := pp }
      initHeaders m fresh

/-! ## Writing -/

/-- The loop over the used partitions in `write_inplace` (src/lib.rs:891-934): returns `next_partition_index`. -/
def writeEntries (m : Mode) (lb : LbSize) (ph : Header) (bh : Option Header) :
    List Partition → (idx next : Nat) → M Dev GptError Nat
  | [], _, next => pure next
  | p :: ps, idx, _ => do
    if idx ≥ ph.numParts.toNat then M.throw .overflowPartitionCount
    else
      (Partition.writeToDevice m p (UInt64.ofNat idx) ph.partStart lb ph.partSize).mapErr .io
      match bh with
      | some bh =>
        if idx ≥ bh.numParts.toNat then M.throw .overflowPartitionCount
        else if ph.partStart ≠ bh.partStart then
          (Partition.writeToDevice m p (UInt64.ofNat idx) bh.partStart lb bh.partSize).mapErr .io
        else pure ()
      | none => pure ()
      writeEntries m lb ph bh ps (idx + 1) (idx + 1)

/-- Zero the slots of the array of `h` from `next` on (src/lib.rs:939-948, 950-959). -/
def writeZeros (m : Mode) (lb : LbSize) (h : Header) (next : Nat) : M Dev GptError Unit := do
  let n ← match checkedSub64 h.numParts.toUInt64 (UInt64.ofNat next) with
    | some n => (pure n : M Dev GptError UInt64)
    | none => M.panic
  (Partition.writeZeroEntries m (UInt64.ofNat next) n h.partStart lb h.partSize).mapErr .io

/-- Run a header method on the in-memory backup header `h` (src/lib.rs:964). -/
def onBackup (h : Header) (x : M (Header × Dev) HeaderError Nat) : M GptDisk GptError Unit := fun s =>
  (match (x (h, s.device)).1 with
    | .ok _ => .ok ()
    | .err e => .err (.header e)
    | .panic => .panic,
   { s with backupHeader := .ok (x (h, s.device)).2.1, device := (x (h, s.device)).2.2 })

/-- Run a header method on the in-memory primary header `h` (src/lib.rs:967). -/
def onPrimary (h : Header) (x : M (Header × Dev) HeaderError Nat) : M GptDisk GptError Unit := fun s =>
  (match (x (h, s.device)).1 with
    | .ok _ => .ok ()
    | .err e => .err (.header e)
    | .panic => .panic,
   { s with primaryHeader := .ok (x (h, s.device)).2.1, device := (x (h, s.device)).2.2 })

/-- `write_inplace` (src/lib.rs:853-976). -/
def writeInplace (m : Mode) : M GptDisk GptError Unit := do
  let s ← M.get
  if !s.config.writable then M.throw .readOnly
  else
    let lb := s.config.lbSize
    let _ ← onDev .header (findBackupLba lb)
    let h ← M.lift s.header
    let ph ← M.lift ((((HeaderBuilder.fromHeader h).setPrimary true).build m lb).mapErr .header)
    M.modify fun s => { s with primaryHeader := .ok ph }
    let bh ← if s.config.readonlyBackup then (pure none : M GptDisk GptError (Option Header))
      else do
        let bh ← M.lift ((((HeaderBuilder.fromHeader ph).setPrimary false).build m lb).mapErr .header)
        M.modify fun s => { s with backupHeader := .ok bh }
        pure (some bh)
    let next ← onDev id (writeEntries m lb ph bh (usedParts s.partitions) 0 0)
    onDev id (writeZeros m lb ph next)
    match bh with
    | some bh => do
      onDev id (writeZeros m lb bh next)
      onBackup bh (Header.writeBackup lb)
    | none => pure ()
    onPrimary ph (Header.writePrimary lb)
    onDev .io Dev.flush
    if s.syncAll then onDev .io Dev.syncAll else pure ()

/-- `write` (src/lib.rs:838-851): the device on success. -/
def write (m : Mode) : M GptDisk GptError Dev := do
  writeInplace m
  let s ← M.get
  pure s.device

end GptDisk

/-! ## Opening and creating -/

/-- `open_from_device` (src/lib.rs:267-299). -/
def openFromDevice (m : Mode) (cfg : GptConfig) : M Dev GptError GptDisk := do
  let h1 ← (readPrimaryHeader cfg.lbSize).attempt
  let h2 ← (readBackupHeader cfg.lbSize).attempt
  let header ← match h1, h2 with
    | .ok h1', .ok _ => (pure h1' : M Dev GptError Header)
    | .error e, .error _ => M.throw (.header e)
    | .ok h1', .error e2 => if cfg.onlyValidHeaders then M.throw (.header e2) else pure h1'
    | .error e1, .ok h2' => if cfg.onlyValidHeaders then M.throw (.header e1) else pure h2'
  let table ← (fileReadPartitions m header cfg.lbSize).mapErr .io
  let d ← M.get
  pure {
    config := cfg
    device := d
    guid := header.diskGuid
    primaryHeader := h1
    backupHeader := h2
    partitions := table
    syncAll := false }

/-- The disk `create_from_device` starts from (src/lib.rs:311-319). -/
def blankDisk (cfg : GptConfig) (d : Dev) (guid : Uuid) : GptDisk where
  config := cfg
  device := d
  guid := guid
  primaryHeader := .error .invalidGptSignature
  backupHeader := .error .invalidGptSignature
  partitions := []
  syncAll := false

/-- `create_from_device` (src/lib.rs:301-323). -/
def createFromDevice (m : Mode) (cfg : GptConfig) (guid : Option Uuid) (fresh fresh2 : Uuid) : M Dev GptError GptDisk :=
  fun d =>
    match GptDisk.initHeaders m fresh2 (blankDisk cfg d (guid.getD fresh)) with
    | (.ok _, s) => (.ok s, s.device)
    | (.err e, s) => (.err e, s.device)
    | (.panic, s) => (.panic, s.device)

/-- `open` (src/lib.rs:239-250) on the opened file. -/
def openFile (m : Mode) (cfg : GptConfig) : M Dev GptError GptDisk := do
  let g ← openFromDevice m cfg
  pure { g with syncAll := true }

/-- `create` (src/lib.rs:252-265) on the opened file. -/
def createFile (m : Mode) (cfg : GptConfig) (fresh fresh2 : Uuid) : M Dev GptError GptDisk := do
  let g ← createFromDevice m cfg none fresh fresh2
  pure { g with syncAll := true }

/-- `disk::read_disk` (src/disk.rs:71-82) on the opened file. -/
def readDisk (m : Mode) : M Dev GptError GptDisk := openFile m GptConfig.new

/-! ## Histories -/

/-- One call of the public API on a `GptDisk`, with its arguments and the random UUIDs it draws. (src/lib.rs:439-976) -/
inductive Op where
  | addPartition (name : String) (size : UInt64) (ty : PType) (flags : UInt64) (align : Option UInt64)
      (fresh fresh2 : Uuid)
  | addPartitionAt (name : String) (id : UInt32) (first length : UInt64) (ty : PType) (flags : UInt64)
      (fresh fresh2 : Uuid)
  | removePartition (id : UInt32)
  | removePartitionByGuid (g : Uuid)
  | takePartitions
  | updateGuid (uuid : Option Uuid) (fresh : Uuid)
  | updatePartitions (pp : PMap) (fresh : Uuid)
  | updateDiskDevice (d : Dev) (writable : Bool)
  | deviceMut (d : Dev)
  | writeInplace

/-- What a call returned. (src/lib.rs:439-976) -/
inductive OpVal where
  | unit
  | id (i : UInt32)
  | optId (i : Option UInt32)
  | parts (p : PMap)
  | dev (d : Dev)
  deriving DecidableEq

/-- Apply a function to the `Ok` value. (src/lib.rs:439-976) -/
def M.mapOk {σ ε α β : Type} (f : α → β) (x : M σ ε α) : M σ ε β := fun s =>
  (match (x s).1 with
    | .ok a => .ok (f a)
    | .err e => .err e
    | .panic => .panic, (x s).2)

/-- Perform one call. (src/lib.rs:439-976) -/
def Op.step (m : Mode) : Op → M GptDisk GptError OpVal
  | .addPartition n sz t f a r r2 => (GptDisk.addPartition m n sz t f a r r2).mapOk .id
  | .addPartitionAt n i fl l t f r r2 => (GptDisk.addPartitionAt m n i fl l t f r r2).mapOk .id
  | .removePartition i => (GptDisk.removePartition i).mapOk .optId
  | .removePartitionByGuid g => (GptDisk.removePartitionByGuid g).mapOk .optId
  | .takePartitions => GptDisk.takePartitions.mapOk .parts
  | .updateGuid u r => (GptDisk.updateGuid u r).mapOk fun _ => .unit
  | .updatePartitions pp r => (GptDisk.updatePartitions m pp r).mapOk fun _ => .unit
  | .updateDiskDevice d w => (GptDisk.updateDiskDevice d w).mapOk .dev
  | .deviceMut d => (GptDisk.deviceMut d).mapOk fun _ => .unit
  | .writeInplace => (GptDisk.writeInplace m).mapOk fun _ => .unit

/-- The state after a history. A call that fails or panics leaves whatever it did; the next call goes on from there. (src/lib.rs:439-976) -/
def runOps (m : Mode) (ops : List Op) (s : GptDisk) : GptDisk := ops.foldl (fun s op => (op.step m s).2) s

end Gpt
