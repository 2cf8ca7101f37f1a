import Verif.Model.Gpt
/-!
# Limited memory

The other modules model a machine with memory for every buffer (of up to `isize::MAX` bytes). Here are the functions that ask for a
buffer of bytes whose length depends on a header or a configuration, and those that call them, on a machine that can give buffers of at
most `lim` bytes. A request it cannot serve aborts the program; here it is a panic. Not counted: buffers of fixed length, the block-sized
buffer of src/mbr.rs:144, and what maps, lists of free regions and strings need.
-/

namespace Gpt

/-- `vec![0; n]` and `Vec::with_capacity(n)` for bytes, at most `lim` of them. (src/partition.rs:310, src/header/mod.rs:434, src/partition.rs:65) -/
def vecWithin {ε : Type} (lim n : Nat) : Res ε Unit := if n ≤ lim ∧ n < 2 ^ 63 then .ok () else .panic

/-- `partentry_checksum` (src/header/mod.rs:413-440). -/
def partentryChecksumWithin (lim : Nat) (hdr : Header) (lb : LbSize) : M Dev HeaderError UInt32 := do
  let start ← M.lift (Res.ofOption (.overflow "header overflow - partition table start") (checkedMul64 hdr.partStart lb.u64))
  let _ ← (Dev.seekStart start).mapErr .io
  let ptLen ← M.lift (Res.ofOption (.overflow "partition table - size") (checkedMul64 hdr.numParts.toUInt64 hdr.partSize.toUInt64))
  M.lift (vecWithin lim ptLen.toNat)
  let buf ← (Dev.readExact ptLen.toNat).mapErr .io
  pure (crc32 buf)

namespace Header

/-- `file_write_header` (src/header/mod.rs:166-203). -/
def fileWriteHeaderWithin (lim : Nat) (lba : UInt64) (lb : LbSize) : M (Header × Dev) HeaderError Nat := do
  let s ← M.get
  let partsChecksum ← onDev (partentryChecksumWithin lim s.1 lb)
  M.modify fun s => ({ s.1 with crc32Parts := partsChecksum }, s.2)
  let s ← M.get
  let (checksumPos, headerBytes) ← M.lift (s.1.toBytes partsChecksum)
  let checksum := Gpt.crc32 headerBytes
  M.modify fun s => ({ s.1 with crc32 := checksum }, s.2)
  let headerBytes := patch headerBytes checksumPos (le32 checksum)
  let start ← M.lift (Res.ofOption (.overflow "writing header: lba * lbs") (checkedMul64 lba lb.u64))
  let _ ← onDev ((Dev.seekStart start).mapErr .io)
  M.lift (vecWithin lim lb.usize)
  let bytes := resize headerBytes lb.usize
  onDev ((Dev.writeAll bytes).mapErr .io)
  pure bytes.length

/-- `write_primary` (src/header/mod.rs:132-147). -/
def writePrimaryWithin (lim : Nat) (lb : LbSize) : M (Header × Dev) HeaderError Nat := do
  let s ← M.get
  if s.1.currentLba ≥ s.1.backupLba then M.throw .writingToWrongLba
  else fileWriteHeaderWithin lim s.1.currentLba lb

/-- `write_backup` (src/header/mod.rs:149-164). -/
def writeBackupWithin (lim : Nat) (lb : LbSize) : M (Header × Dev) HeaderError Nat := do
  let s ← M.get
  if s.1.currentLba ≤ s.1.backupLba then M.throw .writingToWrongLba
  else fileWriteHeaderWithin lim s.1.currentLba lb

end Header

namespace Partition

/-- `write_to_device` (src/partition.rs:113-135): `as_bytes` begins with `Vec::with_capacity(entry_size as usize)`
(src/partition.rs:65). -/
def writeToDeviceWithin (lim : Nat) (m : Mode) (p : Partition) (index : UInt64) (startLba : UInt64) (lb : LbSize)
    (bytesPerPartition : UInt32) : M Dev IoErr Unit := do
  let pstart ← M.lift (Res.ofOption (.other "partition overflow - start offset") (checkedMul64 startLba lb.u64))
  let offset ← M.lift (Res.ofOption (.other "partition overflow") (checkedMul64 index bytesPerPartition.toUInt64))
  let at_ ← M.lift (add64 m pstart offset)
  let _ ← Dev.seekStart at_
  M.lift (vecWithin lim bytesPerPartition.toNat)
  Dev.writeAll (p.asBytes bytesPerPartition)

/-- `write_zero_entries_to_device` (src/partition.rs:139-167). -/
def writeZeroEntriesWithin (lim : Nat) (m : Mode) (startIndex numberEntries startLba : UInt64) (lb : LbSize)
    (bytesPerPartition : UInt32) : M Dev IoErr Unit := do
  let pstart ← M.lift (Res.ofOption (.other "partition overflow - start offset") (checkedMul64 startLba lb.u64))
  let offset ← M.lift (Res.ofOption (.other "partition overflow") (checkedMul64 startIndex bytesPerPartition.toUInt64))
  let at_ ← M.lift (add64 m pstart offset)
  let _ ← Dev.seekStart at_
  let n ← M.lift (Res.ofOption (.other "partition overflow - bytes to zero")
    (checkedMul64 bytesPerPartition.toUInt64 numberEntries))
  M.lift (vecWithin lim n.toNat)
  Dev.writeAll (zeros n.toNat)

end Partition

/-- `file_read_partitions` (src/partition.rs:247-319). -/
def fileReadPartitionsWithin (lim : Nat) (m : Mode) (h : Header) (lb : LbSize) : M Dev IoErr PMap := do
  let pstart ← M.lift (Res.ofOption (.other "partition overflow - start offset") (checkedMul64 h.partStart lb.u64))
  let _ ← Dev.seekStart pstart
  if h.partSize ≠ 128 then M.panic
  else
    let parts ← readEntries m h.numParts.toNat 0 0 []
    let _ ← Dev.seekStart pstart
    let ptLen ← M.lift (Res.ofOption (.other "partitions - size") (checkedMul64 h.numParts.toUInt64 h.partSize.toUInt64))
    M.lift (vecWithin lim ptLen.toNat)
    let table ← Dev.readExact ptLen.toNat
    if crc32 table ≠ h.crc32Parts then M.throw (.other "partition table CRC mismatch")
    else pure parts

namespace GptDisk

/-- The loop over the used partitions in `write_inplace` (src/lib.rs:891-934). -/
def writeEntriesWithin (lim : Nat) (m : Mode) (lb : LbSize) (ph : Header) (bh : Option Header) :
    List Partition → (idx next : Nat) → M Dev GptError Nat
  | [], _, next => pure next
  | p :: ps, idx, _ => do
    if idx ≥ ph.numParts.toNat then M.throw .overflowPartitionCount
    else
      (Partition.writeToDeviceWithin lim m p (UInt64.ofNat idx) ph.partStart lb ph.partSize).mapErr .io
      match bh with
      | some bh =>
        if idx ≥ bh.numParts.toNat then M.throw .overflowPartitionCount
        else if ph.partStart ≠ bh.partStart then
          (Partition.writeToDeviceWithin lim m p (UInt64.ofNat idx) bh.partStart lb bh.partSize).mapErr .io
        else pure ()
      | none => pure ()
      writeEntriesWithin lim m lb ph bh ps (idx + 1) (idx + 1)

/-- Zero the slots of the array of `h` from `next` on (src/lib.rs:939-948, 950-959). -/
def writeZerosWithin (lim : Nat) (m : Mode) (lb : LbSize) (h : Header) (next : Nat) : M Dev GptError Unit := do
  let n ← match checkedSub64 h.numParts.toUInt64 (UInt64.ofNat next) with
    | some n => (pure n : M Dev GptError UInt64)
    | none => M.panic
  (Partition.writeZeroEntriesWithin lim m (UInt64.ofNat next) n h.partStart lb h.partSize).mapErr .io

/-- `write_inplace` (src/lib.rs:853-976). -/
def writeInplaceWithin (lim : Nat) (m : Mode) : M GptDisk GptError Unit := do
  let s ← M.get
  if !s.config.writable then M.throw .readOnly
  else
    let lb := s.config.lbSize
    let _ ← onDev .header (findBackupLba lb)
    let h ← M.lift s.header
    let ph ← M.lift ((((HeaderBuilder.fromHeader h).setPrimary true).build m lb).mapErr .header)
    M.modify fun s => { s with primaryHeader := .ok ph }
    let bh ← if s.config.readonlyBackup then (pure none : M GptDisk GptError (Option Header))
      else do
        let bh ← M.lift ((((HeaderBuilder.fromHeader ph).setPrimary false).build m lb).mapErr .header)
        M.modify fun s => { s with backupHeader := .ok bh }
        pure (some bh)
    let next ← onDev id (writeEntriesWithin lim m lb ph bh (usedParts s.partitions) 0 0)
    onDev id (writeZerosWithin lim m lb ph next)
    match bh with
    | some bh => do
      onDev id (writeZerosWithin lim m lb bh next)
      onBackup bh (Header.writeBackupWithin lim lb)
    | none => pure ()
    onPrimary ph (Header.writePrimaryWithin lim lb)
    onDev .io Dev.flush
    if s.syncAll then onDev .io Dev.syncAll else pure ()

end GptDisk

/-- `open_from_device` (src/lib.rs:267-299). -/
def openFromDeviceWithin (lim : Nat) (m : Mode) (cfg : GptConfig) : M Dev GptError GptDisk := do
  let h1 ← (readPrimaryHeader cfg.lbSize).attempt
  let h2 ← (readBackupHeader cfg.lbSize).attempt
  let header ← match h1, h2 with
    | .ok h1', .ok _ => (pure h1' : M Dev GptError Header)
    | .error e, .error _ => M.throw (.header e)
    | .ok h1', .error e2 => if cfg.onlyValidHeaders then M.throw (.header e2) else pure h1'
    | .error e1, .ok h2' => if cfg.onlyValidHeaders then M.throw (.header e1) else pure h2'
  let table ← (fileReadPartitionsWithin lim m header cfg.lbSize).mapErr .io
  let d ← M.get
  pure {
    config := cfg
    device := d
    guid := header.diskGuid
    primaryHeader := h1
    backupHeader := h2
    partitions := table
    syncAll := false }

/-- Perform one call. (src/lib.rs:439-976) -/
def Op.stepWithin (lim : Nat) (m : Mode) : Op → M GptDisk GptError OpVal
  | .writeInplace => (GptDisk.writeInplaceWithin lim m).mapOk fun _ => .unit
  | op => op.step m

/-- The state after a history. (src/lib.rs:439-976) -/
def runOpsWithin (lim : Nat) (m : Mode) (ops : List Op) (s : GptDisk) : GptDisk := ops.foldl (fun s op => (op.stepWithin lim m s).2) s

end Gpt
