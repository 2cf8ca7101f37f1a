import Verif.Model.File
/-!
# Targets with a 32-bit `usize`

The other modules model a 64-bit target. On a 32-bit target `as usize` cuts a `u64` to 32 bits, `usize::try_from` can fail, and a vector
has at most `isize::MAX = 2^31 - 1` bytes. Here are the functions where this makes a difference, and those that call them. The other
conversions to `usize` are from values below 2^32: a block size (src/header/mod.rs:196-198, src/mbr.rs:114, 144), a `u32`
(src/lib.rs:903, 919) and an index of the four MBR records (src/mbr.rs:202, 217).
-/

namespace Gpt

/-- `x as usize` of a `u64` on a 32-bit target. (e.g. src/partition.rs:310) -/
def asUsize32 (n : UInt64) : Nat := n.toNat % 2 ^ 32

/-- `usize::try_from(x).ok()` of a `u64` on a 32-bit target. (src/partition.rs:163) -/
def usizeOf32 (n : UInt64) : Option Nat := if n.toNat < 2 ^ 32 then some n.toNat else none

/-- `vec![0; n]` and `Vec::with_capacity(n)` for bytes on a 32-bit target: a length above `isize::MAX` panics. (src/partition.rs:310, src/header/mod.rs:434) -/
def vecOf32 {ε : Type} (n : Nat) : Res ε Unit := if n < 2 ^ 31 then .ok () else .panic

/-- `partentry_checksum` (src/header/mod.rs:413-440). -/
def partentryChecksum32 (hdr : Header) (lb : LbSize) : M Dev HeaderError UInt32 := do
  let start ← M.lift (Res.ofOption (.overflow "header overflow - partition table start") (checkedMul64 hdr.partStart lb.u64))
  let _ ← (Dev.seekStart start).mapErr .io
  let ptLen ← M.lift (Res.ofOption (.overflow "partition table - size") (checkedMul64 hdr.numParts.toUInt64 hdr.partSize.toUInt64))
  M.lift (vecOf32 (asUsize32 ptLen))
  let buf ← (Dev.readExact (asUsize32 ptLen)).mapErr .io
  pure (crc32 buf)

namespace Header

/-- `file_write_header` (src/header/mod.rs:166-203). -/
def fileWriteHeader32 (lba : UInt64) (lb : LbSize) : M (Header × Dev) HeaderError Nat := do
  let s ← M.get
  let partsChecksum ← onDev (partentryChecksum32 s.1 lb)
  M.modify fun s => ({ s.1 with crc32Parts := partsChecksum }, s.2)
  let s ← M.get
  let (checksumPos, headerBytes) ← M.lift (s.1.toBytes partsChecksum)
  let checksum := Gpt.crc32 headerBytes
  M.modify fun s => ({ s.1 with crc32 := checksum }, s.2)
  let headerBytes := patch headerBytes checksumPos (le32 checksum)
  let start ← M.lift (Res.ofOption (.overflow "writing header: lba * lbs") (checkedMul64 lba lb.u64))
  let _ ← onDev ((Dev.seekStart start).mapErr .io)
  let bytes := resize headerBytes lb.usize
  onDev ((Dev.writeAll bytes).mapErr .io)
  pure bytes.length

/-- `write_primary` (src/header/mod.rs:132-147). -/
def writePrimary32 (lb : LbSize) : M (Header × Dev) HeaderError Nat := do
  let s ← M.get
  if s.1.currentLba ≥ s.1.backupLba then M.throw .writingToWrongLba
  else fileWriteHeader32 s.1.currentLba lb

/-- `write_backup` (src/header/mod.rs:149-164). -/
def writeBackup32 (lb : LbSize) : M (Header × Dev) HeaderError Nat := do
  let s ← M.get
  if s.1.currentLba ≤ s.1.backupLba then M.throw .writingToWrongLba
  else fileWriteHeader32 s.1.currentLba lb

end Header

namespace Partition

/-- `write_to_device` (src/partition.rs:113-135): `as_bytes` begins with `Vec::with_capacity(entry_size as usize)`
(src/partition.rs:65). -/
def writeToDevice32 (m : Mode) (p : Partition) (index : UInt64) (startLba : UInt64) (lb : LbSize)
    (bytesPerPartition : UInt32) : M Dev IoErr Unit := do
  let pstart ← M.lift (Res.ofOption (.other "partition overflow - start offset") (checkedMul64 startLba lb.u64))
  let offset ← M.lift (Res.ofOption (.other "partition overflow") (checkedMul64 index bytesPerPartition.toUInt64))
  let at_ ← M.lift (add64 m pstart offset)
  let _ ← Dev.seekStart at_
  M.lift (vecOf32 bytesPerPartition.toNat)
  Dev.writeAll (p.asBytes bytesPerPartition)

/-- `write_zero_entries_to_device` (src/partition.rs:139-167). -/
def writeZeroEntries32 (m : Mode) (startIndex numberEntries startLba : UInt64) (lb : LbSize)
    (bytesPerPartition : UInt32) : M Dev IoErr Unit := do
  let pstart ← M.lift (Res.ofOption (.other "partition overflow - start offset") (checkedMul64 startLba lb.u64))
  let offset ← M.lift (Res.ofOption (.other "partition overflow") (checkedMul64 startIndex bytesPerPartition.toUInt64))
  let at_ ← M.lift (add64 m pstart offset)
  let _ ← Dev.seekStart at_
  let n ← M.lift (Res.ofOption (.other "partition overflow - bytes to zero")
    ((checkedMul64 bytesPerPartition.toUInt64 numberEntries).bind usizeOf32))
  M.lift (vecOf32 n)
  Dev.writeAll (zeros n)

end Partition

/-- `file_read_partitions` (src/partition.rs:247-319). -/
def fileReadPartitions32 (m : Mode) (h : Header) (lb : LbSize) : M Dev IoErr PMap := do
  let pstart ← M.lift (Res.ofOption (.other "partition overflow - start offset") (checkedMul64 h.partStart lb.u64))
  let _ ← Dev.seekStart pstart
  if h.partSize ≠ 128 then M.panic
  else
    let parts ← readEntries m h.numParts.toNat 0 0 []
    let _ ← Dev.seekStart pstart
    let ptLen ← M.lift (Res.ofOption (.other "partitions - size") (checkedMul64 h.numParts.toUInt64 h.partSize.toUInt64))
    M.lift (vecOf32 (asUsize32 ptLen))
    let table ← Dev.readExact (asUsize32 ptLen)
    if crc32 table ≠ h.crc32Parts then M.throw (.other "partition table CRC mismatch")
    else pure parts

namespace GptDisk

/-- The loop over the used partitions in `write_inplace` (src/lib.rs:891-934). -/
def writeEntries32 (m : Mode) (lb : LbSize) (ph : Header) (bh : Option Header) :
    List Partition → (idx next : Nat) → M Dev GptError Nat
  | [], _, next => pure next
  | p :: ps, idx, _ => do
    if idx ≥ ph.numParts.toNat then M.throw .overflowPartitionCount
    else
      (Partition.writeToDevice32 m p (UInt64.ofNat idx) ph.partStart lb ph.partSize).mapErr .io
      match bh with
      | some bh =>
        if idx ≥ bh.numParts.toNat then M.throw .overflowPartitionCount
        else if ph.partStart ≠ bh.partStart then
          (Partition.writeToDevice32 m p (UInt64.ofNat idx) bh.partStart lb bh.partSize).mapErr .io
        else pure ()
      | none => pure ()
      writeEntries32 m lb ph bh ps (idx + 1) (idx + 1)

/-- Zero the slots of the array of `h` from `next` on (src/lib.rs:939-948, 950-959). -/
def writeZeros32 (m : Mode) (lb : LbSize) (h : Header) (next : Nat) : M Dev GptError Unit := do
  let n ← match checkedSub64 h.numParts.toUInt64 (UInt64.ofNat next) with
    | some n => (pure n : M Dev GptError UInt64)
    | none => M.panic
  (Partition.writeZeroEntries32 m (UInt64.ofNat next) n h.partStart lb h.partSize).mapErr .io

/-- `write_inplace` (src/lib.rs:853-976). -/
def writeInplace32 (m : Mode) : M GptDisk GptError Unit := do
  let s ← M.get
  if !s.config.writable then M.throw .readOnly
  else
    let lb := s.config.lbSize
    let _ ← onDev .header (findBackupLba lb)
    let h ← M.lift s.header
    let ph ← M.lift ((((HeaderBuilder.fromHeader h).setPrimary true).build m lb).mapErr .header)
    M.modify fun s => { s with primaryHeader := .ok ph }
    let bh ← if s.config.readonlyBackup then (pure none : M GptDisk GptError (Option Header))
      else do
        let bh ← M.lift ((((HeaderBuilder.fromHeader ph).setPrimary false).build m lb).mapErr .header)
        M.modify fun s => { s with backupHeader := .ok bh }
        pure (some bh)
    let next ← onDev id (writeEntries32 m lb ph bh (usedParts s.partitions) 0 0)
    onDev id (writeZeros32 m lb ph next)
    match bh with
    | some bh => do
      onDev id (writeZeros32 m lb bh next)
      onBackup bh (Header.writeBackup32 lb)
    | none => pure ()
    onPrimary ph (Header.writePrimary32 lb)
    onDev .io Dev.flush
    if s.syncAll then onDev .io Dev.syncAll else pure ()

end GptDisk

/-- `open_from_device` (src/lib.rs:267-299). -/
def openFromDevice32 (m : Mode) (cfg : GptConfig) : M Dev GptError GptDisk := do
  let h1 ← (readPrimaryHeader cfg.lbSize).attempt
  let h2 ← (readBackupHeader cfg.lbSize).attempt
  let header ← match h1, h2 with
    | .ok h1', .ok _ => (pure h1' : M Dev GptError Header)
    | .error e, .error _ => M.throw (.header e)
    | .ok h1', .error e2 => if cfg.onlyValidHeaders then M.throw (.header e2) else pure h1'
    | .error e1, .ok h2' => if cfg.onlyValidHeaders then M.throw (.header e1) else pure h2'
  let table ← (fileReadPartitions32 m header cfg.lbSize).mapErr .io
  let d ← M.get
  pure {
    config := cfg
    device := d
    guid := header.diskGuid
    primaryHeader := h1
    backupHeader := h2
    partitions := table
    syncAll := false }

/-- `open` (src/lib.rs:239-250) on the opened file. -/
def openFile32 (m : Mode) (cfg : GptConfig) : M Dev GptError GptDisk := do
  let g ← openFromDevice32 m cfg
  pure { g with syncAll := true }

/-- `header.write_primary(&mut file, lb_size)?; Ok(*header.guid())` on a local header (src/header/mod.rs:463-467). -/
def writePrimaryGuid32 (lb : LbSize) (header : Header) : M Dev HeaderError Uuid := fun d =>
  (match (Header.writePrimary32 lb (header, d)).1 with
    | .ok _ => .ok (Header.writePrimary32 lb (header, d)).2.1.diskGuid
    | .err e => .err e
    | .panic => .panic, (Header.writePrimary32 lb (header, d)).2.2)

/-- `write_header` (src/header/mod.rs:442-468) on the opened file. -/
def writeHeader32 (m : Mode) (uuid : Option Uuid) (fresh : Uuid) (lb : LbSize) : M Dev HeaderError Uuid := do
  let bak ← findBackupLba lb
  let header ← M.lift ((writeHeaderBuilder uuid fresh bak).build m lb)
  writePrimaryGuid32 lb header

/-- Perform one call. Calls other than `write_inplace` use no `usize`. (src/lib.rs:439-976) -/
def Op.step32 (m : Mode) : Op → M GptDisk GptError OpVal
  | .writeInplace => (GptDisk.writeInplace32 m).mapOk fun _ => .unit
  | op => op.step m

/-- The state after a history on a 32-bit target. (src/lib.rs:439-976) -/
def runOps32 (m : Mode) (ops : List Op) (s : GptDisk) : GptDisk := ops.foldl (fun s op => (op.step32 m s).2) s

end Gpt
