import Verif.Model.Gpt
/-!
# Reading a device that changes

`Model/Device.lean` has a device whose content changes only by what the library writes. While a disk is opened, another program may write to
it. Here is the reading side once more (`open_from_device` and what it calls, the same lines of /repo as in `Model/Header.lean`,
`Model/Partition.lean` and `Model/Gpt.lean`), over a device that may have another content at each call. Calls do not fail, apart from
reading past the end. `c119_still` ties it to the other model.
-/

namespace Gpt

/-- A device that changes: `view t` is what the `t`-th call from now on finds on it. (the device of src/lib.rs:267-299) -/
structure Live where
  view : Nat → Bytes
  time : Nat
  pos : Nat

namespace Live

/-- `seek(SeekFrom::Start(n))`. (e.g. src/partition.rs:257) -/
def seekStart (n : UInt64) : M Live IoErr UInt64 := fun l => (.ok n, { l with time := l.time + 1, pos := n.toNat })

/-- `seek(SeekFrom::End(0))`. (src/header/mod.rs:384) -/
def seekEnd : M Live IoErr UInt64 := fun l =>
  (.ok (UInt64.ofNat (l.view l.time).length), { l with time := l.time + 1, pos := (l.view l.time).length })

/-- `stream_position()`. (e.g. src/header/mod.rs:300) -/
def streamPosition : M Live IoErr UInt64 := fun l => (.ok (UInt64.ofNat l.pos), { l with time := l.time + 1 })

/-- `read_exact` into a buffer of `n` bytes. (e.g. src/partition.rs:269) -/
def readExact (n : Nat) : M Live IoErr Bytes := fun l =>
  if n = 0 then (.ok [], l) else
  if l.pos + n ≤ (l.view l.time).length then
    (.ok (slice (l.view l.time) l.pos n), { l with time := l.time + 1, pos := l.pos + n })
  else (.err .unexpectedEof, { l with time := l.time + 1, pos := max l.pos (l.view l.time).length })

/-- `file_read_header` (src/header/mod.rs:321-374). -/
def fileReadHeader (offset : UInt64) : M Live HeaderError Header := do
  let _ ← (seekStart offset).attempt
  let bytes ← (readExact 92).mapErr .io
  M.lift (parseHeader bytes)

/-- `find_backup_lba` (src/header/mod.rs:376-401). -/
def findBackupLba (lb : LbSize) : M Live HeaderError UInt64 := do
  let oldPos ← streamPosition.mapErr .io
  let len ← seekEnd.mapErr .io
  let _ ← (seekStart oldPos).mapErr .io
  if len < lb.u64 * 3 then M.throw .toSmallForBackup
  else pure ((len - lb.u64) / lb.u64)

/-- `read_primary_header` (src/header/mod.rs:296-305). -/
def readPrimaryHeader (lb : LbSize) : M Live HeaderError Header := do
  let cur ← streamPosition.attempt
  let res ← (fileReadHeader lb.u64).attempt
  let _ ← (seekStart (match cur with | .ok c => c | .error _ => 0)).attempt
  match res with
  | .ok h => pure h
  | .error e => M.throw e

/-- `read_backup_header` (src/header/mod.rs:307-319). -/
def readBackupHeader (lb : LbSize) : M Live HeaderError Header := do
  let cur ← streamPosition.attempt
  let h2sect ← findBackupLba lb
  let offset ← M.lift (Res.ofOption (.overflow "backup header overflow - offset") (checkedMul64 h2sect lb.u64))
  let res ← (fileReadHeader offset).attempt
  let _ ← (seekStart (match cur with | .ok c => c | .error _ => 0)).attempt
  match res with
  | .ok h => pure h
  | .error e => M.throw e

/-- The loop over the entries (src/partition.rs:264-302). -/
def readEntries (m : Mode) : (n : Nat) → (i : UInt32) → (emptyParts : Nat) → PMap → M Live IoErr PMap
  | 0, _, _, parts => pure parts
  | n + 1, i, emptyParts, parts => do
    let bytes ← readExact 128
    if bytes = zeros 128 then do
      M.lift (arith m (decide (emptyParts + 1 < 2 ^ 31)) ())
      readEntries m n (i + 1) (emptyParts + 1) parts
    else do
      let k ← M.lift (add32 m i 1)
      readEntries m n (i + 1) emptyParts (PMap.insert k (partitionOfBytes bytes) parts)

/-- `file_read_partitions` (src/partition.rs:247-319): the entries are read one by one, then the whole array is read again for its
checksum. -/
def fileReadPartitions (m : Mode) (h : Header) (lb : LbSize) : M Live IoErr PMap := do
  let pstart ← M.lift (Res.ofOption (.other "partition overflow - start offset") (checkedMul64 h.partStart lb.u64))
  let _ ← seekStart pstart
  if h.partSize ≠ 128 then M.panic
  else
    let parts ← readEntries m h.numParts.toNat 0 0 []
    let _ ← seekStart pstart
    let ptLen ← M.lift (Res.ofOption (.other "partitions - size") (checkedMul64 h.numParts.toUInt64 h.partSize.toUInt64))
    let table ← readExact ptLen.toNat
    if crc32 table ≠ h.crc32Parts then M.throw (.other "partition table CRC mismatch")
    else pure parts

/-- What `open_from_device` finds: the `GptDisk` without the device and the configuration. (src/lib.rs:267-299) -/
structure Found where
  guid : Uuid
  primaryHeader : Except HeaderError Header
  backupHeader : Except HeaderError Header
  partitions : PMap

/-- `open_from_device` (src/lib.rs:267-299). -/
def openFromDevice (m : Mode) (cfg : GptConfig) : M Live GptError Found := do
  let h1 ← (readPrimaryHeader cfg.lbSize).attempt
  let h2 ← (readBackupHeader cfg.lbSize).attempt
  let header ← match h1, h2 with
    | .ok h1', .ok _ => (pure h1' : M Live GptError Header)
    | .error e, .error _ => M.throw (.header e)
    | .ok h1', .error e2 => if cfg.onlyValidHeaders then M.throw (.header e2) else pure h1'
    | .error e1, .ok h2' => if cfg.onlyValidHeaders then M.throw (.header e1) else pure h2'
  let table ← (fileReadPartitions m header cfg.lbSize).mapErr .io
  pure ⟨header.diskGuid, h1, h2, table⟩

end Live

end Gpt
