import Verif.Model.Header
import Verif.Model.PartitionTypes
import Verif.Model.Utf16
/-!
# src/partition.rs
-/

namespace Gpt

/-- `Partition` (src/partition.rs:33-48). -/
structure Partition where
  partType : PType
  partGuid : Uuid
  firstLba : UInt64
  lastLba : UInt64
  flags : UInt64
  name : String
  deriving DecidableEq, Repr

namespace Partition

/-- `Partition::zero` (src/partition.rs:51-61). -/
def zero : Partition := ⟨PType.unused, Uuid.nil, 0, 0, 0, ""⟩

/-- The name field: at most 36 UTF-16 units, little endian (src/partition.rs:88-90). -/
def nameBytes (name : String) : Bytes := ((encodeUtf16 name).take 36).flatMap le16

/-- The entry before it is cut or padded (src/partition.rs:65-90). -/
def fieldBytes (p : Partition) : Bytes :=
  p.partType.guid.toDisk ++ p.partGuid.toDisk ++ le64 p.firstLba ++ le64 p.lastLba ++ le64 p.flags ++ nameBytes p.name

/-- `as_bytes` (src/partition.rs:64-96). -/
def asBytes (p : Partition) (entrySize : UInt32) : Bytes := resize p.fieldBytes entrySize.toNat

/-- `is_used` (src/partition.rs:188-190). -/
def isUsed (p : Partition) : Bool := p.partType.guid != PType.unused.guid

/-- `write_to_device` (src/partition.rs:113-135). `pstart + offset` is unchecked. -/
def writeToDevice (m : Mode) (p : Partition) (index : UInt64) (startLba : UInt64) (lb : LbSize)
    (bytesPerPartition : UInt32) : M Dev IoErr Unit := do
  let pstart ← M.lift (Res.ofOption (.other "partition overflow - start offset") (checkedMul64 startLba lb.u64))
  let offset ← M.lift (Res.ofOption (.other "partition overflow") (checkedMul64 index bytesPerPartition.toUInt64))
  let at_ ← M.lift (add64 m pstart offset)
  let _ ← Dev.seekStart at_
  Dev.writeAll (p.asBytes bytesPerPartition)

/-- `Partition::write` (src/partition.rs:100-109) on the opened file: entries of 128 bytes. -/
def write (m : Mode) (p : Partition) (index startLba : UInt64) (lb : LbSize) : M Dev IoErr Unit :=
  writeToDevice m p index startLba lb 128

/-- `write_zero_entries_to_device` (src/partition.rs:139-167). `usize::try_from` of a `u64` never fails on 64-bit
targets. -/
def writeZeroEntries (m : Mode) (startIndex numberEntries startLba : UInt64) (lb : LbSize)
    (bytesPerPartition : UInt32) : M Dev IoErr Unit := do
  let pstart ← M.lift (Res.ofOption (.other "partition overflow - start offset") (checkedMul64 startLba lb.u64))
  let offset ← M.lift (Res.ofOption (.other "partition overflow") (checkedMul64 startIndex bytesPerPartition.toUInt64))
  let at_ ← M.lift (add64 m pstart offset)
  let _ ← Dev.seekStart at_
  let n ← M.lift (Res.ofOption (.other "partition overflow - bytes to zero") (checkedMul64 bytesPerPartition.toUInt64 numberEntries))
  M.lift (vecOf n)
  Dev.writeAll (zeros n.toNat)

/-- `sectors_len` (src/partition.rs:193-201). -/
def sectorsLen (p : Partition) : Res IoErr UInt64 := do
  let d ← Res.ofOption (.other "Invalid partition.  last_lba < first_lba") (checkedSub64 p.lastLba p.firstLba)
  Res.ofOption (.other "partition length overflow - sectors") (checkedAdd64 d 1)

/-- `bytes_len` (src/partition.rs:172-176). -/
def bytesLen (p : Partition) (lb : LbSize) : Res IoErr UInt64 := do
  let s ← p.sectorsLen
  Res.ofOption (.other "partition length overflow - bytes") (checkedMul64 s lb.u64)

/-- `bytes_start` (src/partition.rs:179-185). -/
def bytesStart (p : Partition) (lb : LbSize) : Res IoErr UInt64 :=
  Res.ofOption (.other "partition start overflow - bytes") (checkedMul64 p.firstLba lb.u64)

end Partition

/-! ## `BTreeMap<u32, Partition>`: a key-sorted association list -/

/-- `BTreeMap<u32, Partition>`, src/lib.rs:347. -/
abbrev PMap := List (UInt32 × Partition)

namespace PMap

/-- `BTreeMap::insert`. (src/partition.rs:258-303, src/lib.rs:495-654) -/
def insert (k : UInt32) (p : Partition) : PMap → PMap
  | [] => [(k, p)]
  | (k', p') :: rest =>
    if k < k' then (k, p) :: (k', p') :: rest
    else if k = k' then (k, p) :: rest
    else (k', p') :: insert k p rest

/-- `BTreeMap::get`. (src/lib.rs:495-654) -/
def get (m : PMap) (k : UInt32) : Option Partition := (m.find? (fun e => e.1 == k)).map (·.2)

/-- `BTreeMap::remove`. (src/lib.rs:684-704) -/
def remove (m : PMap) (k : UInt32) : PMap := m.filter (fun e => e.1 != k)

end PMap

/-- The 36 name units of an entry (src/partition.rs:283-290). -/
def nameUnits (b : Bytes) : List UInt16 := (List.range 36).map (fun i => rd16 b (56 + 2 * i))

/-- One non-zero entry (src/partition.rs:276-299); `zero_pos` is the index of the first zero unit. -/
def partitionOfBytes (b : Bytes) : Partition where
  partType := PType.ofGuid (Uuid.ofDisk b 0)
  partGuid := Uuid.ofDisk b 16
  firstLba := rd64 b 32
  lastLba := rd64 b 40
  flags := rd64 b 48
  name := fromUtf16Lossy ((nameUnits b).takeWhile (· != 0))

/-- The loop `for i in 0..header.num_parts` (src/partition.rs:264-302) with `n` iterations left. `emptyParts` is an
`i32` counter used only for logging, but its `+= 1` is checked in debug builds. -/
def readEntries (m : Mode) : (n : Nat) → (i : UInt32) → (emptyParts : Nat) → PMap → M Dev IoErr PMap
  | 0, _, _, parts => pure parts
  | n + 1, i, emptyParts, parts => do
    let bytes ← Dev.readExact 128
    if bytes = zeros 128 then do
      M.lift (arith m (decide (emptyParts + 1 < 2 ^ 31)) ())
      readEntries m n (i + 1) (emptyParts + 1) parts
    else do
      let k ← M.lift (add32 m i 1)
      readEntries m n (i + 1) emptyParts (PMap.insert k (partitionOfBytes bytes) parts)

/-- `file_read_partitions` (src/partition.rs:247-319). `vec![0; pt_len]` has less than 2^39 bytes here. -/
def fileReadPartitions (m : Mode) (h : Header) (lb : LbSize) : M Dev IoErr PMap := do
  let pstart ← M.lift (Res.ofOption (.other "partition overflow - start offset") (checkedMul64 h.partStart lb.u64))
  let _ ← Dev.seekStart pstart
  if h.partSize ≠ 128 then M.panic
  else
    let parts ← readEntries m h.numParts.toNat 0 0 []
    let _ ← Dev.seekStart pstart
    let ptLen ← M.lift (Res.ofOption (.other "partitions - size") (checkedMul64 h.numParts.toUInt64 h.partSize.toUInt64))
    let table ← Dev.readExact ptLen.toNat
    if crc32 table ≠ h.crc32Parts then M.throw (.other "partition table CRC mismatch")
    else pure parts

end Gpt
