import Verif.Model.Disk
/-!
# src/mbr.rs
-/

namespace Gpt

/-- `MBRError` (src/mbr.rs:12-27). -/
inductive MbrError where
  | io (e : IoErr)
  | invalidMbrLength
  | invalidMbrSignature
  | invalidPartitionLength
  | overflow (msg : String)
  deriving DecidableEq, Repr

/-- A Rust array `[u8; n]`. (src/mbr.rs:110-131) -/
abbrev ByteArr (n : Nat) := { b : Bytes // b.length = n }

/-- `MBR_SIGNATURE` (src/mbr.rs:51). -/
def mbrSignature : Bytes := [0x55, 0xAA]

/-- `PartRecord` (src/mbr.rs:265-288). -/
structure PartRecord where
  bootIndicator : UInt8
  startHead : UInt8
  startSector : UInt8
  startTrack : UInt8
  osType : UInt8
  endHead : UInt8
  endSector : UInt8
  endTrack : UInt8
  lbStart : UInt32
  lbSize : UInt32
  deriving DecidableEq, Repr

namespace PartRecord

/-- `new_protective` (src/mbr.rs:291-306). -/
def newProtective (lbSize : Option UInt32) : PartRecord where
  bootIndicator := 0x00
  startHead := 0x00
  startSector := 0x02
  startTrack := 0x00
  osType := 0xEE
  endHead := 0xFF
  endSector := 0xFF
  endTrack := 0xFF
  lbStart := 1
  lbSize := lbSize.getD 0xFFFFFFFF

/-- `zero` (src/mbr.rs:308-322). -/
def zero : PartRecord := ⟨0, 0, 0, 0, 0, 0, 0, 0, 0, 0⟩

/-- `from_bytes` (src/mbr.rs:324-346). -/
def fromBytes (b : Bytes) : Res MbrError PartRecord :=
  if b.length ≠ 16 then .err .invalidPartitionLength
  else .ok {
    bootIndicator := rd8 b 0
    startHead := rd8 b 1
    startSector := rd8 b 2
    startTrack := rd8 b 3
    osType := rd8 b 4
    endHead := rd8 b 5
    endSector := rd8 b 6
    endTrack := rd8 b 7
    lbStart := rd32 b 8
    lbSize := rd32 b 12 }

/-- `to_bytes` (src/mbr.rs:348-368). -/
def toBytes (p : PartRecord) : Bytes :=
  [p.bootIndicator, p.startHead, p.startSector, p.startTrack, p.osType, p.endHead, p.endSector, p.endTrack] ++
  le32 p.lbStart ++ le32 p.lbSize

end PartRecord

/-- `ProtectiveMBR` (src/mbr.rs:53-60); the array of four records is four fields. -/
structure ProtectiveMbr where
  bootcode : ByteArr 440
  diskSignature : ByteArr 4
  unknown : UInt16
  p0 : PartRecord
  p1 : PartRecord
  p2 : PartRecord
  p3 : PartRecord
  signature : ByteArr 2
  deriving DecidableEq, Repr

namespace ProtectiveMbr

/-- `with_lb_size`, and `new`/`default` when the size is `None` (src/mbr.rs:68-107). -/
def withRecord (lbSize : Option UInt32) : ProtectiveMbr where
  bootcode := ⟨zeros 440, List.length_replicate⟩
  diskSignature := ⟨zeros 4, List.length_replicate⟩
  unknown := 0
  p0 := PartRecord.newProtective lbSize
  p1 := PartRecord.zero
  p2 := PartRecord.zero
  p3 := PartRecord.zero
  signature := ⟨mbrSignature, rfl⟩

/-- `new` / `default` (src/mbr.rs:68-89). -/
def new : ProtectiveMbr := withRecord none

/-- `with_lb_size` (src/mbr.rs:91-107). -/
def withLbSize (lbSize : UInt32) : ProtectiveMbr := withRecord (some lbSize)

/-- `copy_from_slice` of `bytes.read(n)` into a `[u8; n]`. A reader that is too short would panic; `from_bytes` checks the
length first. (src/mbr.rs:110-131) -/
def readArr {ε : Type} (b : Bytes) (off n : Nat) : Res ε (ByteArr n) :=
  if h : (slice b off n).length = n then .ok ⟨slice b off n, h⟩ else .panic

/-- `from_bytes` (src/mbr.rs:109-136). -/
def fromBytes (buf : Bytes) (lb : LbSize) : Res MbrError ProtectiveMbr := do
  if buf.length ≠ lb.usize then Res.err .invalidMbrLength
  else
    let bootcode ← readArr buf 0 440
    let diskSignature ← readArr buf 440 4
    let unknown := rd16 buf 444
    let p0 ← PartRecord.fromBytes (slice buf 446 16)
    let p1 ← PartRecord.fromBytes (slice buf 462 16)
    let p2 ← PartRecord.fromBytes (slice buf 478 16)
    let p3 ← PartRecord.fromBytes (slice buf 494 16)
    let signature ← readArr buf 510 2
    if signature.1 = mbrSignature then
      pure { bootcode, diskSignature, unknown, p0, p1, p2, p3, signature }
    else Res.err .invalidMbrSignature

/-- `to_bytes` (src/mbr.rs:154-171). -/
def toBytes (m : ProtectiveMbr) : Bytes :=
  m.bootcode.1 ++ m.diskSignature.1 ++ le16 m.unknown ++
  m.p0.toBytes ++ m.p1.toBytes ++ m.p2.toBytes ++ m.p3.toBytes ++ m.signature.1

/-- `set_bootcode` (src/mbr.rs:178-185). -/
def setBootcode (m : ProtectiveMbr) (b : ByteArr 440) : ProtectiveMbr := { m with bootcode := b }

/-- `set_disk_signature` (src/mbr.rs:192-199). -/
def setDiskSignature (m : ProtectiveMbr) (b : ByteArr 4) : ProtectiveMbr := { m with diskSignature := b }

/-- `partition` (src/mbr.rs:201-208). -/
def partition (m : ProtectiveMbr) (i : Nat) : Option PartRecord :=
  match i with
  | 0 => some m.p0
  | 1 => some m.p1
  | 2 => some m.p2
  | 3 => some m.p3
  | _ => none

/-- `set_partition` (src/mbr.rs:210-228): the new MBR and the previous record. -/
def setPartition (m : ProtectiveMbr) (i : Nat) (p : PartRecord) : ProtectiveMbr × Option PartRecord :=
  match i with
  | 0 => ({ m with p0 := p }, some m.p0)
  | 1 => ({ m with p1 := p }, some m.p1)
  | 2 => ({ m with p2 := p }, some m.p2)
  | 3 => ({ m with p3 := p }, some m.p3)
  | _ => (m, none)

/-- `from_disk` (src/mbr.rs:138-152). The result of `from_bytes` is kept while the position is restored. -/
def fromDisk (lb : LbSize) : M Dev MbrError ProtectiveMbr := do
  let cur ← Dev.streamPosition.mapErr .io
  let _ ← (Dev.seekStart 0).mapErr .io
  let buf ← (Dev.readExact lb.usize).mapErr .io
  let pmbr ← (M.lift (fromBytes buf lb)).attempt
  let _ ← (Dev.seekStart cur).mapErr .io
  match pmbr with
  | .ok p => pure p
  | .error e => M.throw e

/-- `overwrite_lba0` (src/mbr.rs:230-242). -/
def overwriteLba0 (m : ProtectiveMbr) : M Dev MbrError Nat := do
  let cur ← Dev.streamPosition.mapErr .io
  let _ ← (Dev.seekStart 0).mapErr .io
  Dev.writeAll m.toBytes |>.mapErr .io
  Dev.flush.mapErr .io
  let _ ← (Dev.seekStart cur).mapErr .io
  pure m.toBytes.length

/-- `update_conservative` (src/mbr.rs:244-262). -/
def updateConservative (m : ProtectiveMbr) : M Dev MbrError Nat := do
  let cur ← Dev.streamPosition.mapErr .io
  let _ ← (Dev.seekStart 446).mapErr .io
  Dev.writeAll m.p0.toBytes |>.mapErr .io
  Dev.writeAll m.p1.toBytes |>.mapErr .io
  Dev.writeAll m.p2.toBytes |>.mapErr .io
  Dev.writeAll m.p3.toBytes |>.mapErr .io
  Dev.writeAll m.signature.1 |>.mapErr .io
  Dev.flush.mapErr .io
  let _ ← (Dev.seekStart cur).mapErr .io
  pure (16 * 4 + 2)

end ProtectiveMbr

/-- `read_bootcode` (src/mbr.rs:371-381) and `read_disk_signature` (src/mbr.rs:395-405) differ only in offset and
length. -/
def readAt (off : UInt64) (n : Nat) : M Dev IoErr Bytes := do
  let cur ← Dev.streamPosition
  let _ ← Dev.seekStart off
  let b ← Dev.readExact n
  let _ ← Dev.seekStart cur
  pure b

/-- `write_bootcode` (src/mbr.rs:383-393) and `write_disk_signature` (src/mbr.rs:407-417). -/
def writeAt (off : UInt64) (b : Bytes) : M Dev IoErr Unit := do
  let cur ← Dev.streamPosition
  let _ ← Dev.seekStart off
  Dev.writeAll b
  Dev.flush
  let _ ← Dev.seekStart cur
  pure ()

/-- `read_bootcode` (src/mbr.rs:371-381). -/
def readBootcode : M Dev IoErr Bytes := readAt 0 440
/-- `write_bootcode` (src/mbr.rs:383-393). -/
def writeBootcode (b : ByteArr 440) : M Dev IoErr Unit := writeAt 0 b.1
/-- `read_disk_signature` (src/mbr.rs:395-405). -/
def readDiskSignature : M Dev IoErr Bytes := readAt 440 4
/-- `write_disk_signature` (src/mbr.rs:407-417). -/
def writeDiskSignature (b : ByteArr 4) : M Dev IoErr Unit := writeAt 440 b.1

end Gpt
