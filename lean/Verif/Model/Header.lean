import Verif.Model.Crc32
import Verif.Model.Disk
import Verif.Model.Uuid
/-!
# src/header/mod.rs and src/header/builder.rs
-/

namespace Gpt

/-- `HeaderError` (src/header/mod.rs:19-48). -/
inductive HeaderError where
  | io (e : IoErr)
  | invalidGptSignature
  | invalidCrc32Checksum
  | missingBackupLba
  | backupLbaToEarly
  | writingToWrongLba
  | overflow (msg : String)
  | toSmallForBackup
  deriving DecidableEq, Repr

/-- `Error::from(e.kind())`: the kind survives, a message does not (src/header/mod.rs:53). -/
def IoErr.lossy : IoErr → IoErr
  | .other _ => .other ""
  | e => e

/-- `lossy_clone` (src/header/mod.rs:51-62). -/
def HeaderError.lossyClone : HeaderError → HeaderError
  | .io e => .io e.lossy
  | e => e

/-- `MIN_NUM_PARTS` (src/header/mod.rs:17). -/
def minNumParts : UInt32 := 128

/-- The bytes of `"EFI PART"`. (src/header/mod.rs:332, src/header/builder.rs:161) -/
def efiPart : Bytes := [0x45, 0x46, 0x49, 0x20, 0x50, 0x41, 0x52, 0x54]

/-- `Header` (src/header/mod.rs:96-129). `signature` is the UTF-8 bytes of the Rust `String`. -/
structure Header where
  signature : Bytes
  revision : UInt16 × UInt16
  headerSizeLe : UInt32
  crc32 : UInt32
  reserved : UInt32
  currentLba : UInt64
  backupLba : UInt64
  firstUsable : UInt64
  lastUsable : UInt64
  diskGuid : Uuid
  partStart : UInt64
  numParts : UInt32
  partSize : UInt32
  crc32Parts : UInt32
  deriving DecidableEq, Repr

namespace Header

/-- `num_parts_would_change` (src/header/mod.rs:206-209). -/
def numPartsWouldChange (h : Header) (partitionsLen : UInt32) : Bool :=
  h.numParts != max32 (max32 partitionsLen minNumParts) h.numParts

/-- The fields in the order `to_bytes` writes them; `reserved` and the checksum are written as zero
(src/header/mod.rs:216-234). -/
def fieldBytes (h : Header) (partitionsChecksum : UInt32) : Bytes :=
  h.signature ++ le16 h.revision.2 ++ le16 h.revision.1 ++ le32 h.headerSizeLe ++ le32 0 ++ le32 0 ++
  le64 h.currentLba ++ le64 h.backupLba ++ le64 h.firstUsable ++ le64 h.lastUsable ++ h.diskGuid.toDisk ++
  le64 h.partStart ++ le32 h.numParts ++ le32 h.partSize ++ le32 partitionsChecksum

/-- `to_bytes` (src/header/mod.rs:211-237): the checksum position and the 92-byte array. Writing past the end of the
array panics (possible only with a signature longer than 8 bytes); a shorter signature leaves trailing zeros. -/
def toBytes {ε : Type} (h : Header) (partitionsChecksum : UInt32) : Res ε (Nat × Bytes) :=
  if (h.fieldBytes partitionsChecksum).length ≤ 92 then
    .ok (h.signature.length + 8, resize (h.fieldBytes partitionsChecksum) 92)
  else .panic

end Header

/-- `partentry_checksum` (src/header/mod.rs:413-440). -/
def partentryChecksum (hdr : Header) (lb : LbSize) : M Dev HeaderError UInt32 := do
  let start ← M.lift (Res.ofOption (.overflow "header overflow - partition table start") (checkedMul64 hdr.partStart lb.u64))
  let _ ← (Dev.seekStart start).mapErr .io
  let ptLen ← M.lift (Res.ofOption (.overflow "partition table - size") (checkedMul64 hdr.numParts.toUInt64 hdr.partSize.toUInt64))
  M.lift (vecOf ptLen)
  let buf ← (Dev.readExact ptLen.toNat).mapErr .io
  pure (crc32 buf)

namespace Header

/-- Run a device computation inside a header method. (src/header/mod.rs:167-204) -/
def onDev {ε α : Type} (x : M Dev ε α) : M (Header × Dev) ε α := M.zoom (·.2) (fun d s => (s.1, d)) x

/-- `file_write_header` (src/header/mod.rs:166-203). The state is `(self, file)`. -/
def fileWriteHeader (lba : UInt64) (lb : LbSize) : M (Header × Dev) HeaderError Nat := do
  let s ← M.get
  let partsChecksum ← onDev (partentryChecksum s.1 lb)
  M.modify fun s => ({ s.1 with crc32Parts := partsChecksum }, s.2)
  let s ← M.get
  let (checksumPos, headerBytes) ← M.lift (s.1.toBytes partsChecksum)
  let checksum := Gpt.crc32 headerBytes
  M.modify fun s => ({ s.1 with crc32 := checksum }, s.2)
  let headerBytes := patch headerBytes checksumPos (le32 checksum)
  let start ← M.lift (Res.ofOption (.overflow "writing header: lba * lbs") (checkedMul64 lba lb.u64))
  let _ ← onDev ((Dev.seekStart start).mapErr .io)
  let bytes := resize headerBytes lb.usize
  onDev ((Dev.writeAll bytes).mapErr .io)
  pure bytes.length

/-- `write_primary` (src/header/mod.rs:132-147). -/
def writePrimary (lb : LbSize) : M (Header × Dev) HeaderError Nat := do
  let s ← M.get
  if s.1.currentLba ≥ s.1.backupLba then M.throw .writingToWrongLba
  else fileWriteHeader s.1.currentLba lb

/-- `write_backup` (src/header/mod.rs:149-164). -/
def writeBackup (lb : LbSize) : M (Header × Dev) HeaderError Nat := do
  let s ← M.get
  if s.1.currentLba ≤ s.1.backupLba then M.throw .writingToWrongLba
  else fileWriteHeader s.1.currentLba lb

end Header

/-- The header fields of 92 bytes (src/header/mod.rs:336-357). -/
def headerOfBytes (b : Bytes) : Header where
  signature := slice b 0 8
  revision := (rd16 b 10, rd16 b 8)
  headerSizeLe := rd32 b 12
  crc32 := rd32 b 16
  reserved := rd32 b 20
  currentLba := rd64 b 24
  backupLba := rd64 b 32
  firstUsable := rd64 b 40
  lastUsable := rd64 b 48
  diskGuid := Uuid.ofDisk b 56
  partStart := rd64 b 72
  numParts := rd32 b 80
  partSize := rd32 b 84
  crc32Parts := rd32 b 88

/-- The checks on the 92 bytes read (src/header/mod.rs:330-373). `from_utf8_lossy` of 8 bytes equals `"EFI PART"`
exactly when the bytes do (a replacement character is not in that string), so the model compares bytes. -/
def parseHeader (b : Bytes) : Res HeaderError Header :=
  if slice b 0 8 ≠ efiPart then .err .invalidGptSignature
  else if crc32 (patch b 16 (zeros 4)) = (headerOfBytes b).crc32 then .ok (headerOfBytes b)
  else .err .invalidCrc32Checksum

/-- `file_read_header` (src/header/mod.rs:321-374). The result of the `seek` is ignored. -/
def fileReadHeader (offset : UInt64) : M Dev HeaderError Header := do
  let _ ← (Dev.seekStart offset).attempt
  let bytes ← (Dev.readExact 92).mapErr .io
  M.lift (parseHeader bytes)

/-- `find_backup_lba` (src/header/mod.rs:376-401). `lb_size * 3` cannot overflow; `saturating_sub` does not saturate
after the check. -/
def findBackupLba (lb : LbSize) : M Dev HeaderError UInt64 := do
  let oldPos ← Dev.streamPosition.mapErr .io
  let len ← Dev.seekEnd.mapErr .io
  let _ ← (Dev.seekStart oldPos).mapErr .io
  if len < lb.u64 * 3 then M.throw .toSmallForBackup
  else pure ((len - lb.u64) / lb.u64)

/-- `read_primary_header` (src/header/mod.rs:296-305), `read_header_from_arbitrary_device` (289-294). -/
def readPrimaryHeader (lb : LbSize) : M Dev HeaderError Header := do
  let cur ← Dev.streamPosition.attempt
  let res ← (fileReadHeader lb.u64).attempt
  let _ ← (Dev.seekStart (match cur with | .ok c => c | .error _ => 0)).attempt
  match res with
  | .ok h => pure h
  | .error e => M.throw e

/-- `read_backup_header` (src/header/mod.rs:307-319). -/
def readBackupHeader (lb : LbSize) : M Dev HeaderError Header := do
  let cur ← Dev.streamPosition.attempt
  let h2sect ← findBackupLba lb
  let offset ← M.lift (Res.ofOption (.overflow "backup header overflow - offset") (checkedMul64 h2sect lb.u64))
  let res ← (fileReadHeader offset).attempt
  let _ ← (Dev.seekStart (match cur with | .ok c => c | .error _ => 0)).attempt
  match res with
  | .ok h => pure h
  | .error e => M.throw e

/-! ## HeaderBuilder (src/header/builder.rs) -/

/-- `HeaderBuilder` (src/header/builder.rs:6-21). -/
structure HeaderBuilder where
  primary : Bool
  diskGuid : Uuid
  primaryLba : UInt64
  backupLba : UInt64
  firstUsable : UInt64
  lastUsable : UInt64
  numParts : UInt32
  partSize : UInt32
  deriving DecidableEq, Repr

namespace HeaderBuilder

/-- `HeaderBuilder::new` (src/header/builder.rs:24-36); `fresh` is the value of `Uuid::new_v4()`. -/
def new (fresh : Uuid) : HeaderBuilder where
  primary := true
  diskGuid := fresh
  primaryLba := 1
  backupLba := 0
  firstUsable := 0
  lastUsable := 0
  numParts := minNumParts
  partSize := 128

/-- `HeaderBuilder::from_header` (src/header/builder.rs:38-58). -/
def fromHeader (h : Header) : HeaderBuilder where
  primary := h.currentLba < h.backupLba
  diskGuid := h.diskGuid
  primaryLba := if h.currentLba < h.backupLba then h.currentLba else h.backupLba
  backupLba := if h.currentLba < h.backupLba then h.backupLba else h.currentLba
  firstUsable := h.firstUsable
  lastUsable := h.lastUsable
  numParts := h.numParts
  partSize := h.partSize

/-- `from_maybe_header` (src/header/builder.rs:60-64). -/
def fromMaybeHeader (h : Except HeaderError Header) (fresh : Uuid) : HeaderBuilder :=
  match h with
  | .ok h => fromHeader h
  | .error _ => new fresh

/-- `primary` (src/header/builder.rs:66-70). -/
def setPrimary (b : HeaderBuilder) (p : Bool) : HeaderBuilder := { b with primary := p }
/-- `disk_guid` (src/header/builder.rs:72-76). -/
def setDiskGuid (b : HeaderBuilder) (g : Uuid) : HeaderBuilder := { b with diskGuid := g }
/-- `backup_lba` (src/header/builder.rs:78-82). -/
def setBackupLba (b : HeaderBuilder) (l : UInt64) : HeaderBuilder := { b with backupLba := l }
/-- `first_usable` (src/header/builder.rs:84-90). -/
def setFirstUsable (b : HeaderBuilder) (l : UInt64) : HeaderBuilder := { b with firstUsable := l }
/-- `last_usable` (src/header/builder.rs:92-98). -/
def setLastUsable (b : HeaderBuilder) (l : UInt64) : HeaderBuilder := { b with lastUsable := l }
/-- `num_parts` (src/header/builder.rs:100-109). -/
def setNumParts (b : HeaderBuilder) (n : UInt32) : HeaderBuilder := { b with numParts := max32 n minNumParts }
/-- `part_size` (src/header/builder.rs:111-118). -/
def setPartSize (b : HeaderBuilder) (n : UInt32) : HeaderBuilder := { b with partSize := n }

/-- `u64_div_ceil` (src/header/builder.rs:185-187). -/
def divCeil {ε : Type} (m : Mode) (lhs rhs : UInt64) : Res ε UInt64 := do
  let r ← sub64 m rhs 1
  let s ← add64 m lhs r
  pure (s / rhs)

/-- `build` (src/header/builder.rs:120-176). -/
def build (m : Mode) (b : HeaderBuilder) (lb : LbSize) : Res HeaderError Header := do
  if b.backupLba < b.primaryLba then Res.err .missingBackupLba
  else
    let currentLba := if b.primary then b.primaryLba else b.backupLba
    let backupLba := if b.primary then b.backupLba else b.primaryLba
    let partArraySize ← mul32 m b.numParts b.partSize
    let partArrayLbs ← divCeil m partArraySize.toUInt64 lb.u64
    let afterArray ← add64 m 2 partArrayLbs
    let firstUsable := max64 b.firstUsable afterArray
    let need ← add64 m partArrayLbs 1
    let beforeBackup ← Res.ofOption .backupLbaToEarly (checkedSub64 b.backupLba need)
    let lastUsable := max64 b.lastUsable beforeBackup
    if firstUsable > lastUsable then Res.err .backupLbaToEarly
    else
      let partStart ← if b.primary then add64 m b.primaryLba 1 else add64 m lastUsable 1
      pure {
        signature := efiPart
        revision := (1, 0)
        headerSizeLe := 92
        crc32 := 0
        reserved := 0
        currentLba := currentLba
        backupLba := backupLba
        firstUsable := firstUsable
        lastUsable := lastUsable
        diskGuid := b.diskGuid
        partStart := partStart
        numParts := b.numParts
        partSize := b.partSize
        crc32Parts := 0 }

end HeaderBuilder

/-- `header.write_primary(&mut file, lb_size)?; Ok(*header.guid())` on a local header
(src/header/mod.rs:463-467). -/
def writePrimaryGuid (lb : LbSize) (header : Header) : M Dev HeaderError Uuid := fun d =>
  (match (Header.writePrimary lb (header, d)).1 with
    | .ok _ => .ok (Header.writePrimary lb (header, d)).2.1.diskGuid
    | .err e => .err e
    | .panic => .panic, (Header.writePrimary lb (header, d)).2.2)

/-- The builder of `write_header` (src/header/mod.rs:452-461); `fresh` is the value of `Uuid::new_v4()`. -/
def writeHeaderBuilder (uuid : Option Uuid) (fresh : Uuid) (bak : UInt64) : HeaderBuilder :=
  match uuid with
  | some u => ((HeaderBuilder.new fresh).setDiskGuid u).setBackupLba bak
  | none => (HeaderBuilder.new fresh).setBackupLba bak

/-- `write_header` (src/header/mod.rs:442-468) on the opened file. -/
def writeHeader (m : Mode) (uuid : Option Uuid) (fresh : Uuid) (lb : LbSize) : M Dev HeaderError Uuid := do
  let bak ← findBackupLba lb
  let header ← M.lift ((writeHeaderBuilder uuid fresh bak).build m lb)
  writePrimaryGuid lb header

end Gpt
