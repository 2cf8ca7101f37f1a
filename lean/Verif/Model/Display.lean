import Verif.Model.Gpt
import Verif.Model.Mbr
/-!
# Text output

The `Display` implementations. Text is the list of its UTF-8 bytes, as in `Model/PartitionTypes.lean`. How `std` words an
`io::Error` is left open: the error printers take it as an argument.
-/

namespace Gpt

/-- An unsigned integer in decimal (`Display` of `u32` and `u64`). (src/partition.rs:204-219) -/
def decText (n : Nat) : Bytes := (Nat.toDigits 10 n).map fun c => UInt8.ofNat c.toNat

/-- A lower-case hexadecimal digit. (src/header/mod.rs:258-270) -/
def hexDigit (n : Nat) : UInt8 := if n < 10 then UInt8.ofNat (48 + n) else UInt8.ofNat (87 + n)

/-- The `w` low hexadecimal digits of `n`, most significant first. (src/header/mod.rs:258-270) -/
def hexText : Nat → Nat → Bytes
  | 0, _ => []
  | w + 1, n => hexText w (n / 16) ++ [hexDigit (n % 16)]

/-- `Display` of `uuid::Uuid`: hyphenated, lower case. (src/partition.rs:204-219) -/
def Uuid.display (u : Uuid) : Bytes :=
  hexText 8 u.d1.toNat ++ [45] ++ hexText 4 u.d2.toNat ++ [45] ++ hexText 4 u.d3.toNat ++ [45] ++
    hexText 4 (u.d4.toNat / 2 ^ 48) ++ [45] ++ hexText 12 u.d4.toNat

/-- `Display` of `LogicalBlockSize` (src/disk.rs:62-69). -/
def LbSize.display : LbSize → Bytes
  | .lb512 => utf8 "512"
  | .lb4096 => utf8 "4096"

/-- `Display` of `Partition` (src/partition.rs:204-219). -/
def Partition.display (p : Partition) : Bytes :=
  utf8 "Partition:\t\t" ++ utf8 p.name ++ utf8 "\nPartition GUID:\t\t" ++ p.partGuid.display ++
    utf8 "\nPartition Type:\t\t" ++ p.partType.guid.display ++ utf8 "\nSpan:\t\t\t" ++ decText p.firstLba.toNat ++
    utf8 " - " ++ decText p.lastLba.toNat ++ utf8 "\nFlags:\t\t\t" ++ decText p.flags.toNat

/-- `Display` of `Header` (src/header/mod.rs:258-266). -/
def Header.display (h : Header) : Bytes :=
  utf8 "Disk:\t\t" ++ h.diskGuid.display ++ utf8 "\nCRC32:\t\t" ++ decText h.crc32.toNat ++
    utf8 "\nTable CRC:\t" ++ decText h.crc32Parts.toNat

/-- `Display` of `HeaderError` (src/header/mod.rs:73-94). -/
def HeaderError.display (io : IoErr → Bytes) : HeaderError → Bytes
  | .io e => utf8 "Header IO Error: " ++ io e
  | .invalidGptSignature => utf8 "Invalid GPT Signature, the header does not exist or is invalid"
  | .invalidCrc32Checksum => utf8 "CRC32 Checksum Mismatch, the header is corrupted"
  | .missingBackupLba => utf8 "HeaderBuilder expects the field backup_lba to be set"
  | .backupLbaToEarly => utf8 "HeaderBuilder: there isn't enough space between first_lba and backup_lba"
  | .writingToWrongLba => utf8 "you trying to write to the wrong lba (example calling write_primary instead of write_backup)"
  | .overflow m => utf8 "Header error Overflow: " ++ utf8 m
  | .toSmallForBackup => utf8 "the disk is to small to hold a backup header"

/-- `Display` of `GptError` (src/lib.rs:140-165). -/
def GptError.display (io : IoErr → Bytes) : GptError → Bytes
  | .io e => utf8 "GPT IO Error: " ++ io e
  | .header e => utf8 "GPT Header Error: " ++ e.display io
  | .creatingInitializedDisk =>
    utf8 "we were expecting to read an existing partition table, but instead we're attempting to create a new blank table"
  | .overflow m => utf8 "GTP error Overflow: " ++ utf8 m
  | .notEnoughSpace => utf8 "Unable to find enough space on drive"
  | .readOnly => utf8 "disk not opened in writable mode"
  | .overflowPartitionCount => utf8 "not enough partition slots"
  | .partitionCountWouldChange => utf8 "partition would change but is not allowed"
  | .partitionIdAlreadyUsed => utf8 "partition id already used"

/-- `Display` of `MBRError` (src/mbr.rs:37-49). -/
def MbrError.display (io : IoErr → Bytes) : MbrError → Bytes
  | .io e => utf8 "MBR IO Error: " ++ io e
  | .invalidMbrLength => utf8 "The provided buffer does not match the expected mbr length"
  | .invalidMbrSignature => utf8 "Invalid MBR signature"
  | .invalidPartitionLength => utf8 "Invalid Partition length expected 16"
  | .overflow m => utf8 "MBR error Overflow: " ++ utf8 m

end Gpt
