import Verif.Model.Header
import Verif.Spec.Codec
/-!
# Specification: the GPT header block

The offsets of UEFI 2.10, table 5.5, stated on device bytes without the model's readers and writers.
-/

namespace Gpt.Spec

/-- `"EFI PART"` in ASCII. -/
def signature : Bytes := [0x45, 0x46, 0x49, 0x20, 0x50, 0x41, 0x52, 0x54]

/-- The little-endian number in the `n` bytes at `off`. -/
def num (data : Bytes) (off n : Nat) : Nat := leVal (slice data off n)

/-- The 92 header bytes at `off` with the checksum field (bytes 16..20) read as zero. -/
def withoutCrc (data : Bytes) (off : Nat) : Bytes := slice data off 16 ++ [0, 0, 0, 0] ++ slice data (off + 20) 72

/-- The fields of `h` are those stored at `off`. -/
structure HeaderAt (data : Bytes) (off : Nat) (h : Header) : Prop where
  signature : h.signature = slice data off 8
  minor : h.revision.2.toNat = num data (off + 8) 2
  major : h.revision.1.toNat = num data (off + 10) 2
  size : h.headerSizeLe.toNat = num data (off + 12) 4
  crc32 : h.crc32.toNat = num data (off + 16) 4
  reserved : h.reserved.toNat = num data (off + 20) 4
  current : h.currentLba.toNat = num data (off + 24) 8
  backup : h.backupLba.toNat = num data (off + 32) 8
  first : h.firstUsable.toNat = num data (off + 40) 8
  last : h.lastUsable.toNat = num data (off + 48) 8
  guid : guidBytes h.diskGuid = (slice data (off + 56) 16).map UInt8.toNat
  start : h.partStart.toNat = num data (off + 72) 8
  count : h.numParts.toNat = num data (off + 80) 4
  entry : h.partSize.toNat = num data (off + 84) 4
  parts : h.crc32Parts.toNat = num data (off + 88) 4

/-- A complete header with the right signature and checksum is stored at `off`. -/
structure ValidAt (data : Bytes) (off : Nat) : Prop where
  fits : off + 92 ≤ data.length
  signature : slice data off 8 = Spec.signature
  checksum : num data (off + 16) 4 = (Gpt.crc32 (withoutCrc data off)).toNat

/-- What reading a header at `off` gives. -/
inductive HeaderRead (data : Bytes) (off : Nat) : Res HeaderError Header → Prop
  | read {h : Header} : ValidAt data off → HeaderAt data off h → HeaderRead data off (.ok h)
  | short : data.length < off + 92 → HeaderRead data off (.err (.io .unexpectedEof))
  | signature : off + 92 ≤ data.length → slice data off 8 ≠ Spec.signature → HeaderRead data off (.err .invalidGptSignature)
  | checksum : off + 92 ≤ data.length → slice data off 8 = Spec.signature →
      num data (off + 16) 4 ≠ (Gpt.crc32 (withoutCrc data off)).toNat → HeaderRead data off (.err .invalidCrc32Checksum)

end Gpt.Spec
