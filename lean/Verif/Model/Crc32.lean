import Verif.Model.Bytes
/-!
# CRC-32/ISO-HDLC

Models `Crc::<u32>::new(&crc::CRC_32_ISO_HDLC)` (src/header/mod.rs:403, src/partition.rs:244): reflected polynomial
0x04C11DB7 (= 0xEDB88320 reflected), initial value and final xor 0xFFFFFFFF. The crate computes it with a table; the
model is the bit-serial definition of the same function.
-/

namespace Gpt

/-- The reflected generator polynomial. (`crc::CRC_32_ISO_HDLC`, src/partition.rs:244, src/header/mod.rs:403-411) -/
def crcPoly : BitVec 32 := 0xEDB88320#32

/-- One bit of the division. (`crc::CRC_32_ISO_HDLC`, src/partition.rs:244, src/header/mod.rs:403-411) -/
def crcBit (s : BitVec 32) : BitVec 32 :=
  (s >>> 1) ^^^ (if s.getLsbD 0 then crcPoly else 0#32)

/-- Eight bits. (`crc::CRC_32_ISO_HDLC`, src/partition.rs:244, src/header/mod.rs:403-411) -/
def crcShift8 (s : BitVec 32) : BitVec 32 :=
  crcBit (crcBit (crcBit (crcBit (crcBit (crcBit (crcBit (crcBit s)))))))

/-- Absorb one byte. (`crc::CRC_32_ISO_HDLC`, src/partition.rs:244, src/header/mod.rs:403-411) -/
def crcByte (s : BitVec 32) (b : UInt8) : BitVec 32 :=
  crcShift8 (s ^^^ b.toBitVec.setWidth 32)

/-- `Digest::update` from state `s`. (`crc::CRC_32_ISO_HDLC`, src/partition.rs:244, src/header/mod.rs:403-411) -/
def crcUpdate (s : BitVec 32) (bs : Bytes) : BitVec 32 := bs.foldl crcByte s

/-- `CRC_32.checksum(bytes)` / `calculate_crc32` (src/header/mod.rs:405-411). -/
def crc32 (bs : Bytes) : UInt32 := ⟨crcUpdate 0xFFFFFFFF#32 bs ^^^ 0xFFFFFFFF#32⟩

end Gpt
