import Verif.Model.Device
/-!
# src/disk.rs
-/

namespace Gpt

/-- `LogicalBlockSize` (src/disk.rs:9-16). -/
inductive LbSize where
  | lb512
  | lb4096
  deriving DecidableEq, Repr

/-- `as_u64`, `From<LogicalBlockSize> for u64` (src/disk.rs:28-40). -/
def LbSize.u64 : LbSize → UInt64
  | lb512 => 512
  | lb4096 => 4096

/-- `as_usize`, `From<LogicalBlockSize> for usize` (src/disk.rs:20-25, 42-46). `usize` is 64 bits wide. -/
def LbSize.usize : LbSize → Nat
  | lb512 => 512
  | lb4096 => 4096

/-- `TryFrom<u64> for LogicalBlockSize` (src/disk.rs:48-60). -/
def LbSize.tryFrom (v : UInt64) : Res IoErr LbSize :=
  if v = 512 then .ok .lb512
  else if v = 4096 then .ok .lb4096
  else .err (.other "unsupported logical block size (must be 512 or 4096)")

/-- `DEFAULT_SECTOR_SIZE` (src/disk.rs:7). -/
def defaultSectorSize : LbSize := .lb512

end Gpt
