import Verif.Model.Gpt
/-!
# Builds with logging: src/logging.rs

Without the features `log` and `tracing` the macros `debug!` and `trace!` evaluate their arguments and drop them
(`log_allow_unused!`, src/logging.rs:41-49). With one of them the arguments are evaluated only if a message of that level is wanted.
The arguments that compute something are `starting_lba + size_lba - 1` (src/lib.rs:542) and `first_lba + length_lba - 1`
(src/lib.rs:620), which are here; `pstart + offset` (src/partition.rs:129, 159), computed again by the next statement;
`self.as_bytes(..)` (src/partition.rs:131), computed again by the next statement, without effects; and the text of a UUID
(src/header/mod.rs:359). All others are variables, fields or references. `Model/Gpt.lean` evaluates the arguments. Here are the
functions concerned as they are when the arguments are not evaluated. Not modelled: what the receiver of a message does, and the
`Debug` output of the device a message asks for.
-/

namespace Gpt

namespace GptDisk

/-- As `insertPartition` (src/lib.rs:537-567, 615-649), the `debug!` arguments left out: the last block is first computed for the
entry, after the check of the count. -/
def insertPartitionOff (m : Mode) (name : String) (id : UInt32) (first length : UInt64) (ty : PType) (flags : UInt64)
    (fresh fresh2 : Uuid) : M GptDisk GptError UInt32 := do
  let s ← M.get
  let h ← M.lift s.header
  let changes := h.numPartsWouldChange id
  if changes && !s.config.changePartitionCount then M.throw .partitionCountWouldChange
  else
    let e ← M.lift (add64 m first length)
    let last ← M.lift (sub64 m e 1)
    let part : Partition := ⟨ty, fresh, first, last, flags, name⟩
    M.modify fun s => { s with partitions := PMap.insert id part s.partitions }
    if changes then initHeaders m fresh2
    pure id

/-- The loop of `add_partition` (src/lib.rs:517-571). -/
def addPartitionLoopOff (m : Mode) (name : String) (sizeLba : UInt64) (ty : PType) (flags : UInt64) (align : Option UInt64)
    (fresh fresh2 : Uuid) : List (UInt64 × UInt64) → M GptDisk GptError UInt32
  | [] => M.throw .notEnoughSpace
  | (start, length) :: rest => do
    let off ← M.lift (alignmentOffset m start align)
    let need ← M.lift (add64 m off sizeLba)
    if length ≥ need then
      let start ← M.lift (add64 m start off)
      let s ← M.get
      let o ← M.lift s.findNextPartitionId
      let id ← match o with
        | some id => (pure id : M GptDisk GptError UInt32)
        | none => do
          let h ← M.lift s.header
          M.lift (add32 m h.numParts 1)
      insertPartitionOff m name id start sizeLba ty flags fresh fresh2
    else addPartitionLoopOff m name sizeLba ty flags align fresh fresh2 rest

/-- `add_partition` (src/lib.rs:488-572). -/
def addPartitionOff (m : Mode) (name : String) (size : UInt64) (ty : PType) (flags : UInt64) (align : Option UInt64)
    (fresh fresh2 : Uuid) : M GptDisk GptError UInt32 := do
  if size = 0 then M.panic
  else
    let s ← M.get
    let size1 ← M.lift (sub64 m size 1)
    let sizeLba ← M.lift (add64 m (size1 / s.config.lbSize.u64) 1)
    let free ← M.lift (s.findFreeSectors m)
    addPartitionLoopOff m name sizeLba ty flags align fresh fresh2 free

/-- The loop of `add_partition_at` (src/lib.rs:605-653). -/
def addPartitionAtLoopOff (m : Mode) (name : String) (id : UInt32) (first length : UInt64) (ty : PType) (flags : UInt64)
    (fresh fresh2 : Uuid) : List (UInt64 × UInt64) → M GptDisk GptError UInt32
  | [] => M.throw .notEnoughSpace
  | (start, len) :: rest =>
    if first ≥ start ∧ length ≤ len then insertPartitionOff m name id first length ty flags fresh fresh2
    else addPartitionAtLoopOff m name id first length ty flags fresh fresh2 rest

/-- `add_partition_at` (src/lib.rs:574-654). -/
def addPartitionAtOff (m : Mode) (name : String) (id : UInt32) (first length : UInt64) (ty : PType) (flags : UInt64)
    (fresh fresh2 : Uuid) : M GptDisk GptError UInt32 := do
  if length = 0 then M.panic
  else if id = 0 then M.panic
  else
    let s ← M.get
    if (PMap.get s.partitions id).any (·.isUsed) then M.throw .partitionIdAlreadyUsed
    else
      let free ← M.lift (s.findFreeSectors m)
      addPartitionAtLoopOff m name id first length ty flags fresh fresh2 free

end GptDisk

/-- One call in a build with logging: `off` when messages are not wanted, so that their arguments are not evaluated. (src/lib.rs:495-654, src/logging.rs:20-36) -/
def Op.stepLog (off : Bool) (m : Mode) : Op → M GptDisk GptError OpVal
  | .addPartition n sz t f a r r2 =>
    (if off then GptDisk.addPartitionOff m n sz t f a r r2 else GptDisk.addPartition m n sz t f a r r2).mapOk .id
  | .addPartitionAt n i fl l t f r r2 =>
    (if off then GptDisk.addPartitionAtOff m n i fl l t f r r2 else GptDisk.addPartitionAt m n i fl l t f r r2).mapOk .id
  | op => op.step m

/-- A history in such a build; the level may change between calls. (src/lib.rs:439-976) -/
def runOpsLog (m : Mode) (ops : List (Bool × Op)) (s : GptDisk) : GptDisk := ops.foldl (fun s op => (op.2.stepLog op.1 m s).2) s

end Gpt
