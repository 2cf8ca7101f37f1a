import Verif.Model.Base
import Verif.Model.Bytes
/-!
# The device

Models the `DiskDevice` trait, `Read + Write + Seek` (src/lib.rs:90-98), as seen by the library: `seek`,
`stream_position`, `read_exact`, `write_all`, `flush`, and `sync_all` for files.

Simplifications: one device type (content, position, capacity) instead of an arbitrary implementation of the traits.
I/O failures are injected by the list `faults`. The position after a failed `read_exact` is unspecified in Rust; here it
is where the transferred bytes end.
-/

namespace Gpt

/-- `std::io::Error`, reduced to what the library can produce or pass on. (passed on by `?`, e.g. src/partition.rs:130) -/
inductive IoErr where
  /-- `ErrorKind::UnexpectedEof` -/
  | unexpectedEof
  /-- `ErrorKind::WriteZero`: the device is full. -/
  | writeZero
  /-- `Error::new(ErrorKind::Other, msg)` made by the library. -/
  | other (msg : String)
  /-- An error reported by the device itself. -/
  | device
  deriving DecidableEq, Repr

/-- What the environment does with one I/O call. (src/header/mod.rs:303, src/partition.rs:130) -/
inductive Fault where
  /-- nothing: the call behaves normally -/
  | none
  /-- the call fails after transferring (at most) `k` bytes; seeks and flushes fail without effect -/
  | fail (k : Nat)
  deriving DecidableEq, Repr

/-- Observable effects on the medium, in order. (e.g. src/partition.rs:132, src/lib.rs:969) -/
inductive Event where
  | write (off : Nat) (bytes : Bytes)
  | flush
  | sync
  deriving DecidableEq, Repr

/-- A device. (`DiskDevice`, src/lib.rs:91) -/
structure Dev where
  /-- content -/
  data : Bytes
  /-- stream position -/
  pos : Nat
  /-- largest size the device can have: a fixed-size device has `cap = data.length` -/
  cap : Nat
  /-- outcome of the coming I/O calls; when it runs out all calls behave normally -/
  faults : List Fault
  /-- ghost: what was done to the medium so far -/
  log : List Event
  deriving DecidableEq, Repr

/-- `bs` written over `d` at `off`; a gap before `off` is filled with zeros (as `Cursor<Vec<u8>>` and sparse files do). (e.g. src/partition.rs:132) -/
def patch (d : Bytes) (off : Nat) (bs : Bytes) : Bytes :=
  d.take off ++ zeros (off - d.length) ++ bs ++ d.drop (off + bs.length)

namespace Dev

/-- The outcome of the next I/O call. (e.g. src/partition.rs:130) -/
def nextFault (d : Dev) : Fault := d.faults.headD .none

/-- Consume one injected outcome. (e.g. src/partition.rs:130) -/
def tick (d : Dev) : Dev := { d with faults := d.faults.tail }

/-- `seek(SeekFrom::Start(n))`. (e.g. src/partition.rs:130) -/
def seekStart (n : UInt64) : M Dev IoErr UInt64 := fun d =>
  match d.nextFault with
  | .none => (.ok n, { d.tick with pos := n.toNat })
  | .fail _ => (.err .device, d.tick)

/-- `seek(SeekFrom::End(0))`: the length of the device. (src/header/mod.rs:384) -/
def seekEnd : M Dev IoErr UInt64 := fun d =>
  match d.nextFault with
  | .none => (.ok (UInt64.ofNat d.data.length), { d.tick with pos := d.data.length })
  | .fail _ => (.err .device, d.tick)

/-- `stream_position()`. (e.g. src/header/mod.rs:300) -/
def streamPosition : M Dev IoErr UInt64 := fun d =>
  match d.nextFault with
  | .none => (.ok (UInt64.ofNat d.pos), d.tick)
  | .fail _ => (.err .device, d.tick)

/-- `read_exact` into a buffer of `n` bytes. An empty buffer makes no call on the device. (e.g. src/partition.rs:269) -/
def readExact (n : Nat) : M Dev IoErr Bytes := fun d =>
  if n = 0 then (.ok [], d) else
  match d.nextFault with
  | .none =>
    if d.pos + n ≤ d.data.length then
      (.ok (slice d.data d.pos n), { d.tick with pos := d.pos + n })
    else (.err .unexpectedEof, { d.tick with pos := max d.pos d.data.length })
  | .fail k => (.err .device, { d.tick with pos := d.pos + min k n })

/-- Put `bs` at the current position and advance. (e.g. src/partition.rs:132) -/
def put (d : Dev) (bs : Bytes) : Dev :=
  if bs = [] then d else
    { d with data := patch d.data d.pos bs, pos := d.pos + bs.length, log := d.log ++ [.write d.pos bs] }

/-- `write_all`. A failing call leaves a prefix written; an empty buffer makes no call on the device. (e.g. src/partition.rs:132) -/
def writeAll (bs : Bytes) : M Dev IoErr Unit := fun d =>
  if bs = [] then (.ok (), d) else
  match d.nextFault with
  | .none =>
    if d.pos + bs.length ≤ d.cap then (.ok (), d.tick.put bs)
    else (.err .writeZero, d.tick.put (bs.take (d.cap - d.pos)))
  | .fail k => (.err .device, d.tick.put (bs.take (min k (d.cap - d.pos))))

/-- `flush()`. (e.g. src/lib.rs:969) -/
def flush : M Dev IoErr Unit := fun d =>
  match d.nextFault with
  | .none => (.ok (), { d.tick with log := d.log ++ [.flush] })
  | .fail _ => (.err .device, d.tick)

/-- `File::sync_all()` (src/lib.rs:979-981). -/
def syncAll : M Dev IoErr Unit := fun d =>
  match d.nextFault with
  | .none => (.ok (), { d.tick with log := d.log ++ [.sync] })
  | .fail _ => (.err .device, d.tick)

end Dev

end Gpt
