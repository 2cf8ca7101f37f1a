import Verif.Model.Device
/-!
# Transfers in pieces

`Read::read` and `Write::write` may transfer fewer bytes than asked for, or be interrupted. The library calls `read_exact`
(src/header/mod.rs:328, 435, src/partition.rs:269, 311, src/mbr.rs:148, 377, 401) and `write_all` (src/header/mod.rs:199,
src/partition.rs:132, 165, src/mbr.rs:237, 254, 256, 388, 412), the loops of the standard library over these. `Model/Device.lean` has one step for
each call. Here are the loops, as std::io defines them (`default_read_exact`, `Write::write_all`), over a device that answers
each `read` or `write` as a schedule says.
-/

namespace Gpt

/-- What a device does with one `read` or `write`. (under src/partition.rs:132, src/partition.rs:269) -/
inductive Xfer where
  /-- it transfers `k + 1` bytes, or as many as are asked for and there are -/
  | part (k : Nat)
  /-- `ErrorKind::Interrupted` -/
  | interrupted
  /-- another error -/
  | fail
  deriving DecidableEq, Repr

namespace Stream

/-- What `read` or `write` returns. (under src/partition.rs:132, src/partition.rs:269) -/
inductive Answer (α : Type) where
  | done (a : α)
  | interrupted
  | failed

/-- `Read::read` into a buffer of `n` bytes: 0 bytes at the end of the device. (under src/partition.rs:132, src/partition.rs:269) -/
def read (x : Xfer) (n : Nat) (d : Dev) : Answer Bytes × Dev :=
  match x with
  | .part k =>
    let t := min (k + 1) (min n (d.data.length - d.pos))
    (.done (slice d.data d.pos t), { d with pos := d.pos + t })
  | .interrupted => (.interrupted, d)
  | .fail => (.failed, d)

/-- `Write::write`: the number of bytes written, 0 if the device is full. (under src/partition.rs:132, src/partition.rs:269) -/
def write (x : Xfer) (bs : Bytes) (d : Dev) : Answer Nat × Dev :=
  match x with
  | .part k =>
    let t := min (k + 1) (min bs.length (d.cap - d.pos))
    (.done t, d.put (bs.take t))
  | .interrupted => (.interrupted, d)
  | .fail => (.failed, d)

/-- The schedule gives the answers to come; when it runs out the device transfers all it can. (under src/partition.rs:132, src/partition.rs:269) -/
def next (xs : List Xfer) (n : Nat) : Xfer := xs.headD (.part n)

/-- `Read::read_exact`:
```
while !buf.is_empty() {
    match this.read(buf) {
        Ok(0) => break,
        Ok(n) => buf = &mut buf[n..],
        Err(ref e) if e.is_interrupted() => {}
        Err(e) => return Err(e),
    }
}
if !buf.is_empty() { Err(READ_EXACT_EOF) } else { Ok(()) }
```
(under src/partition.rs:132, src/partition.rs:269) -/
def readExact (xs : List Xfer) (n : Nat) (d : Dev) : Res IoErr Bytes × Dev :=
  if n = 0 then (.ok [], d) else
  match xs, read (next xs n) n d with
  | _, (.done [], d) => (.err .unexpectedEof, d)
  | _, (.done (b :: bs), d) =>
    match readExact xs.tail (n - (bs.length + 1)) d with
    | (.ok rest, d) => (.ok (b :: bs ++ rest), d)
    | r => r
  | _ :: xs, (.interrupted, d) => readExact xs n d
  | _, (_, d) => (.err .device, d)
termination_by (n, xs.length)
decreasing_by
  · exact Prod.Lex.left _ _ (by omega)
  · exact Prod.Lex.right _ (by simp)

/-- `Write::write_all`:
```
while !buf.is_empty() {
    match self.write(buf) {
        Ok(0) => return Err(WRITE_ALL_EOF),
        Ok(n) => buf = &buf[n..],
        Err(ref e) if e.is_interrupted() => {}
        Err(e) => return Err(e),
    }
}
Ok(())
```
(under src/partition.rs:132, src/partition.rs:269) -/
def writeAll (xs : List Xfer) (bs : Bytes) (d : Dev) : Res IoErr Unit × Dev :=
  if bs = [] then (.ok (), d) else
  match xs, write (next xs bs.length) bs d with
  | _, (.done 0, d) => (.err .writeZero, d)
  | _, (.done (t + 1), d) => writeAll xs.tail (bs.drop (t + 1)) d
  | _ :: xs, (.interrupted, d) => writeAll xs bs d
  | _, (_, d) => (.err .device, d)
termination_by (bs.length, xs.length)
decreasing_by
  · exact Prod.Lex.left _ _ (by have : 0 < bs.length := List.length_pos_iff.mpr (by assumption); simp; omega)
  · exact Prod.Lex.right _ (by simp)

end Stream

end Gpt
