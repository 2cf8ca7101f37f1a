/-!
# Rust results, panics, build modes and machine arithmetic

Nothing here models a particular line of the repository: it is the small fragment of Rust semantics that the rest of
the model is written in.
-/

namespace Gpt

/-- How the crate was compiled. In `debug` builds an overflowing `+`, `-` or `*` panics; in `release` builds it wraps. (e.g. src/lib.rs:522-524) -/
inductive Mode where
  | debug
  | release
  deriving DecidableEq, Repr

/-- Outcome of a Rust computation: `Ok`, `Err`, or a panic (unwinding). (every `Result`-returning function, e.g. src/lib.rs:495-504) -/
inductive Res (ε α : Type) where
  | ok (a : α)
  | err (e : ε)
  | panic
  deriving DecidableEq, Repr

namespace Res
variable {ε ε' α β : Type}

/-- The `?` operator / sequencing. (e.g. src/lib.rs:969) -/
def bind (x : Res ε α) (f : α → Res ε β) : Res ε β :=
  match x with
  | ok a => f a
  | err e => err e
  | panic => panic

instance : Monad (Res ε) where
  pure := ok
  bind := bind

/-- `Result::map_err` (also the implicit `From::from` of `?`). (e.g. src/lib.rs:394) -/
def mapErr (g : ε → ε') : Res ε α → Res ε' α
  | ok a => ok a
  | err e => err (g e)
  | panic => panic

/-- `Option::ok_or`. (e.g. src/header/builder.rs:147) -/
def ofOption (e : ε) : Option α → Res ε α
  | some a => ok a
  | none => err e

/-- `Result::is_ok` (a panic is not `Ok`). (in statements only; cf. src/lib.rs:405-410) -/
def isOk : Res ε α → Bool
  | ok _ => true
  | _ => false

end Res

/-- A stateful Rust computation: the new state is returned whatever the outcome, because `&mut` effects made before an
`Err` or a panic stay. (every `&mut self` or `&mut device` function, e.g. src/lib.rs:495) -/
def M (σ ε α : Type) : Type := σ → Res ε α × σ

namespace M
variable {σ τ ε ε' α β : Type}

/-- `Ok(a)`, e.g. src/lib.rs:975. -/
def pure (a : α) : M σ ε α := fun s => (.ok a, s)

/-- The `?` operator, e.g. src/lib.rs:969. -/
def bind (x : M σ ε α) (f : α → M σ ε β) : M σ ε β := fun s =>
  match x s with
  | (.ok a, s') => f a s'
  | (.err e, s') => (.err e, s')
  | (.panic, s') => (.panic, s')

instance : Monad (M σ ε) where
  pure := M.pure
  bind := M.bind

/-- return `Err(e)`. (e.g. src/lib.rs:571) -/
def throw (e : ε) : M σ ε α := fun s => (.err e, s)

/-- `panic!`, a failed `assert!`, `unwrap` of `None`/`Err`. (e.g. src/partition.rs:261) -/
def panic : M σ ε α := fun s => (.panic, s)

/-- Reading a field of `self`, e.g. src/lib.rs:705. -/
def get : M σ ε σ := fun s => (.ok s, s)

/-- Assigning to a field of `self`, e.g. src/lib.rs:766-768. -/
def modify (f : σ → σ) : M σ ε Unit := fun s => (.ok (), f s)

/-- A computation that does not touch the state. (e.g. src/lib.rs:508) -/
def lift (r : Res ε α) : M σ ε α := fun s => (r, s)

/-- `Result::map_err` and the conversion made by `?`, e.g. src/lib.rs:394. -/
def mapErr (g : ε → ε') (x : M σ ε α) : M σ ε' α := fun s =>
  ((x s).1.mapErr g, (x s).2)

/-- Run `x` and hand its `Result` back as a value (a panic still unwinds). Models binding a `Result` without `?`. (src/lib.rs:267-299) -/
def attempt (x : M σ ε α) : M σ ε' (Except ε α) := fun s =>
  match x s with
  | (.ok a, s') => (.ok (.ok a), s')
  | (.err e, s') => (.ok (.error e), s')
  | (.panic, s') => (.panic, s')

/-- Run a computation on a component of the state. (e.g. src/lib.rs:969) -/
def zoom (proj : σ → τ) (put : τ → σ → σ) (x : M τ ε α) : M σ ε α := fun s =>
  ((x (proj s)).1, put (x (proj s)).2 s)

/-- `if c then x` without `else`. (e.g. src/lib.rs:971-973) -/
def when (c : Bool) (x : M σ ε Unit) : M σ ε Unit := if c then x else M.pure ()

end M

/-! ## Machine arithmetic -/

/-- What an operation with exact result `exact` and wrapped result `wrapped` does when the exact result does
(`fits`) or does not fit the type. (e.g. src/lib.rs:522) -/
def arith {ε α : Type} (m : Mode) (fits : Bool) (wrapped : α) : Res ε α :=
  if fits then .ok wrapped else
    match m with
    | .debug => .panic
    | .release => .ok wrapped

/-- `a + b` on `u64`. (e.g. src/partition.rs:130) -/
def add64 {ε : Type} (m : Mode) (a b : UInt64) : Res ε UInt64 :=
  arith m (decide (a.toNat + b.toNat < 2 ^ 64)) (a + b)

/-- `a - b` on `u64`. (e.g. src/lib.rs:522) -/
def sub64 {ε : Type} (m : Mode) (a b : UInt64) : Res ε UInt64 :=
  arith m (decide (b.toNat ≤ a.toNat)) (a - b)

/-- `a + b` on `u32`. (src/lib.rs:536) -/
def add32 {ε : Type} (m : Mode) (a b : UInt32) : Res ε UInt32 :=
  arith m (decide (a.toNat + b.toNat < 2 ^ 32)) (a + b)

/-- `a * b` on `u32`. (src/header/builder.rs:120-176) -/
def mul32 {ε : Type} (m : Mode) (a b : UInt32) : Res ε UInt32 :=
  arith m (decide (a.toNat * b.toNat < 2 ^ 32)) (a * b)

/-- `a % b` on `u64`: panics on zero in every build. (src/lib.rs:522, src/lib.rs:673) -/
def rem64 {ε : Type} (a b : UInt64) : Res ε UInt64 :=
  if b = 0 then .panic else .ok (a % b)

/-- `u64::checked_mul`. (e.g. src/partition.rs:123) -/
def checkedMul64 (a b : UInt64) : Option UInt64 :=
  if a.toNat * b.toNat < 2 ^ 64 then some (a * b) else none

/-- `u64::checked_add`. (src/partition.rs:199) -/
def checkedAdd64 (a b : UInt64) : Option UInt64 :=
  if a.toNat + b.toNat < 2 ^ 64 then some (a + b) else none

/-- `u64::checked_sub`. (e.g. src/partition.rs:195) -/
def checkedSub64 (a b : UInt64) : Option UInt64 :=
  if b.toNat ≤ a.toNat then some (a - b) else none

/-- `vec![0; n]` for bytes: a length above `isize::MAX` panics ("capacity overflow") in every build. (A smaller allocation that
fails aborts the process; that is not modelled.) (src/partition.rs:310, src/header/mod.rs:434) -/
def vecOf {ε : Type} (n : UInt64) : Res ε Unit := if n.toNat < 2 ^ 63 then .ok () else .panic

/-- `u64::max` (`Ord::max`). (src/header/builder.rs:138-143) -/
def max64 (a b : UInt64) : UInt64 := if a ≤ b then b else a

/-- `u32::max`. (src/header/builder.rs:107, src/header/mod.rs:207) -/
def max32 (a b : UInt32) : UInt32 := if a ≤ b then b else a

end Gpt
