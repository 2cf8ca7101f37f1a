import Verif.Props.OpenFaults
/-!
# C110: how many device operations a call makes

Each operation of the device takes the head of the list of outcomes to come, so the operations a call makes are counted by how many are gone.
-/

namespace Gpt

open Spec GptDisk

/-- From `s`, `x` makes at most `b` operations: of the outcomes to come (`faults`), whatever they are, at most `b` are gone afterwards. -/
structure Spec.AtMost {σ ε α : Type} (faults : σ → List Fault) (b : Nat) (x : M σ ε α) (s : σ) : Prop where
  run : ∃ k ≤ b, faults (x s).2 = (faults s).drop k

namespace Spec.AtMost
section
variable {σ τ ε ε' α β : Type} {faults : σ → List Fault} {b b' : Nat} {s : σ}

theorem mono {x : M σ ε α} (h : AtMost faults b x s) (hb : b ≤ b') : AtMost faults b' x s := by
  obtain ⟨k, h1, h2⟩ := h.run
  exact ⟨k, Nat.le_trans h1 hb, h2⟩

theorem lift (r : Res ε α) : AtMost faults 0 (M.lift r) s := ⟨0, Nat.le_refl 0, rfl⟩
theorem pure (a : α) : AtMost faults 0 (Pure.pure a : M σ ε α) s := lift (.ok a)
theorem throw (e : ε) : AtMost faults 0 (M.throw e : M σ ε α) s := lift (.err e)
theorem panic : AtMost faults 0 (M.panic : M σ ε α) s := lift .panic

theorem modify {g : σ → σ} (h : ∀ s, faults (g s) = faults s) : AtMost faults 0 (M.modify g : M σ ε Unit) s := ⟨0, Nat.le_refl 0, h s⟩

theorem bindOk {x : M σ ε α} {f : α → M σ ε β} (h : AtMost faults b x s) (k : ∀ a t, x s = (.ok a, t) → AtMost faults b' (f a) t) :
    AtMost faults (b + b') (x >>= f) s := by
  obtain ⟨k1, h1, h2⟩ := h.run
  rcases hx : x s with ⟨r, t⟩
  rw [hx] at h2
  cases r with
  | ok a =>
    obtain ⟨k2, h3, h4⟩ := (k a t hx).run
    refine ⟨k1 + k2, by omega, ?_⟩
    rw [M.bind_apply, hx]
    simp only
    rw [h4, h2, List.drop_drop]
  | err e => exact ⟨k1, by omega, by rw [M.bind_apply, hx]; exact h2⟩
  | panic => exact ⟨k1, by omega, by rw [M.bind_apply, hx]; exact h2⟩

theorem bind {x : M σ ε α} {f : α → M σ ε β} (h : AtMost faults b x s) (k : ∀ a t, AtMost faults b' (f a) t) : AtMost faults (b + b') (x >>= f) s :=
  .bindOk h fun a t _ => k a t

theorem bind0 {x : M σ ε α} {f : α → M σ ε β} (h : AtMost faults 0 x s) (k : ∀ a t, AtMost faults b (f a) t) : AtMost faults b (x >>= f) s :=
  .mono (.bind h k) (by omega)

theorem bindPure {a : α} {f : α → M σ ε β} (h : AtMost faults b (f a) s) : AtMost faults b (Pure.pure a >>= f) s := by
  obtain ⟨k, h1, h2⟩ := h.run
  exact ⟨k, h1, h2⟩

theorem get {f : σ → M σ ε β} (k : AtMost faults b (f s) s) : AtMost faults b (M.get >>= f) s := by
  obtain ⟨k, h1, h2⟩ := k.run
  exact ⟨k, h1, h2⟩

theorem mapErr {x : M σ ε α} {g : ε → ε'} (h : AtMost faults b x s) : AtMost faults b (x.mapErr g) s := by
  obtain ⟨k, h1, h2⟩ := h.run
  exact ⟨k, h1, by rw [M.mapErr_apply]; exact h2⟩

theorem attempt_state {x : M σ ε α} : ((x.attempt : M σ ε' _) s).2 = (x s).2 := by
  rw [M.attempt_apply]
  rcases x s with ⟨r, t⟩
  cases r <;> rfl

theorem attempt {x : M σ ε α} (h : AtMost faults b x s) : AtMost faults b (x.attempt : M σ ε' _) s := by
  obtain ⟨k, h1, h2⟩ := h.run
  refine ⟨k, h1, ?_⟩
  rw [M.attempt_apply, ← h2]
  rcases x s with ⟨r, t⟩
  cases r <;> rfl

theorem throwBind {e : ε} {f : α → M σ ε β} : AtMost faults b (M.throw e >>= f) s := ⟨0, Nat.zero_le _, rfl⟩

theorem ite {c : Prop} [Decidable c] {x y : M σ ε α} (h1 : AtMost faults b x s) (h2 : AtMost faults b y s) :
    AtMost faults b (if c then x else y) s := by
  split <;> assumption

theorem mapOk {x : M σ ε α} (g : α → β) (h : AtMost faults b x s) : AtMost faults b (x.mapOk g) s := by
  obtain ⟨k, h1, h2⟩ := h.run
  exact ⟨k, h1, h2⟩

theorem zoom {fT : τ → List Fault} {x : M τ ε α} {proj : σ → τ} {put : τ → σ → σ} (h : AtMost fT b x (proj s))
    (h1 : ∀ s, fT (proj s) = faults s) (h2 : ∀ t s, faults (put t s) = fT t) : AtMost faults b (M.zoom proj put x) s := by
  obtain ⟨k, h3, h4⟩ := h.run
  refine ⟨k, h3, ?_⟩
  rw [M.zoom_apply, h2, h4, h1]

end

variable {d : Dev}

theorem seekStart (n : UInt64) : AtMost Dev.faults 1 (Dev.seekStart n) d := by
  refine ⟨1, Nat.le_refl 1, ?_⟩
  unfold Dev.seekStart
  rw [List.drop_one]
  cases d.nextFault <;> rfl

theorem seekEnd : AtMost Dev.faults 1 Dev.seekEnd d := by
  refine ⟨1, Nat.le_refl 1, ?_⟩
  unfold Dev.seekEnd
  rw [List.drop_one]
  cases d.nextFault <;> rfl

theorem streamPosition : AtMost Dev.faults 1 Dev.streamPosition d := by
  refine ⟨1, Nat.le_refl 1, ?_⟩
  unfold Dev.streamPosition
  rw [List.drop_one]
  cases d.nextFault <;> rfl

theorem flush : AtMost Dev.faults 1 Dev.flush d := by
  refine ⟨1, Nat.le_refl 1, ?_⟩
  unfold Dev.flush
  rw [List.drop_one]
  cases d.nextFault <;> rfl

theorem syncAll : AtMost Dev.faults 1 Dev.syncAll d := by
  refine ⟨1, Nat.le_refl 1, ?_⟩
  unfold Dev.syncAll
  rw [List.drop_one]
  cases d.nextFault <;> rfl

theorem readExact (n : Nat) : AtMost Dev.faults 1 (Dev.readExact n) d := by
  by_cases hn : n = 0
  · subst hn
    exact ⟨0, by omega, rfl⟩
  refine ⟨1, Nat.le_refl 1, ?_⟩
  unfold Dev.readExact
  rw [if_neg hn, List.drop_one]
  cases d.nextFault with
  | none => simp only; split <;> rfl
  | fail k => rfl

theorem put_faults (d : Dev) (bs : Bytes) : (d.put bs).faults = d.faults := by
  unfold Dev.put
  split <;> rfl

theorem writeAll (bs : Bytes) : AtMost Dev.faults 1 (Dev.writeAll bs) d := by
  by_cases hn : bs = []
  · subst hn
    exact ⟨0, by omega, rfl⟩
  refine ⟨1, Nat.le_refl 1, ?_⟩
  unfold Dev.writeAll
  rw [if_neg hn, List.drop_one]
  cases d.nextFault with
  | none => simp only; split <;> exact put_faults _ _
  | fail k => exact put_faults _ _

end Spec.AtMost

/-! ## The functions on a device -/

theorem cost_find (lb : LbSize) (d : Dev) : AtMost Dev.faults 3 (findBackupLba lb) d := by
  unfold findBackupLba
  exact .bind (.mapErr .streamPosition) fun _ _ => .bind (b := 1) (b' := 1) (.mapErr .seekEnd) fun _ _ => .bind (b := 1) (b' := 0) (.mapErr (.seekStart _)) fun _ _ =>
    .ite (.throw _) (.pure _)

theorem cost_checksum (h : Header) (lb : LbSize) (d : Dev) : AtMost Dev.faults 2 (partentryChecksum h lb) d := by
  unfold partentryChecksum
  exact .bind0 (.lift _) fun _ _ => .bind (b := 1) (b' := 1) (.mapErr (.seekStart _)) fun _ _ => .bind0 (.lift _) fun _ _ => .bind0 (.lift _) fun _ _ =>
    .bind (b := 1) (b' := 0) (.mapErr (.readExact _)) fun _ _ => .pure _

theorem cost_entry (m : Mode) (p : Partition) (i st : UInt64) (lb : LbSize) (n : UInt32) (d : Dev) :
    AtMost Dev.faults 2 (p.writeToDevice m i st lb n) d := by
  unfold Partition.writeToDevice
  exact .bind0 (.lift _) fun _ _ => .bind0 (.lift _) fun _ _ => .bind0 (.lift _) fun _ _ =>
    .bind (b := 1) (b' := 1) (.seekStart _) fun _ _ => .writeAll _

theorem cost_zeroEntries (m : Mode) (a c st : UInt64) (lb : LbSize) (n : UInt32) (d : Dev) :
    AtMost Dev.faults 2 (Partition.writeZeroEntries m a c st lb n) d := by
  unfold Partition.writeZeroEntries
  exact .bind0 (.lift _) fun _ _ => .bind0 (.lift _) fun _ _ => .bind0 (.lift _) fun _ _ =>
    .bind (b := 1) (b' := 1) (.seekStart _) fun _ _ => .bind0 (.lift _) fun _ _ => .bind0 (.lift _) fun _ _ => .writeAll _

theorem cost_readHeader (off : UInt64) (d : Dev) : AtMost Dev.faults 2 (fileReadHeader off) d := by
  unfold fileReadHeader
  exact .bind (b := 1) (b' := 1) (.attempt (.seekStart _)) fun _ _ => .bind (b := 1) (b' := 0) (.mapErr (.readExact _)) fun _ _ => .lift _

theorem cost_readPrimary (lb : LbSize) (d : Dev) : AtMost Dev.faults 4 (readPrimaryHeader lb) d := by
  unfold readPrimaryHeader
  refine .bind (b := 1) (b' := 3) (.attempt .streamPosition) fun _ _ => .bind (b := 2) (b' := 1) (.attempt (cost_readHeader _ _)) fun r _ =>
    .bind (b := 1) (b' := 0) (.attempt (.seekStart _)) fun _ _ => ?_
  cases r with
  | ok h => exact .pure _
  | error e => exact .throw _

theorem cost_readBackup (lb : LbSize) (d : Dev) : AtMost Dev.faults 7 (readBackupHeader lb) d := by
  unfold readBackupHeader
  refine .bind (b := 1) (b' := 6) (.attempt .streamPosition) fun _ _ => .bind (b := 3) (b' := 3) (cost_find _ _) fun _ _ => .bind0 (.lift _) fun _ _ =>
    .bind (b := 2) (b' := 1) (.attempt (cost_readHeader _ _)) fun r _ => .bind (b := 1) (b' := 0) (.attempt (.seekStart _)) fun _ _ => ?_
  cases r with
  | ok h => exact .pure _
  | error e => exact .throw _

/-! ## Disks -/

theorem cost_onDev {ε α : Type} {b : Nat} (g : ε → GptError) {x : M Dev ε α} {s : GptDisk} (h : AtMost Dev.faults b x s.device) :
    AtMost (fun s : GptDisk => s.device.faults) b (onDev g x) s := by
  unfold onDev
  exact .zoom (fT := Dev.faults) (.mapErr h) (fun _ => rfl) (fun _ _ => rfl)

theorem cost_init (m : Mode) (fresh : Uuid) (s : GptDisk) : AtMost (fun s : GptDisk => s.device.faults) 3 (initHeaders m fresh) s := by
  unfold initHeaders
  refine .get ?_
  exact .bind (b := 3) (b' := 0) (cost_onDev _ (cost_find _ _)) fun _ _ => .bind0 (.lift _) fun _ _ => .bind0 (.modify fun _ => rfl) fun _ _ =>
    .ite (.pure _) (.bind0 (.lift _) fun _ _ => .modify fun _ => rfl)

theorem cost_insert (m : Mode) (name : String) (id : UInt32) (first length : UInt64) (ty : PType) (flags : UInt64) (fresh fresh2 : Uuid) (s : GptDisk) :
    AtMost (fun s : GptDisk => s.device.faults) 3 (insertPartition m name id first length ty flags fresh fresh2) s := by
  unfold insertPartition
  refine .bind0 (.lift _) fun _ _ => .bind0 (.lift _) fun _ t => .get ?_
  refine .bind0 (.lift _) fun _ _ => .ite (.mono (.throw _) (by omega)) (.bind0 (.modify fun _ => rfl) fun _ _ => ?_)
  exact .ite (.bind (b' := 0) (cost_init ..) fun _ _ => .pure _) (.mono (.pure _) (by omega))

theorem cost_addLoop (m : Mode) (name : String) (size : UInt64) (ty : PType) (flags : UInt64) (align : Option UInt64) (fresh fresh2 : Uuid)
    (free : List (UInt64 × UInt64)) (s : GptDisk) :
    AtMost (fun s : GptDisk => s.device.faults) 3 (addPartitionLoop m name size ty flags align fresh fresh2 free) s := by
  induction free generalizing s with
  | nil => exact .mono (.throw _) (by omega)
  | cons x rest ih =>
    obtain ⟨start, length⟩ := x
    unfold addPartitionLoop
    refine .bind0 (.lift _) fun _ _ => .bind0 (.lift _) fun _ _ => .ite (.bind0 (.lift _) fun _ _ => .get ?_) (ih _)
    refine .bind0 (.lift _) fun i _ => ?_
    cases i with
    | some i => exact .bind0 (.pure _) fun _ _ => cost_insert ..
    | none => exact .bind0 (.lift _) fun _ _ => .bind0 (.lift _) fun _ _ => cost_insert ..

theorem cost_add (m : Mode) (name : String) (size : UInt64) (ty : PType) (flags : UInt64) (align : Option UInt64) (fresh fresh2 : Uuid) (s : GptDisk) :
    AtMost (fun s : GptDisk => s.device.faults) 3 (addPartition m name size ty flags align fresh fresh2) s := by
  unfold addPartition
  exact .ite (.mono .panic (by omega)) (.get (.bind0 (.lift _) fun _ _ => .bind0 (.lift _) fun _ _ => .bind0 (.lift _) fun _ _ => cost_addLoop ..))

theorem cost_addAtLoop (m : Mode) (name : String) (id : UInt32) (first length : UInt64) (ty : PType) (flags : UInt64) (fresh fresh2 : Uuid)
    (free : List (UInt64 × UInt64)) (s : GptDisk) :
    AtMost (fun s : GptDisk => s.device.faults) 3 (addPartitionAtLoop m name id first length ty flags fresh fresh2 free) s := by
  induction free generalizing s with
  | nil => exact .mono (.throw _) (by omega)
  | cons x rest ih =>
    obtain ⟨start, len⟩ := x
    unfold addPartitionAtLoop
    exact .ite (cost_insert ..) (ih _)

theorem cost_addAt (m : Mode) (name : String) (id : UInt32) (first length : UInt64) (ty : PType) (flags : UInt64) (fresh fresh2 : Uuid) (s : GptDisk) :
    AtMost (fun s : GptDisk => s.device.faults) 3 (addPartitionAt m name id first length ty flags fresh fresh2) s := by
  unfold addPartitionAt
  exact .ite (.mono .panic (by omega)) (.ite (.mono .panic (by omega)) (.get (.ite (.mono (.throw _) (by omega)) (.bind0 (.lift _) fun _ _ => cost_addAtLoop ..))))

theorem cost_updateParts (m : Mode) (pp : PMap) (fresh : Uuid) (s : GptDisk) :
    AtMost (fun s : GptDisk => s.device.faults) 3 (updatePartitions m pp fresh) s := by
  unfold updatePartitions
  exact .ite (.mono .panic (by omega)) (.get (.bind0 (.lift _) fun _ _ => .ite (.mono (.throw _) (by omega))
    (.bind0 (.modify fun _ => rfl) fun _ _ => cost_init ..)))

theorem cost_fileWrite (lba : UInt64) (lb : LbSize) (s : Header × Dev) : AtMost (fun s : Header × Dev => s.2.faults) 4 (Header.fileWriteHeader lba lb) s := by
  have z : ∀ {α : Type} {b : Nat} {x : M Dev HeaderError α} {s : Header × Dev}, AtMost Dev.faults b x s.2 →
      AtMost (fun s : Header × Dev => s.2.faults) b (Header.onDev x) s :=
    fun h => .zoom (fT := Dev.faults) h (fun _ => rfl) (fun _ _ => rfl)
  unfold Header.fileWriteHeader
  refine .get ?_
  refine .bind (b := 2) (b' := 2) (z (cost_checksum ..)) fun c _ => .bind0 (.modify fun _ => rfl) fun _ _ => .get ?_
  refine .bind0 (.lift _) fun v _ => ?_
  exact .bind0 (.modify fun _ => rfl) fun _ _ => .bind0 (.lift _) fun _ _ => .bind (b := 1) (b' := 1) (z (.mapErr (.seekStart _))) fun _ _ =>
    .bind (b := 1) (b' := 0) (z (.mapErr (.writeAll _))) fun _ _ => .pure _

theorem cost_primary (lb : LbSize) (s : Header × Dev) : AtMost (fun s : Header × Dev => s.2.faults) 4 (Header.writePrimary lb) s := by
  unfold Header.writePrimary
  exact .get (.ite (.mono (.throw _) (by omega)) (cost_fileWrite ..))

theorem cost_backup (lb : LbSize) (s : Header × Dev) : AtMost (fun s : Header × Dev => s.2.faults) 4 (Header.writeBackup lb) s := by
  unfold Header.writeBackup
  exact .get (.ite (.mono (.throw _) (by omega)) (cost_fileWrite ..))

theorem cost_writeHeader (m : Mode) (u : Option Uuid) (fresh : Uuid) (lb : LbSize) (d : Dev) : AtMost Dev.faults 7 (writeHeader m u fresh lb) d := by
  unfold writeHeader
  refine .bind (b := 3) (b' := 4) (cost_find lb _) fun bak _ => .bind0 (.lift _) fun h d => ?_
  obtain ⟨k, h1, h2⟩ := (cost_primary lb (h, d)).run
  exact ⟨k, h1, h2⟩

theorem cost_entries (m : Mode) (lb : LbSize) (ph : Header) (bh : Option Header) (ps : List Partition) (i n : Nat) (d : Dev) :
    AtMost Dev.faults ((if bh.isSome then 4 else 2) * ps.length) (writeEntries m lb ph bh ps i n) d := by
  induction ps generalizing i n d with
  | nil => exact .mono (.pure _) (by omega)
  | cons p ps ih =>
    unfold writeEntries
    cases bh with
    | none =>
      rw [List.length_cons, show (if (none : Option Header).isSome then 4 else 2) = 2 from rfl, Nat.mul_succ, Nat.add_comm]
      refine .ite (.mono (.throw _) (by omega)) (.bind (.mapErr (cost_entry ..)) fun _ _ => ih _ _ _)
    | some bh =>
      rw [List.length_cons, show (if (some bh).isSome then 4 else 2) = 4 from rfl]
      have ih' : ∀ i n d, AtMost Dev.faults (4 * ps.length) (writeEntries m lb ph (some bh) ps i n) d := ih
      refine .ite (.mono (.throw _) (by omega)) (.mono (.bind (b := 2) (b' := 4 * ps.length + 2) (.mapErr (cost_entry ..)) fun _ _ => ?_) (by omega))
      dsimp only
      refine .ite (.mono (.bind0 (.throw _) fun _ _ => ih' _ _ _) (by omega)) (.ite ?_ ?_)
      · exact .mono (.bind (b := 2) (.mapErr (cost_entry ..)) fun _ _ => ih' _ _ _) (by omega)
      · exact .mono (.bind0 (.pure _) fun _ _ => ih' _ _ _) (by omega)

theorem cost_zeros (m : Mode) (lb : LbSize) (h : Header) (n : Nat) (d : Dev) : AtMost Dev.faults 2 (writeZeros m lb h n) d := by
  unfold writeZeros
  cases checkedSub64 h.numParts.toUInt64 (UInt64.ofNat n) with
  | none => exact .bind0 .panic fun _ _ => .mapErr (cost_zeroEntries ..)
  | some k => exact .bind0 (.pure _) fun _ _ => .mapErr (cost_zeroEntries ..)

theorem cost_onBackup (h : Header) {b : Nat} {x : M (Header × Dev) HeaderError Nat} (hx : ∀ s, AtMost (fun s : Header × Dev => s.2.faults) b x s) (s : GptDisk) :
    AtMost (fun s : GptDisk => s.device.faults) b (onBackup h x) s := by
  obtain ⟨k, h1, h2⟩ := (hx (h, s.device)).run
  exact ⟨k, h1, h2⟩

theorem cost_onPrimary (h : Header) {b : Nat} {x : M (Header × Dev) HeaderError Nat} (hx : ∀ s, AtMost (fun s : Header × Dev => s.2.faults) b x s) (s : GptDisk) :
    AtMost (fun s : GptDisk => s.device.faults) b (onPrimary h x) s := by
  obtain ⟨k, h1, h2⟩ := (hx (h, s.device)).run
  exact ⟨k, h1, h2⟩

theorem cost_write (m : Mode) (s : GptDisk) : AtMost (fun s : GptDisk => s.device.faults)
    (if s.config.readonlyBackup then 11 + 2 * (usedParts s.partitions).length else 17 + 4 * (usedParts s.partitions).length) (writeInplace m) s := by
  unfold writeInplace
  refine .get ?_
  have tail : ∀ ph t, AtMost (fun s : GptDisk => s.device.faults) 6 (do
      onPrimary ph (Header.writePrimary s.config.lbSize)
      onDev .io Dev.flush
      if s.syncAll then onDev .io Dev.syncAll else pure ()) t := fun ph t =>
    .bind (b := 4) (b' := 2) (cost_onPrimary _ (cost_primary _) _) fun _ _ => .bind (b := 1) (b' := 1) (cost_onDev _ .flush) fun _ _ =>
      .ite (cost_onDev _ .syncAll) (.mono (.pure _) (by omega))
  refine .ite (.mono (.throw _) (by omega)) (.mono (.bind (b := 3)
    (b' := if s.config.readonlyBackup then 8 + 2 * (usedParts s.partitions).length else 14 + 4 * (usedParts s.partitions).length) (cost_onDev _ (cost_find ..))
    fun _ _ => ?_) (by split <;> omega))
  refine .bind0 (.lift _) fun _ _ => .bind0 (.lift _) fun ph _ => .bind0 (.modify fun _ => rfl) fun _ t => ?_
  by_cases hr : s.config.readonlyBackup = true
  · simp only [hr, if_true]
    refine .bindPure ?_
    refine .mono (.bind (cost_onDev _ (cost_entries ..)) fun _ _ => .bind (cost_onDev _ (cost_zeros ..)) fun _ _ => tail _ _) ?_
    rw [show (none : Option Header).isSome = false from rfl]
    simp only [Bool.false_eq_true, if_false]
    omega
  · simp only [hr]
    refine .bind0 (.lift _) fun bh _ => .bind0 (.modify fun _ => rfl) fun _ t => .bindPure ?_
    refine .mono (.bind (cost_onDev _ (cost_entries ..)) fun _ _ => .bind (cost_onDev _ (cost_zeros ..)) fun _ _ => .bind (cost_onDev _ (cost_zeros ..)) fun _ _ =>
      .bind (cost_onBackup _ (cost_backup _) _) fun _ _ => tail _ _) ?_
    rw [show (some bh).isSome = true from rfl]
    simp only [if_true, Bool.false_eq_true, if_false]
    omega

/-! ## Reading a table -/

/-- Reading entries makes no more reads than the device holds, and one. -/
theorem cost_readEntries (m : Mode) (n : Nat) (i : UInt32) (e : Nat) (t : PMap) (d : Dev) :
    (∃ k ≤ n, k ≤ (d.data.length - d.pos) / 128 + 1 ∧ (readEntries m n i e t d).2.faults = d.faults.drop k) ∧
    (∀ r, (readEntries m n i e t d).1 = .ok r → n ≤ (d.data.length - d.pos) / 128 ∧ (readEntries m n i e t d).2.faults = d.faults.drop n ∧
      (readEntries m n i e t d).2.data = d.data) := by
  induction n generalizing i e t d with
  | zero => exact ⟨⟨0, by omega, by omega, rfl⟩, fun r _ => ⟨by omega, rfl, rfl⟩⟩
  | succ n ih =>
    have tick : ∀ p : Nat, ({ d.tick with pos := p } : Dev).faults = d.faults.drop 1 := fun p => by rw [List.drop_one]; rfl
    rw [readEntries, M.bind_apply]
    unfold Dev.readExact
    rw [if_neg (by decide)]
    cases d.nextFault with
    | fail k => exact ⟨⟨1, by omega, by omega, tick _⟩, fun r h => by cases h⟩
    | none =>
      simp only
      by_cases hl : d.pos + 128 ≤ d.data.length
      · rw [if_pos hl]
        simp only
        have hdiv : (d.data.length - d.pos) / 128 = (d.data.length - (d.pos + 128)) / 128 + 1 := by omega
        split
        · rw [M.bind_apply, M.lift_apply]
          cases arith m (decide (e + 1 < 2 ^ 31)) () with
          | panic => exact ⟨⟨1, by omega, by omega, tick _⟩, fun r h => by cases h⟩
          | err x => exact ⟨⟨1, by omega, by omega, tick _⟩, fun r h => by cases h⟩
          | ok u =>
            simp only
            obtain ⟨⟨k, h1, h2, h3⟩, h4⟩ := ih (i + 1) (e + 1) t { d.tick with pos := d.pos + 128 }
            rw [tick] at h3 h4
            refine ⟨⟨k + 1, by omega, by rw [hdiv]; exact Nat.succ_le_succ h2, by rw [h3, List.drop_drop, Nat.add_comm]⟩, fun r hr => ?_⟩
            obtain ⟨h5, h6, h7⟩ := h4 r hr
            exact ⟨by rw [hdiv]; exact Nat.succ_le_succ h5, by rw [h6, List.drop_drop, Nat.add_comm], h7⟩
        · rw [M.bind_apply, M.lift_apply]
          cases add32 m i 1 with
          | panic => exact ⟨⟨1, by omega, by omega, tick _⟩, fun r h => by cases h⟩
          | err x => exact ⟨⟨1, by omega, by omega, tick _⟩, fun r h => by cases h⟩
          | ok u =>
            simp only
            obtain ⟨⟨k, h1, h2, h3⟩, h4⟩ := ih (i + 1) e (PMap.insert u (partitionOfBytes (slice d.data d.pos 128)) t) { d.tick with pos := d.pos + 128 }
            rw [tick] at h3 h4
            refine ⟨⟨k + 1, by omega, by rw [hdiv]; exact Nat.succ_le_succ h2, by rw [h3, List.drop_drop, Nat.add_comm]⟩, fun r hr => ?_⟩
            obtain ⟨h5, h6, h7⟩ := h4 r hr
            exact ⟨by rw [hdiv]; exact Nat.succ_le_succ h5, by rw [h6, List.drop_drop, Nat.add_comm], h7⟩
      · rw [if_neg hl]
        exact ⟨⟨1, by omega, by omega, tick _⟩, fun r h => by cases h⟩

/-- Reading a table, on any device. -/
theorem cost_table (m : Mode) (h : Header) (lb : LbSize) (d : Dev) :
    AtMost Dev.faults (min h.numParts.toNat (d.data.length / 128) + 3) (fileReadPartitions m h lb) d := by
  unfold fileReadPartitions
  refine .mono (.bindOk (b := 0) (b' := min h.numParts.toNat (d.data.length / 128) + 3) (.lift _) fun a d1 e1 => ?_) (by omega)
  obtain ⟨-, rfl⟩ := Prod.mk.inj e1
  refine .mono (.bindOk (b := 1) (b' := min h.numParts.toNat (d.data.length / 128) + 2) (.seekStart _) fun a t e2 => ?_) (by omega)
  have hd : t.data = d.data := by
    unfold Dev.seekStart at e2
    cases hf : d.nextFault with
    | none => rw [hf] at e2; obtain ⟨-, rfl⟩ := Prod.mk.inj e2; rfl
    | fail k => rw [hf] at e2; cases e2
  refine .ite (.mono .panic (by omega)) ?_
  obtain ⟨⟨k, h1, h2, h3⟩, h4⟩ := cost_readEntries m h.numParts.toNat 0 0 [] t
  rw [hd] at h2 h4
  rcases hr : readEntries m h.numParts.toNat 0 0 [] t with ⟨r, u⟩
  rw [hr] at h3 h4
  have hle : (d.data.length - t.pos) / 128 ≤ d.data.length / 128 := Nat.div_le_div_right (Nat.sub_le _ _)
  have hk : k ≤ min h.numParts.toNat (d.data.length / 128) + 2 := by omega
  cases r with
  | ok r =>
    obtain ⟨h5, h6, -⟩ := h4 r rfl
    refine .mono (.bind (b := h.numParts.toNat) (b' := 2) ⟨h.numParts.toNat, Nat.le_refl _, by rw [hr]; exact h6⟩ fun _ _ => ?_) (by omega)
    exact .bind (b := 1) (b' := 1) (.seekStart _) fun _ _ => .bind0 (.lift _) fun _ _ => .bind (b := 1) (b' := 0) (.readExact _) fun _ _ =>
      .ite (.throw _) (.pure _)
  | err e => exact ⟨k, hk, by rw [M.bind_apply, hr]; exact h3⟩
  | panic => exact ⟨k, hk, by rw [M.bind_apply, hr]; exact h3⟩

/-! ## C110 -/

/-- **C110**: opening. Whatever the device holds and however its operations turn out, no more than 14 operations and one for each 128 bytes of the device. -/
theorem c110_open (m : Mode) (cfg : GptConfig) (d : Dev) : AtMost Dev.faults (14 + d.data.length / 128) (openFromDevice m cfg) d := by
  unfold openFromDevice
  have q1 := readPrimaryHeader_quiet cfg.lbSize d
  refine .mono (.bindOk (b := 4) (b' := 10 + d.data.length / 128) (.attempt (cost_readPrimary ..)) fun h1 t e1 => ?_) (by omega)
  have hd1 : t.data = d.data := by
    rw [← q1.data, ← AtMost.attempt_state (ε' := GptError), e1]
  refine .mono (.bindOk (b := 7) (b' := 3 + d.data.length / 128) (.attempt (cost_readBackup ..)) fun h2 u e2 => ?_) (by omega)
  have q2 := readBackupHeader_quiet cfg.lbSize t
  have hd2 : u.data = d.data := by
    rw [← hd1, ← q2.data, ← AtMost.attempt_state (ε' := GptError), e2]
  have table : ∀ h, AtMost Dev.faults (3 + d.data.length / 128) (do
      let table ← (fileReadPartitions m h cfg.lbSize).mapErr .io
      let d ← M.get
      (pure (GptDisk.mk cfg d h.diskGuid h1 h2 table false) : M Dev GptError GptDisk)) u := by
    intro h
    refine .mono (.bind (b' := 0) (.mapErr (cost_table m h cfg.lbSize u)) fun _ _ => .get (.pure _)) ?_
    rw [hd2]
    omega
  cases h1 with
  | ok a =>
    cases h2 with
    | ok b => exact .bindPure (table a)
    | error e => exact .ite .throwBind (.bindPure (table a))
  | error e =>
    cases h2 with
    | ok b => exact .ite .throwBind (.bindPure (table b))
    | error e => exact .throwBind

/-- **C110**: creating. -/
theorem c110_create (m : Mode) (cfg : GptConfig) (guid : Option Uuid) (fresh fresh2 : Uuid) (d : Dev) :
    AtMost Dev.faults 3 (createFromDevice m cfg guid fresh fresh2) d := by
  obtain ⟨k, h1, h2⟩ := (cost_init m fresh2 (blankDisk cfg d (guid.getD fresh))).run
  refine ⟨k, h1, ?_⟩
  unfold createFromDevice
  rcases hx : initHeaders m fresh2 (blankDisk cfg d (guid.getD fresh)) with ⟨r, t⟩
  rw [hx] at h2
  cases r <;> exact h2

/-- The most operations a call makes on the device of `s`. -/
def Spec.opCost (s : GptDisk) : Op → Nat
  | .addPartition .. => 3
  | .addPartitionAt .. => 3
  | .updatePartitions .. => 3
  | .writeInplace => if s.config.readonlyBackup then 11 + 2 * s.partitions.length else 17 + 4 * s.partitions.length
  | _ => 0

/-- **C110**: the calls on a disk. Only `write_inplace` depends on the table, by the number of partitions it writes, and none on the size of the array. -/
theorem c110_calls (m : Mode) (op : Op) (s : GptDisk) (h1 : ∀ d w, op ≠ .updateDiskDevice d w) (h2 : ∀ d, op ≠ .deviceMut d) :
    AtMost (fun s : GptDisk => s.device.faults) (opCost s op) (op.step m) s := by
  cases op with
  | addPartition n sz t f a r r2 => exact .mapOk _ (cost_add ..)
  | addPartitionAt n i fl l t f r r2 => exact .mapOk _ (cost_addAt ..)
  | removePartition i =>
    refine .mapOk _ ⟨0, Nat.le_refl 0, ?_⟩
    unfold removePartition
    cases PMap.get s.partitions i <;> rfl
  | removePartitionByGuid g =>
    refine .mapOk _ ⟨0, Nat.le_refl 0, ?_⟩
    unfold removePartitionByGuid
    cases s.partitions.find? (fun e => e.2.partGuid == g) <;> rfl
  | takePartitions =>
    have : AtMost (fun s : GptDisk => s.device.faults) 0 (Op.step m .takePartitions) s := ⟨0, Nat.le_refl 0, rfl⟩
    exact this
  | updateGuid u r =>
    have : AtMost (fun s : GptDisk => s.device.faults) 0 (Op.step m (.updateGuid u r)) s := ⟨0, Nat.le_refl 0, rfl⟩
    exact this
  | updatePartitions pp r => exact .mapOk _ (cost_updateParts ..)
  | updateDiskDevice d w => exact absurd rfl (h1 d w)
  | deviceMut d => exact absurd rfl (h2 d)
  | writeInplace =>
    have hl : (usedParts s.partitions).length ≤ s.partitions.length := by
      unfold usedParts
      rw [List.length_map]
      exact List.length_filter_le _ _
    refine .mapOk _ (.mono (cost_write m s) ?_)
    rw [show opCost s .writeInplace = if s.config.readonlyBackup then 11 + 2 * s.partitions.length else 17 + 4 * s.partitions.length from rfl]
    split <;> omega

/-- **C110**: the functions on headers and tables. -/
theorem c110_functions (m : Mode) (lb : LbSize) (h : Header) (p : Partition) (i st a : UInt64) (n : UInt32) (u : Option Uuid) (fresh : Uuid) (d : Dev) :
    AtMost Dev.faults 4 (readPrimaryHeader lb) d ∧ AtMost Dev.faults 7 (readBackupHeader lb) d ∧
    AtMost Dev.faults (min h.numParts.toNat (d.data.length / 128) + 3) (fileReadPartitions m h lb) d ∧
    AtMost Dev.faults 2 (p.writeToDevice m i st lb n) d ∧ AtMost Dev.faults 2 (Partition.writeZeroEntries m i a st lb n) d ∧
    AtMost Dev.faults 2 (p.write m i st lb) d ∧ AtMost Dev.faults 7 (writeHeader m u fresh lb) d ∧
    AtMost (fun s : Header × Dev => s.2.faults) 4 (Header.writePrimary lb) (h, d) ∧ AtMost (fun s : Header × Dev => s.2.faults) 4 (Header.writeBackup lb) (h, d) :=
  ⟨cost_readPrimary .., cost_readBackup .., cost_table .., cost_entry .., cost_zeroEntries .., cost_entry .., cost_writeHeader .., cost_primary .., cost_backup ..⟩

/-- **C110**: the functions of `src/mbr.rs`. -/
theorem c110_mbr (lb : LbSize) (b : ProtectiveMbr) (boot : ByteArr 440) (sig : ByteArr 4) (d : Dev) :
    AtMost Dev.faults 4 (ProtectiveMbr.fromDisk lb) d ∧ AtMost Dev.faults 5 b.overwriteLba0 d ∧ AtMost Dev.faults 9 b.updateConservative d ∧
    AtMost Dev.faults 4 readBootcode d ∧ AtMost Dev.faults 5 (writeBootcode boot) d ∧ AtMost Dev.faults 4 readDiskSignature d ∧
    AtMost Dev.faults 5 (writeDiskSignature sig) d := by
  have rd : ∀ o n, AtMost Dev.faults 4 (readAt o n) d := fun o n => by
    unfold readAt
    exact .bind (b := 1) (b' := 3) .streamPosition fun _ _ => .bind (b := 1) (b' := 2) (.seekStart _) fun _ _ => .bind (b := 1) (b' := 1) (.readExact _) fun _ _ =>
      .bind (b := 1) (b' := 0) (.seekStart _) fun _ _ => .pure _
  have wr : ∀ o bs, AtMost Dev.faults 5 (writeAt o bs) d := fun o bs => by
    unfold writeAt
    exact .bind (b := 1) (b' := 4) .streamPosition fun _ _ => .bind (b := 1) (b' := 3) (.seekStart _) fun _ _ => .bind (b := 1) (b' := 2) (.writeAll _) fun _ _ =>
      .bind (b := 1) (b' := 1) .flush fun _ _ => .bind (b := 1) (b' := 0) (.seekStart _) fun _ _ => .pure _
  refine ⟨?_, ?_, ?_, rd _ _, wr _ _, rd _ _, wr _ _⟩
  · unfold ProtectiveMbr.fromDisk
    refine .bind (b := 1) (b' := 3) (.mapErr .streamPosition) fun _ _ => .bind (b := 1) (b' := 2) (.mapErr (.seekStart _)) fun _ _ =>
      .bind (b := 1) (b' := 1) (.mapErr (.readExact _)) fun _ _ => .bind0 (.attempt (.lift _)) fun r _ => .bind (b := 1) (b' := 0) (.mapErr (.seekStart _)) fun _ _ => ?_
    cases r with
    | ok p => exact .pure _
    | error e => exact .throw _
  · unfold ProtectiveMbr.overwriteLba0
    exact .bind (b := 1) (b' := 4) (.mapErr .streamPosition) fun _ _ => .bind (b := 1) (b' := 3) (.mapErr (.seekStart _)) fun _ _ =>
      .bind (b := 1) (b' := 2) (.mapErr (.writeAll _)) fun _ _ => .bind (b := 1) (b' := 1) (.mapErr .flush) fun _ _ =>
      .bind (b := 1) (b' := 0) (.mapErr (.seekStart _)) fun _ _ => .pure _
  · unfold ProtectiveMbr.updateConservative
    exact .bind (b := 1) (b' := 8) (.mapErr .streamPosition) fun _ _ => .bind (b := 1) (b' := 7) (.mapErr (.seekStart _)) fun _ _ =>
      .bind (b := 1) (b' := 6) (.mapErr (.writeAll _)) fun _ _ => .bind (b := 1) (b' := 5) (.mapErr (.writeAll _)) fun _ _ =>
      .bind (b := 1) (b' := 4) (.mapErr (.writeAll _)) fun _ _ => .bind (b := 1) (b' := 3) (.mapErr (.writeAll _)) fun _ _ =>
      .bind (b := 1) (b' := 2) (.mapErr (.writeAll _)) fun _ _ => .bind (b := 1) (b' := 1) (.mapErr .flush) fun _ _ =>
      .bind (b := 1) (b' := 0) (.mapErr (.seekStart _)) fun _ _ => .pure _

theorem seekStart_ok {n : UInt64} {d t : Dev} {a : UInt64} (h : Dev.seekStart n d = (.ok a, t)) : t.faults = d.faults.drop 1 := by
  unfold Dev.seekStart at h
  rw [List.drop_one]
  cases hf : d.nextFault with
  | none => rw [hf] at h; obtain ⟨-, rfl⟩ := Prod.mk.inj h; rfl
  | fail k => rw [hf] at h; cases h

theorem table_ok_faults {m : Mode} {h : Header} {lb : LbSize} {d d' : Dev} {t : PMap} (hr : fileReadPartitions m h lb d = (.ok t, d')) :
    d'.faults = d.faults.drop (if h.numParts = 0 then 2 else h.numParts.toNat + 3) := by
  unfold fileReadPartitions at hr
  simp only [M.bind_ok, M.lift_ok] at hr
  obtain ⟨st, d0, ⟨-, rfl⟩, p1, d1, h1, hr⟩ := hr
  split at hr
  · cases hr
  simp only [M.bind_ok, M.lift_ok] at hr
  obtain ⟨ps, d2, h2, p3, d3, h3, len, d4, ⟨hlen, hd4⟩, table, d5, h5, hr⟩ := hr
  subst d4
  have f1 := seekStart_ok h1
  have f3 := seekStart_ok h3
  have f2 := ((cost_readEntries m h.numParts.toNat 0 0 [] d1).2 ps (by rw [h2])).2.1
  rw [h2] at f2
  simp only at f2
  have f6 : d' = d5 := by
    split at hr
    · cases hr
    · exact (Prod.mk.inj hr).2.symm
  subst f6
  have hp : h.partSize = 128 := Classical.not_not.mp ‹_›
  have hz : len.toNat = h.numParts.toNat * 128 := by
    obtain ⟨r, e1, e2⟩ := checkedMul64_u32 h.numParts h.partSize
    rw [e1] at hlen
    cases hlen
    rw [e2, hp]
    rfl
  have hn : h.numParts = 0 ↔ h.numParts.toNat = 0 := by rw [← UInt32.toNat_inj]; rfl
  unfold Dev.readExact at h5
  by_cases h0 : h.numParts.toNat = 0
  · rw [if_pos (by omega)] at h5
    obtain ⟨-, rfl⟩ := Prod.mk.inj h5
    rw [if_pos (hn.mpr h0), f3, f2, f1, List.drop_drop, List.drop_drop, h0]
  · rw [if_neg (by omega)] at h5
    have f5 : d'.faults = d3.faults.drop 1 := by
      rw [List.drop_one]
      cases hf : d3.nextFault with
      | none =>
        rw [hf] at h5
        simp only at h5
        split at h5
        · obtain ⟨-, rfl⟩ := Prod.mk.inj h5; rfl
        · cases h5
      | fail k => rw [hf] at h5; cases h5
    rw [if_neg (fun h => h0 (hn.mp h)), f5, f3, f2, f1, List.drop_drop, List.drop_drop, List.drop_drop]
    congr 1
    omega

theorem backup_ok_faults {lb : LbSize} {d d' : Dev} {h : Header} (hr : readBackupHeader lb d = (.ok h, d')) : d'.faults = d.faults.drop 7 := by
  have h2 : ∀ n (t : Dev), (((Dev.seekStart n).attempt : M Dev HeaderError _) t).2.faults = t.faults.drop 1 := by
    intro n t
    rw [AtMost.attempt_state, List.drop_one]
    unfold Dev.seekStart
    cases t.nextFault <;> rfl
  have h1 : ((Dev.streamPosition.attempt : M Dev HeaderError _) d).2.faults = d.faults.drop 1 := by
    rw [AtMost.attempt_state, List.drop_one]
    unfold Dev.streamPosition
    cases d.nextFault <;> rfl
  unfold readBackupHeader at hr
  simp only [M.bind_ok, M.lift_ok] at hr
  obtain ⟨c, d1, e1, b, d2, e2, off, d3, ⟨-, hd3⟩, r, d4, e4, w, d5, e5, hr⟩ := hr
  subst d3
  have f6 : d' = d5 := by
    cases r with
    | ok x => exact (Prod.mk.inj hr).2.symm
    | error x => cases hr
  subst f6
  have f5 : d'.faults = d4.faults.drop 1 := by rw [← h2 _ d4, e5]
  have f4 := read_faults off d2
  rw [← AtMost.attempt_state (ε' := HeaderError), e4] at f4
  rw [e1] at h1
  simp only at h1 f4
  have f2 : d2.faults = d1.faults.drop 3 := by
    unfold findBackupLba at e2
    simp only [M.bind_ok, M.mapErr_ok] at e2
    obtain ⟨a, u1, g1, b, u2, g2, e, u3, g3, e2⟩ := e2
    have i1 : u1.faults = d1.faults.drop 1 := by
      unfold Dev.streamPosition at g1
      rw [List.drop_one]
      cases hf : d1.nextFault with
      | none => rw [hf] at g1; obtain ⟨-, rfl⟩ := Prod.mk.inj g1; rfl
      | fail k => rw [hf] at g1; cases g1
    have i2 : u2.faults = u1.faults.drop 1 := by
      unfold Dev.seekEnd at g2
      rw [List.drop_one]
      cases hf : u1.nextFault with
      | none => rw [hf] at g2; obtain ⟨-, rfl⟩ := Prod.mk.inj g2; rfl
      | fail k => rw [hf] at g2; cases g2
    have i3 := seekStart_ok g3
    have i4 : d2 = u3 := by
      split at e2
      · cases e2
      · exact (Prod.mk.inj e2).2.symm
    rw [i4, i3, i2, i1, List.drop_drop, List.drop_drop]
  rw [f5, f4, f2, h1, List.drop_drop, List.drop_drop, List.drop_drop]

/-- **C110**: a device whose headers are both valid is opened in exactly 14 operations and one for each slot of the array, or 13 if there is none. -/
theorem c110_open_exact (m : Mode) (cfg : GptConfig) (d d' : Dev) (s : GptDisk) (hb : Header) (hok : openFromDevice m cfg d = (.ok s, d'))
    (hbk : s.backupHeader = .ok hb) : ∃ h, s.tryHeader = .ok h ∧ d'.faults = d.faults.drop (if h.numParts = 0 then 13 else 14 + h.numParts.toNat) := by
  obtain ⟨h1, h2, e1, e2, e3⟩ := openFromDevice_any m cfg d
  rw [hok] at e3
  cases hsel : selectHeader cfg.onlyValidHeaders h1 h2 with
  | error e => rw [hsel] at e3; cases e3
  | ok h =>
    rw [hsel] at e3
    obtain ⟨f1, f2⟩ := openRest_ok e3.symm
    have p1 : s.primaryHeader = h1 := by rw [f2]
    have p2 : s.backupHeader = h2 := by rw [f2]
    refine ⟨h, by unfold GptDisk.tryHeader; rw [p1, p2]; exact select_try hsel, ?_⟩
    rw [← p2, hbk] at e2
    have g1 := primary_faults cfg.lbSize d
    have g2 := backup_ok_faults (lb := cfg.lbSize) (d := (readPrimaryHeader cfg.lbSize d).2) (h := hb)
      (d' := (readBackupHeader cfg.lbSize (readPrimaryHeader cfg.lbSize d).2).2) (Prod.ext e2.symm rfl)
    rw [table_ok_faults f1, g2, g1, List.drop_drop, List.drop_drop]
    congr 1
    split <;> omega

/-- A disk of 8 blocks with an array of two slots and one partition. -/
def costDisk : GptDisk where
  config := { GptConfig.new with writable := true }
  device := ⟨zeros 4096, 0, 4096, List.replicate 50 .none, []⟩
  guid := ⟨1, 1, 1, 1⟩
  primaryHeader := .ok { seekHeader ⟨1, 1, 1, 1⟩ with currentLba := 1, backupLba := 7, firstUsable := 4, lastUsable := 5, numParts := 2, partSize := 128 }
  backupHeader := .error .invalidGptSignature
  partitions := [(1, exPart 4 5)]
  syncAll := true

/-- The bounds are met: opening `seekImage` (no slots) makes 13 operations, writing `costDisk` 21 and an addition 3. -/
example : (openFromDevice .debug GptConfig.new ⟨seekImage, 0, 1536, List.replicate 50 .none, []⟩).2.faults.length = 50 - 13 ∧
    ((Op.step .debug .writeInplace costDisk).1 = .ok .unit ∧ (Op.step .debug .writeInplace costDisk).2.device.faults.length = 50 - 21) ∧
    opCost costDisk .writeInplace = 21 ∧
    (createFromDevice .debug GptConfig.new none ⟨1, 1, 1, 1⟩ ⟨1, 1, 1, 1⟩ costDisk.device).2.faults.length = 50 - 3 := by
  decide +kernel

end Gpt
