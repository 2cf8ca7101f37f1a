import Verif.Props.Decides
import Verif.Props.Session
import Verif.Lemmas.Bytes
import Verif.Lemmas.Entry
import Mathlib.Data.List.Forall2
/-!
# Names, types, attributes and GUIDs of partitions decide nothing: C137
-/

namespace Gpt

open Spec GptDisk

/-! ## Specification -/

/-- A change of labels: any change of names and attributes, any change of types that keeps used and unused apart, any one-to-one change of
partition GUIDs. -/
structure Spec.Relabel where
  name : String → String
  flags : UInt64 → UInt64
  ty : PType → PType
  guid : Uuid → Uuid
  used : ∀ t, (ty t).guid = Uuid.nil ↔ t.guid = Uuid.nil
  inj : ∀ a b, guid a = guid b → a = b

/-- The partition with its labels changed; it stays where it is. -/
def Spec.Relabel.part (φ : Relabel) (p : Partition) : Partition := ⟨φ.ty p.partType, φ.guid p.partGuid, p.firstLba, p.lastLba, φ.flags p.flags, φ.name p.name⟩

/-- The table with all labels changed: the same ids. -/
def Spec.Relabel.table (φ : Relabel) (t : PMap) : PMap := t.map fun e => (e.1, φ.part e.2)

/-- What was done to the medium, without the bytes: where a write went and how long it was. -/
def Spec.shape : Event → Option (Nat × Nat) × Bool
  | .write off bs => (some (off, bs.length), false)
  | .flush => (none, false)
  | .sync => (none, true)

/-- Two devices that differ in their bytes only: the same size, position and coming failures, and the same has been done to them. -/
structure Spec.DevLike (d d' : Dev) : Prop where
  length : d'.data.length = d.data.length
  pos : d'.pos = d.pos
  cap : d'.cap = d.cap
  faults : d'.faults = d.faults
  log : d'.log.map shape = d.log.map shape

/-- Two headers that differ in their checksums only. -/
def Spec.HdrLike (h h' : Header) : Prop := ∃ a b, h' = { h with crc32 := a, crc32Parts := b }

/-- Both headers could be read (and are alike), or neither could, for the same reason. -/
inductive Spec.ReadLike : Except HeaderError Header → Except HeaderError Header → Prop
  | ok {h h' : Header} : HdrLike h h' → ReadLike (.ok h) (.ok h')
  | error (e : HeaderError) : ReadLike (.error e) (.error e)

/-- Two disks that differ in the labels of their partitions, the bytes of the device and the checksums only. -/
structure Spec.DiskLike (φ : Relabel) (s s' : GptDisk) : Prop where
  config : s'.config = s.config
  guid : s'.guid = s.guid
  sync : s'.syncAll = s.syncAll
  device : DevLike s.device s'.device
  primary : ReadLike s.primaryHeader s'.primaryHeader
  backup : ReadLike s.backupHeader s'.backupHeader
  partitions : s'.partitions = φ.table s.partitions

/-- The same call with other labels. -/
inductive Spec.OpLike (φ : Relabel) : Op → Op → Prop
  | addPartition (n sz t f a r r2) : OpLike φ (.addPartition n sz t f a r r2) (.addPartition (φ.name n) sz (φ.ty t) (φ.flags f) a (φ.guid r) r2)
  | addPartitionAt (n i fl l t f r r2) :
      OpLike φ (.addPartitionAt n i fl l t f r r2) (.addPartitionAt (φ.name n) i fl l (φ.ty t) (φ.flags f) (φ.guid r) r2)
  | removePartition (i) : OpLike φ (.removePartition i) (.removePartition i)
  | removePartitionByGuid (g) : OpLike φ (.removePartitionByGuid g) (.removePartitionByGuid (φ.guid g))
  | takePartitions : OpLike φ .takePartitions .takePartitions
  | updateGuid (u r) : OpLike φ (.updateGuid u r) (.updateGuid u r)
  | updatePartitions (pp r) : OpLike φ (.updatePartitions pp r) (.updatePartitions (φ.table pp) r)
  | updateDiskDevice {d d'} (w) : DevLike d d' → OpLike φ (.updateDiskDevice d w) (.updateDiskDevice d' w)
  | deviceMut {d d'} : DevLike d d' → OpLike φ (.deviceMut d) (.deviceMut d')
  | writeInplace : OpLike φ .writeInplace .writeInplace

/-- The same value up to labels. -/
inductive Spec.ValLike (φ : Relabel) : OpVal → OpVal → Prop
  | unit : ValLike φ .unit .unit
  | id (i) : ValLike φ (.id i) (.id i)
  | optId (i) : ValLike φ (.optId i) (.optId i)
  | parts (t) : ValLike φ (.parts t) (.parts (φ.table t))
  | dev {d d'} : DevLike d d' → ValLike φ (.dev d) (.dev d')

/-- Both succeed, with values in the relation `Q`; or both fail in the same way. -/
inductive Spec.Both {ε α β : Type} (Q : α → β → Prop) : Res ε α → Res ε β → Prop
  | ok {a b} : Q a b → Both Q (.ok a) (.ok b)
  | err (e) : Both Q (.err e) (.err e)
  | panic : Both Q .panic .panic

/-! ## Two programs side by side -/

theorem Spec.Both.refl {ε α : Type} (r : Res ε α) : Both Eq r r := by
  cases r with
  | ok a => exact .ok rfl
  | err e => exact .err e
  | panic => exact .panic

/-- From related states `x` and `y` return related results and end in related states. -/
def M.Abreast {σ σ' ε α β : Type} (R : σ → σ' → Prop) (Q : α → β → Prop) (x : M σ ε α) (y : M σ' ε β) : Prop :=
  ∀ s s', R s s' → Both Q (x s).1 (y s').1 ∧ R (x s).2 (y s').2

namespace M.Abreast
variable {σ σ' ε ε' α β γ δ : Type} {R : σ → σ' → Prop} {Q : α → β → Prop} {Q' : γ → δ → Prop}

theorem bind {x : M σ ε α} {y : M σ' ε β} {k : α → M σ ε γ} {k' : β → M σ' ε δ} (hx : M.Abreast R Q x y)
    (hk : ∀ a b, Q a b → M.Abreast R Q' (k a) (k' b)) : M.Abreast R Q' (x >>= k) (y >>= k') := by
  intro s s' hr
  rw [M.bind_apply, M.bind_apply]
  obtain ⟨h1, h2⟩ := hx s s' hr
  revert h1 h2
  rcases x s with ⟨r, t⟩
  rcases y s' with ⟨r', t'⟩
  intro h1 h2
  cases h1 with
  | ok hq => exact hk _ _ hq t t' h2
  | err e => exact ⟨.err e, h2⟩
  | panic => exact ⟨.panic, h2⟩

/-- The same value goes on. -/
theorem bindEq {x : M σ ε α} {y : M σ' ε α} {k : α → M σ ε γ} {k' : α → M σ' ε δ} (hx : M.Abreast R Eq x y)
    (hk : ∀ a, M.Abreast R Q' (k a) (k' a)) : M.Abreast R Q' (x >>= k) (y >>= k') :=
  hx.bind fun a _ h => h ▸ hk a

theorem get {k : σ → M σ ε γ} {k' : σ' → M σ' ε δ} (hk : ∀ s s', R s s' → M.Abreast R Q' (k s) (k' s')) : M.Abreast R Q' (M.get >>= k) (M.get >>= k') :=
  fun s s' hr => hk s s' hr s s' hr

theorem pure {a : α} {b : β} (h : Q a b) : M.Abreast R Q (Pure.pure a : M σ ε α) (Pure.pure b : M σ' ε β) := fun _ _ hr => ⟨.ok h, hr⟩
theorem lift {r : Res ε α} {r' : Res ε β} (h : Both Q r r') : M.Abreast R Q (M.lift r) (M.lift r') := fun _ _ hr => ⟨h, hr⟩
theorem same (r : Res ε α) : M.Abreast R Eq (M.lift r : M σ ε α) (M.lift r : M σ' ε α) := lift (Both.refl r)
theorem throw (e : ε) : M.Abreast R Q (M.throw e : M σ ε α) (M.throw e : M σ' ε β) := fun _ _ hr => ⟨.err e, hr⟩
theorem panic : M.Abreast R Q (M.panic : M σ ε α) (M.panic : M σ' ε β) := fun _ _ hr => ⟨.panic, hr⟩
theorem modify {f : σ → σ} {g : σ' → σ'} (h : ∀ s s', R s s' → R (f s) (g s')) : M.Abreast R Eq (M.modify f : M σ ε Unit) (M.modify g : M σ' ε Unit) :=
  fun s s' hr => ⟨.ok rfl, h s s' hr⟩

theorem ite {c : Prop} [Decidable c] {x x' : M σ ε α} {y y' : M σ' ε β} (h1 : M.Abreast R Q x y) (h2 : M.Abreast R Q x' y') :
    M.Abreast R Q (if c then x else x') (if c then y else y') := by
  split
  · exact h1
  · exact h2

theorem mapErr {x : M σ ε α} {y : M σ' ε β} (g : ε → ε') (h : M.Abreast R Q x y) : M.Abreast R Q (x.mapErr g) (y.mapErr g) := by
  intro s s' hr
  obtain ⟨h1, h2⟩ := h s s' hr
  refine ⟨?_, h2⟩
  show Both Q ((x s).1.mapErr g) ((y s').1.mapErr g)
  revert h1
  generalize (x s).1 = r
  generalize (y s').1 = r'
  intro h1
  cases h1 with
  | ok hq => exact .ok hq
  | err e => exact .err _
  | panic => exact .panic

theorem mapOk {x : M σ ε α} {y : M σ' ε β} {f : α → γ} {g : β → δ} (h : M.Abreast R Q x y) (hq : ∀ a b, Q a b → Q' (f a) (g b)) :
    M.Abreast R Q' (x.mapOk f) (y.mapOk g) := by
  intro s s' hr
  obtain ⟨h1, h2⟩ := h s s' hr
  refine ⟨?_, h2⟩
  simp only [M.mapOk]
  revert h1
  generalize (x s).1 = r
  generalize (y s').1 = r'
  intro h1
  cases h1 with
  | ok e => exact .ok (hq _ _ e)
  | err e => exact .err _
  | panic => exact .panic

end M.Abreast

/-! ## Devices -/

theorem Spec.DevLike.nextFault {d d' : Dev} (h : DevLike d d') : d'.nextFault = d.nextFault := by rw [Dev.nextFault, Dev.nextFault, h.faults]

theorem Spec.DevLike.tick {d d' : Dev} (h : DevLike d d') : DevLike d.tick d'.tick :=
  ⟨h.length, h.pos, h.cap, by rw [Dev.tick, Dev.tick, h.faults], h.log⟩

theorem Spec.DevLike.at {d d' : Dev} (h : DevLike d d') {n n' : Nat} (e : n' = n) : DevLike { d with pos := n } { d' with pos := n' } :=
  ⟨h.length, e, h.cap, h.faults, h.log⟩

theorem Spec.DevLike.put {d d' : Dev} (h : DevLike d d') {b b' : Bytes} (e : b'.length = b.length) : DevLike (d.put b) (d'.put b') := by
  unfold Dev.put
  have iff : b' = [] ↔ b = [] := by rw [← List.length_eq_zero_iff, ← List.length_eq_zero_iff, e]
  by_cases hb : b = []
  · rw [if_pos hb, if_pos (iff.mpr hb)]
    exact h
  · rw [if_neg hb, if_neg (fun x => hb (iff.mp x))]
    refine ⟨?_, ?_, h.cap, h.faults, ?_⟩
    · show (patch _ _ _).length = (patch _ _ _).length
      rw [patch_length, patch_length, h.length, h.pos, e]
    · show _ + _ = _ + _
      rw [h.pos, e]
    · show List.map shape (_ ++ _) = List.map shape (_ ++ _)
      rw [List.map_append, List.map_append, h.log]
      simp only [List.map_cons, List.map_nil, shape, e, h.pos]

theorem seekStart_abreast (n : UInt64) : M.Abreast DevLike Eq (Dev.seekStart n) (Dev.seekStart n) := by
  intro d d' h
  unfold Dev.seekStart
  rw [h.nextFault]
  cases d.nextFault with
  | none => exact ⟨.ok rfl, h.tick.at rfl⟩
  | fail k => exact ⟨.err _, h.tick⟩

theorem seekEnd_abreast : M.Abreast DevLike Eq Dev.seekEnd Dev.seekEnd := by
  intro d d' h
  unfold Dev.seekEnd
  rw [h.nextFault]
  cases d.nextFault with
  | none => exact ⟨.ok (by rw [h.length]), h.tick.at h.length⟩
  | fail k => exact ⟨.err _, h.tick⟩

theorem streamPosition_abreast : M.Abreast DevLike Eq Dev.streamPosition Dev.streamPosition := by
  intro d d' h
  unfold Dev.streamPosition
  rw [h.nextFault]
  cases d.nextFault with
  | none => exact ⟨.ok (by rw [h.pos]), h.tick⟩
  | fail k => exact ⟨.err _, h.tick⟩

theorem readExact_abreast (n : Nat) : M.Abreast DevLike (fun _ _ => True) (Dev.readExact n) (Dev.readExact n) := by
  intro d d' h
  unfold Dev.readExact
  rw [h.nextFault, h.pos, h.length]
  split
  · exact ⟨.ok trivial, h⟩
  · cases d.nextFault with
    | none =>
      dsimp only
      split
      · exact ⟨.ok trivial, h.tick.at rfl⟩
      · exact ⟨.err _, h.tick.at rfl⟩
    | fail k => exact ⟨.err _, h.tick.at rfl⟩

theorem writeAll_abreast {b b' : Bytes} (e : b'.length = b.length) : M.Abreast DevLike Eq (Dev.writeAll b) (Dev.writeAll b') := by
  intro d d' h
  unfold Dev.writeAll
  have iff : b' = [] ↔ b = [] := by rw [← List.length_eq_zero_iff, ← List.length_eq_zero_iff, e]
  rw [h.nextFault, h.pos, h.cap, e]
  by_cases hb : b = []
  · rw [if_pos hb, if_pos (iff.mpr hb)]
    exact ⟨.ok rfl, h⟩
  · rw [if_neg hb, if_neg (fun x => hb (iff.mp x))]
    cases d.nextFault with
    | none =>
      dsimp only
      split
      · exact ⟨.ok rfl, h.tick.put e⟩
      · exact ⟨.err _, h.tick.put (by rw [List.length_take, List.length_take, e])⟩
    | fail k => exact ⟨.err _, h.tick.put (by rw [List.length_take, List.length_take, e])⟩

theorem Spec.DevLike.noted {d d' : Dev} (h : DevLike d d') (ev : Event) : DevLike { d with log := d.log ++ [ev] } { d' with log := d'.log ++ [ev] } :=
  ⟨h.length, h.pos, h.cap, h.faults, by
    show List.map shape (_ ++ _) = List.map shape (_ ++ _)
    rw [List.map_append, List.map_append, h.log]⟩

theorem flush_abreast : M.Abreast DevLike Eq Dev.flush Dev.flush := by
  intro d d' h
  unfold Dev.flush
  rw [h.nextFault]
  cases d.nextFault with
  | none => exact ⟨.ok rfl, h.tick.noted _⟩
  | fail k => exact ⟨.err _, h.tick⟩

theorem syncAll_abreast : M.Abreast DevLike Eq Dev.syncAll Dev.syncAll := by
  intro d d' h
  unfold Dev.syncAll
  rw [h.nextFault]
  cases d.nextFault with
  | none => exact ⟨.ok rfl, h.tick.noted _⟩
  | fail k => exact ⟨.err _, h.tick⟩

theorem findBackupLba_abreast (lb : LbSize) : M.Abreast DevLike Eq (findBackupLba lb) (findBackupLba lb) := by
  unfold findBackupLba
  exact .bindEq (streamPosition_abreast.mapErr _) fun old => .bindEq (seekEnd_abreast.mapErr _) fun len => .bindEq ((seekStart_abreast _).mapErr _) fun _ =>
    .ite (.throw _) (.pure rfl)

/-! ## Writing entries and headers -/

section
variable {m : Mode} {φ : Relabel} {lb : LbSize}

theorem writeToDevice_abreast (p q : Partition) (i st : UInt64) (n : UInt32) :
    M.Abreast DevLike Eq (Partition.writeToDevice m p i st lb n) (Partition.writeToDevice m q i st lb n) := by
  unfold Partition.writeToDevice
  exact .bindEq (.same _) fun _ => .bindEq (.same _) fun _ => .bindEq (.same _) fun _ => .bindEq (seekStart_abreast _) fun _ =>
    writeAll_abreast (by rw [Partition.asBytes_length, Partition.asBytes_length])

theorem writeZeros_abreast (h : Header) (next : Nat) : M.Abreast DevLike Eq (writeZeros m lb h next) (writeZeros m lb h next) := by
  unfold writeZeros Partition.writeZeroEntries
  have rest : ∀ n, M.Abreast DevLike Eq ((Partition.writeZeroEntries m (UInt64.ofNat next) n h.partStart lb h.partSize).mapErr GptError.io)
      ((Partition.writeZeroEntries m (UInt64.ofNat next) n h.partStart lb h.partSize).mapErr .io) := by
    intro n
    unfold Partition.writeZeroEntries
    exact .mapErr _ (.bindEq (.same _) fun _ => .bindEq (.same _) fun _ => .bindEq (.same _) fun _ => .bindEq (seekStart_abreast _) fun _ =>
      .bindEq (.same _) fun _ => .bindEq (.same _) fun _ => writeAll_abreast rfl)
  cases checkedSub64 h.numParts.toUInt64 (UInt64.ofNat next) with
  | none => exact M.Abreast.bindEq .panic rest
  | some n => exact M.Abreast.bindEq (.pure rfl) rest

theorem writeEntries_abreast (ph : Header) (bh : Option Header) (ps : List Partition) (idx next : Nat) :
    M.Abreast DevLike Eq (writeEntries m lb ph bh ps idx next) (writeEntries m lb ph bh (ps.map φ.part) idx next) := by
  induction ps generalizing idx next with
  | nil => exact .pure rfl
  | cons p ps ih =>
    rw [List.map_cons]
    unfold writeEntries
    refine .ite (.throw _) (.bindEq (.mapErr _ (writeToDevice_abreast _ _ _ _ _)) fun _ => ?_)
    cases bh with
    | none => exact .bindEq (.pure rfl) fun _ => ih _ _
    | some b =>
      dsimp only
      refine .ite (.bindEq (.throw _) fun _ => ih _ _) ?_
      exact .ite (.bindEq (.mapErr _ (writeToDevice_abreast _ _ _ _ _)) fun _ => ih _ _) (.bindEq (.pure rfl) fun _ => ih _ _)

/-- The state of the methods of a header. -/
def HdrDevLike (x y : Header × Dev) : Prop := HdrLike x.1 y.1 ∧ DevLike x.2 y.2

theorem onHdrDev_abreast {ε α β : Type} {Q : α → β → Prop} {x : M Dev ε α} {y : M Dev ε β} (h : M.Abreast DevLike Q x y) :
    M.Abreast HdrDevLike Q (Header.onDev x) (Header.onDev y) := by
  rintro ⟨a, d⟩ ⟨b, d'⟩ ⟨h1, h2⟩
  obtain ⟨e1, e2⟩ := h d d' h2
  exact ⟨e1, h1, e2⟩

theorem partentryChecksum_abreast {h h' : Header} (hh : HdrLike h h') :
    M.Abreast DevLike (fun _ _ => True) (partentryChecksum h lb) (partentryChecksum h' lb) := by
  obtain ⟨a, b, rfl⟩ := hh
  unfold partentryChecksum
  exact .bindEq (.same _) fun _ => .bindEq ((seekStart_abreast _).mapErr _) fun _ => .bindEq (.same _) fun _ => .bindEq (.same _) fun _ =>
    .bind ((readExact_abreast _).mapErr _) fun _ _ _ => .pure trivial

theorem toBytes_both {ε : Type} {h h' : Header} (hh : HdrLike h h') (c c' : UInt32) :
    Both (ε := ε) (fun x y => y.1 = x.1 ∧ y.2.length = x.2.length) (h.toBytes c) (h'.toBytes c') := by
  obtain ⟨a, b, rfl⟩ := hh
  have e : (Header.fieldBytes { h with crc32 := a, crc32Parts := b } c').length = (h.fieldBytes c).length := by
    simp only [Header.fieldBytes, List.length_append]
    rfl
  unfold Header.toBytes
  rw [e]
  split
  · exact .ok ⟨rfl, by rw [resize_length, resize_length]⟩
  · exact .panic

theorem fileWriteHeader_abreast (lba : UInt64) : M.Abreast HdrDevLike Eq (Header.fileWriteHeader lba lb) (Header.fileWriteHeader lba lb) := by
  unfold Header.fileWriteHeader
  refine .get fun s s' hr => ?_
  refine .bind (onHdrDev_abreast (partentryChecksum_abreast hr.1)) fun c c' _ => ?_
  refine .bindEq (.modify ?_) fun _ => ?_
  · rintro s s' ⟨⟨a, b, e⟩, h2⟩
    exact ⟨⟨a, c', by rw [e]⟩, h2⟩
  refine .get fun s s' hr => ?_
  refine .bind (.lift (toBytes_both hr.1 _ _)) ?_
  rintro ⟨n, x⟩ ⟨n', y⟩ ⟨e1, e2⟩
  cases e1
  dsimp only
  refine .bindEq (.modify ?_) fun _ => ?_
  · rintro s s' ⟨⟨a, b, e⟩, h2⟩
    exact ⟨⟨_, b, by rw [e]⟩, h2⟩
  refine .bindEq (.same _) fun _ => .bindEq (onHdrDev_abreast ((seekStart_abreast _).mapErr _)) fun _ => ?_
  refine .bindEq (onHdrDev_abreast ((writeAll_abreast (by rw [resize_length, resize_length])).mapErr _)) fun _ => ?_
  exact .pure (by rw [resize_length, resize_length])

theorem writePrimary_abreast : M.Abreast HdrDevLike Eq (Header.writePrimary lb) (Header.writePrimary lb) := by
  unfold Header.writePrimary
  refine .get ?_
  rintro ⟨h, d⟩ ⟨_, d'⟩ ⟨⟨a, b, rfl⟩, h2⟩
  exact .ite (.throw _) (fileWriteHeader_abreast _)

theorem writeBackup_abreast : M.Abreast HdrDevLike Eq (Header.writeBackup lb) (Header.writeBackup lb) := by
  unfold Header.writeBackup
  refine .get ?_
  rintro ⟨h, d⟩ ⟨_, d'⟩ ⟨⟨a, b, rfl⟩, h2⟩
  exact .ite (.throw _) (fileWriteHeader_abreast _)

theorem Spec.HdrLike.refl (h : Header) : HdrLike h h := ⟨h.crc32, h.crc32Parts, rfl⟩

theorem onDev_abreast {ε ε' α β : Type} {Q : α → β → Prop} (g : ε → ε') {x : M Dev ε α} {y : M Dev ε β} (h : M.Abreast DevLike Q x y) :
    M.Abreast (DiskLike φ) Q (GptDisk.onDev g x) (GptDisk.onDev g y) := by
  intro s s' r
  obtain ⟨e1, e2⟩ := (h.mapErr g) _ _ r.device
  exact ⟨e1, ⟨r.config, r.guid, r.sync, e2, r.primary, r.backup, r.partitions⟩⟩

theorem onBackup_abreast (h : Header) {x y : M (Header × Dev) HeaderError Nat} (hx : M.Abreast HdrDevLike Eq x y) :
    M.Abreast (DiskLike φ) Eq (onBackup h x) (onBackup h y) := by
  intro s s' r
  obtain ⟨e1, e2⟩ := hx (h, s.device) (h, s'.device) ⟨HdrLike.refl h, r.device⟩
  refine ⟨?_, ⟨r.config, r.guid, r.sync, e2.2, r.primary, .ok e2.1, r.partitions⟩⟩
  unfold onBackup
  revert e1
  generalize (x (h, s.device)).1 = a
  generalize (y (h, s'.device)).1 = b
  intro e1
  cases e1 with
  | ok _ => exact .ok rfl
  | err e => exact .err _
  | panic => exact .panic

theorem onPrimary_abreast (h : Header) {x y : M (Header × Dev) HeaderError Nat} (hx : M.Abreast HdrDevLike Eq x y) :
    M.Abreast (DiskLike φ) Eq (onPrimary h x) (onPrimary h y) := by
  intro s s' r
  obtain ⟨e1, e2⟩ := hx (h, s.device) (h, s'.device) ⟨HdrLike.refl h, r.device⟩
  refine ⟨?_, ⟨r.config, r.guid, r.sync, e2.2, .ok e2.1, r.backup, r.partitions⟩⟩
  unfold onPrimary
  revert e1
  generalize (x (h, s.device)).1 = a
  generalize (y (h, s'.device)).1 = b
  intro e1
  cases e1 with
  | ok _ => exact .ok rfl
  | err e => exact .err _
  | panic => exact .panic

/-! ## The table -/

theorem relabel_isUsed (p : Partition) : (φ.part p).isUsed = p.isUsed := by
  have := φ.used p.partType
  have e : PType.unused.guid = Uuid.nil := rfl
  unfold Partition.isUsed
  rw [e]
  show ((φ.ty p.partType).guid != Uuid.nil) = (p.partType.guid != Uuid.nil)
  rw [Bool.eq_iff_iff, bne_iff_ne, bne_iff_ne]
  exact not_congr this

theorem relabel_used (t : PMap) : usedParts (φ.table t) = (usedParts t).map φ.part := by
  induction t with
  | nil => rfl
  | cons e t ih =>
    unfold usedParts Relabel.table at *
    rw [List.map_cons, List.filter_cons, List.filter_cons]
    simp only [relabel_isUsed]
    split
    · simp only [List.map_cons, ih]
    · exact ih

theorem relabel_get (t : PMap) (i : UInt32) : PMap.get (φ.table t) i = (PMap.get t i).map φ.part := by
  unfold PMap.get Relabel.table
  rw [List.find?_map, Option.map_map, Option.map_map]
  rfl

theorem relabel_insert (t : PMap) (i : UInt32) (p : Partition) : PMap.insert i (φ.part p) (φ.table t) = φ.table (PMap.insert i p t) := by
  induction t with
  | nil => rfl
  | cons e t ih =>
    obtain ⟨j, q⟩ := e
    show PMap.insert i (φ.part p) ((j, φ.part q) :: φ.table t) = _
    unfold PMap.insert
    split
    · rfl
    · split
      · rfl
      · rw [ih]
        rfl

theorem relabel_remove (t : PMap) (i : UInt32) : PMap.remove (φ.table t) i = φ.table (PMap.remove t i) := by
  unfold PMap.remove Relabel.table
  rw [List.filter_map]
  rfl

theorem relabel_length (t : PMap) : (φ.table t).length = t.length := List.length_map ..

theorem relabel_nil (t : PMap) : φ.table t = [] ↔ t = [] := List.map_eq_nil_iff

theorem relabel_find (t : PMap) (g : Uuid) : (φ.table t).find? (fun e => e.2.partGuid == φ.guid g) =
    (t.find? (fun e => e.2.partGuid == g)).map fun e => (e.1, φ.part e.2) := by
  unfold Relabel.table
  rw [List.find?_map]
  congr 2
  funext e
  show (φ.guid e.2.partGuid == φ.guid g) = (e.2.partGuid == g)
  rw [Bool.eq_iff_iff, beq_iff_eq, beq_iff_eq]
  exact ⟨φ.inj _ _, fun h => by rw [h]⟩

theorem relabel_positions (lo hi : UInt64) (t : PMap) : diskPositions lo hi (φ.table t) = diskPositions lo hi t := by
  unfold diskPositions
  rw [relabel_used, List.flatMap_map]
  rfl

theorem relabel_nextId (t : PMap) (n : Nat) (i : UInt32) : nextIdLoop (φ.table t) n i = nextIdLoop t n i := by
  induction n generalizing i with
  | zero => rfl
  | succ n ih =>
    unfold nextIdLoop
    rw [relabel_get]
    cases PMap.get t i with
    | none => rfl
    | some p =>
      show (if (φ.part p).isUsed = true then _ else _) = _
      rw [relabel_isUsed, ih]

/-! ## The calls -/

theorem tryHeader_like {s s' : GptDisk} (r : DiskLike φ s s') : ReadLike s.tryHeader s'.tryHeader := by
  have h1 := r.primary
  have h2 := r.backup
  unfold tryHeader
  revert h1 h2
  generalize s.primaryHeader = a
  generalize s'.primaryHeader = a'
  generalize s.backupHeader = b
  generalize s'.backupHeader = b'
  intro h1 h2
  cases h1 with
  | ok e => exact .ok e
  | error e =>
    cases h2 with
    | ok e => exact .ok e
    | error e => exact .error _

theorem header_like {ε : Type} {s s' : GptDisk} (r : DiskLike φ s s') : Both (ε := ε) HdrLike s.header s'.header := by
  have h := tryHeader_like r
  unfold GptDisk.header
  revert h
  generalize s.tryHeader = a
  generalize s'.tryHeader = a'
  intro h
  cases h with
  | ok e => exact .ok e
  | error e => exact .panic

theorem fromMaybeHeader_like {s s' : GptDisk} (r : DiskLike φ s s') (fresh : Uuid) :
    HeaderBuilder.fromMaybeHeader s'.tryHeader fresh = HeaderBuilder.fromMaybeHeader s.tryHeader fresh := by
  have h := tryHeader_like r
  revert h
  generalize s.tryHeader = a
  generalize s'.tryHeader = a'
  intro h
  cases h with
  | ok e =>
    obtain ⟨a, b, rfl⟩ := e
    rfl
  | error e => rfl

theorem findFreeSectors_like {ε : Type} {s s' : GptDisk} (r : DiskLike φ s s') : (s'.findFreeSectors m : Res ε _) = s.findFreeSectors m := by
  have h := header_like (ε := ε) r
  unfold findFreeSectors
  rw [r.partitions]
  simp only [relabel_positions]
  revert h
  generalize (s.header : Res ε Header) = a
  generalize (s'.header : Res ε Header) = a'
  intro h
  cases h with
  | ok e =>
    obtain ⟨a, b, rfl⟩ := e
    rfl
  | err e => rfl
  | panic => rfl

theorem findNextPartitionId_like {ε : Type} {s s' : GptDisk} (r : DiskLike φ s s') : (s'.findNextPartitionId : Res ε _) = s.findNextPartitionId := by
  have h := header_like (ε := ε) r
  unfold findNextPartitionId
  rw [r.partitions]
  simp only [relabel_nextId, relabel_nil]
  revert h
  generalize (s.header : Res ε Header) = a
  generalize (s'.header : Res ε Header) = a'
  intro h
  cases h with
  | ok e =>
    obtain ⟨a, b, rfl⟩ := e
    rfl
  | err e => rfl
  | panic => rfl

theorem Spec.DiskLike.setPrimary {s s' : GptDisk} (r : DiskLike φ s s') (h : Header) :
    DiskLike φ { s with primaryHeader := .ok h } { s' with primaryHeader := .ok h } :=
  ⟨r.config, r.guid, r.sync, r.device, .ok (HdrLike.refl h), r.backup, r.partitions⟩

theorem Spec.DiskLike.setBackup {s s' : GptDisk} (r : DiskLike φ s s') (h : Header) :
    DiskLike φ { s with backupHeader := .ok h } { s' with backupHeader := .ok h } :=
  ⟨r.config, r.guid, r.sync, r.device, r.primary, .ok (HdrLike.refl h), r.partitions⟩

theorem Spec.DiskLike.setTable {s s' : GptDisk} (r : DiskLike φ s s') {t t' : PMap} (e : t' = φ.table t) :
    DiskLike φ { s with partitions := t } { s' with partitions := t' } :=
  ⟨r.config, r.guid, r.sync, r.device, r.primary, r.backup, e⟩

theorem initHeaders_abreast (fresh : Uuid) : M.Abreast (DiskLike φ) Eq (initHeaders m fresh) (initHeaders m fresh) := by
  unfold initHeaders
  refine .get fun s s' r => ?_
  rw [r.config, r.guid, r.partitions, relabel_length, fromMaybeHeader_like r]
  refine .bindEq (onDev_abreast _ (findBackupLba_abreast _)) fun bak => .bindEq (.same _) fun h1 => ?_
  refine .bindEq (.modify fun _ _ r => r.setPrimary h1) fun _ => ?_
  exact .ite (.pure rfl) (.bindEq (.same _) fun h2 => .modify fun _ _ r => r.setBackup h2)

theorem insertPartition_abreast (name : String) (id : UInt32) (first length : UInt64) (ty : PType) (flags : UInt64) (fresh fresh2 : Uuid) :
    M.Abreast (DiskLike φ) Eq (insertPartition m name id first length ty flags fresh fresh2)
      (insertPartition m (φ.name name) id first length (φ.ty ty) (φ.flags flags) (φ.guid fresh) fresh2) := by
  unfold insertPartition
  refine .bindEq (.same _) fun e => .bindEq (.same _) fun last => .get fun s s' r => .bind (.lift (header_like r)) ?_
  rintro h _ ⟨a, b, rfl⟩
  rw [r.config]
  refine .ite (.throw _) (.bindEq (.modify fun s s' r => r.setTable ?_) fun _ => ?_)
  · rw [r.partitions]
    exact relabel_insert _ _ ⟨ty, fresh, first, last, flags, name⟩
  · exact .ite (.bindEq (initHeaders_abreast _) fun _ => .pure rfl) (.pure rfl)

theorem addPartitionLoop_abreast (name : String) (n : UInt64) (ty : PType) (flags : UInt64) (align : Option UInt64) (fresh fresh2 : Uuid)
    (L : List (UInt64 × UInt64)) : M.Abreast (DiskLike φ) Eq (addPartitionLoop m name n ty flags align fresh fresh2 L)
      (addPartitionLoop m (φ.name name) n (φ.ty ty) (φ.flags flags) align (φ.guid fresh) fresh2 L) := by
  induction L with
  | nil => exact .throw _
  | cons sec rest ih =>
    unfold addPartitionLoop
    refine .bindEq (.same _) fun off => .bindEq (.same _) fun need => .ite (.bindEq (.same _) fun st => .get fun s s' r => ?_) ih
    rw [findNextPartitionId_like r]
    refine .bindEq (.same _) fun id? => ?_
    cases id? with
    | some i => exact .bindEq (.pure rfl) fun id => insertPartition_abreast _ _ _ _ _ _ _ _
    | none =>
      dsimp only
      refine .bind (.lift (header_like r)) ?_
      rintro h _ ⟨a, b, rfl⟩
      exact .bindEq (.same _) fun id => insertPartition_abreast _ _ _ _ _ _ _ _

theorem addPartition_abreast (name : String) (size : UInt64) (ty : PType) (flags : UInt64) (align : Option UInt64) (fresh fresh2 : Uuid) :
    M.Abreast (DiskLike φ) Eq (addPartition m name size ty flags align fresh fresh2)
      (addPartition m (φ.name name) size (φ.ty ty) (φ.flags flags) align (φ.guid fresh) fresh2) := by
  unfold addPartition
  refine .ite .panic (.get fun s s' r => ?_)
  rw [r.config, findFreeSectors_like r]
  exact .bindEq (.same _) fun _ => .bindEq (.same _) fun _ => .bindEq (.same _) fun _ => addPartitionLoop_abreast _ _ _ _ _ _ _ _

theorem addPartitionAtLoop_abreast (name : String) (id : UInt32) (first length : UInt64) (ty : PType) (flags : UInt64) (fresh fresh2 : Uuid)
    (L : List (UInt64 × UInt64)) : M.Abreast (DiskLike φ) Eq (addPartitionAtLoop m name id first length ty flags fresh fresh2 L)
      (addPartitionAtLoop m (φ.name name) id first length (φ.ty ty) (φ.flags flags) (φ.guid fresh) fresh2 L) := by
  induction L with
  | nil => exact .throw _
  | cons sec rest ih =>
    unfold addPartitionAtLoop
    exact .ite (insertPartition_abreast _ _ _ _ _ _ _ _) ih

theorem addPartitionAt_abreast (name : String) (id : UInt32) (first length : UInt64) (ty : PType) (flags : UInt64) (fresh fresh2 : Uuid) :
    M.Abreast (DiskLike φ) Eq (addPartitionAt m name id first length ty flags fresh fresh2)
      (addPartitionAt m (φ.name name) id first length (φ.ty ty) (φ.flags flags) (φ.guid fresh) fresh2) := by
  unfold addPartitionAt
  refine .ite .panic (.ite .panic (.get fun s s' r => ?_))
  have e : (PMap.get s'.partitions id).any (·.isUsed) = (PMap.get s.partitions id).any (·.isUsed) := by
    rw [r.partitions, relabel_get]
    cases PMap.get s.partitions id with
    | none => rfl
    | some p => exact relabel_isUsed p
  rw [e, findFreeSectors_like r]
  exact .ite (.throw _) (.bindEq (.same _) fun _ => addPartitionAtLoop_abreast _ _ _ _ _ _ _ _ _)

theorem updatePartitions_abreast (pp : PMap) (fresh : Uuid) :
    M.Abreast (DiskLike φ) Eq (updatePartitions m pp fresh) (updatePartitions m (φ.table pp) fresh) := by
  unfold updatePartitions
  rw [relabel_get, Option.isSome_map, relabel_length]
  refine .ite .panic (.get fun s s' r => .bind (.lift (header_like r)) ?_)
  rintro h _ ⟨a, b, rfl⟩
  rw [r.config]
  exact .ite (.throw _) (.bindEq (.modify fun s s' r => r.setTable rfl) fun _ => initHeaders_abreast _)

theorem writeInplace_abreast : M.Abreast (DiskLike φ) Eq (writeInplace m) (writeInplace m) := by
  unfold writeInplace
  refine .get fun s s' r => ?_
  rw [r.config, r.sync, r.partitions, relabel_used]
  refine .ite (.throw _) ?_
  dsimp only
  refine .bindEq (onDev_abreast _ (findBackupLba_abreast _)) fun _ => .bind (.lift (header_like r)) ?_
  rintro h _ ⟨a, b, rfl⟩
  refine .bindEq (.same _) fun ph => .bindEq (.modify fun _ _ r => r.setPrimary ph) fun _ => ?_
  have fin : M.Abreast (DiskLike φ) Eq (do
      onPrimary ph (Header.writePrimary s.config.lbSize)
      GptDisk.onDev GptError.io Dev.flush
      if s.syncAll = true then GptDisk.onDev GptError.io Dev.syncAll else pure ()) (do
      onPrimary ph (Header.writePrimary s.config.lbSize)
      GptDisk.onDev GptError.io Dev.flush
      if s.syncAll = true then GptDisk.onDev GptError.io Dev.syncAll else pure ()) :=
    .bindEq (onPrimary_abreast _ writePrimary_abreast) fun _ => .bindEq (onDev_abreast _ flush_abreast) fun _ =>
      .ite (onDev_abreast _ syncAll_abreast) (.pure rfl)
  refine .ite (.bindEq (.pure rfl) fun bh => ?_) (.bindEq (.same _) fun bh => .bindEq (.modify fun _ _ r => r.setBackup bh) fun _ => .bindEq (.pure rfl) fun bh => ?_)
  all_goals
    refine .bindEq (onDev_abreast _ (writeEntries_abreast _ _ _ _ _)) fun next => .bindEq (onDev_abreast _ (writeZeros_abreast _ _)) fun _ => ?_
    cases bh with
    | none => exact fin
    | some bh =>
      exact .bindEq (onDev_abreast _ (writeZeros_abreast _ _)) fun _ => .bindEq (onBackup_abreast _ writeBackup_abreast) fun _ => fin

/-- **C137**, one call. On disks that differ in labels only, the same call with other labels returns the same (up to labels), or fails in the
same way, and leaves disks that differ in labels only. -/
theorem c137_call {s s' : GptDisk} (r : DiskLike φ s s') {op op' : Op} (ho : OpLike φ op op') :
    Both (ValLike φ) (op.step m s).1 (op'.step m s').1 ∧ DiskLike φ (op.step m s).2 (op'.step m s').2 := by
  cases ho with
  | addPartition => exact M.Abreast.mapOk (addPartition_abreast _ _ _ _ _ _ _) (fun a b e => e ▸ .id a) s s' r
  | addPartitionAt => exact M.Abreast.mapOk (addPartitionAt_abreast _ _ _ _ _ _ _ _) (fun a b e => e ▸ .id a) s s' r
  | removePartition i =>
    refine M.Abreast.mapOk (Q := Eq) ?_ (fun a b e => e ▸ .optId a) s s' r
    intro s s' r
    unfold removePartition
    rw [r.partitions, relabel_get]
    cases PMap.get s.partitions i with
    | none => exact ⟨.ok rfl, r⟩
    | some p => exact ⟨.ok rfl, r.setTable (relabel_remove _ _)⟩
  | removePartitionByGuid g =>
    refine M.Abreast.mapOk (Q := Eq) ?_ (fun a b e => e ▸ .optId a) s s' r
    intro s s' r
    unfold removePartitionByGuid
    rw [r.partitions, relabel_find]
    cases s.partitions.find? (fun e => e.2.partGuid == g) with
    | none => exact ⟨.ok rfl, r⟩
    | some p => exact ⟨.ok rfl, r.setTable (relabel_remove _ _)⟩
  | takePartitions =>
    refine M.Abreast.mapOk (Q := fun t t' => t' = φ.table t) ?_ (fun a b e => e ▸ .parts a) s s' r
    intro s s' r
    exact ⟨.ok r.partitions, r.setTable rfl⟩
  | updateGuid u f => exact ⟨.ok .unit, ⟨r.config, rfl, r.sync, r.device, r.primary, r.backup, r.partitions⟩⟩
  | updatePartitions => exact M.Abreast.mapOk (updatePartitions_abreast _ _) (fun _ _ _ => .unit) s s' r
  | updateDiskDevice w hd =>
    exact ⟨.ok (.dev r.device), ⟨by show { s'.config with writable := w } = _; rw [r.config]; rfl, r.guid, r.sync, hd, r.primary, r.backup, r.partitions⟩⟩
  | deviceMut hd => exact ⟨.ok .unit, ⟨r.config, r.guid, r.sync, hd, r.primary, r.backup, r.partitions⟩⟩
  | writeInplace => exact M.Abreast.mapOk writeInplace_abreast (fun _ _ _ => .unit) s s' r

/-- **C137**, any history. -/
theorem c137_run {s s' : GptDisk} (r : DiskLike φ s s') {ops ops' : List Op} (ho : List.Forall₂ (OpLike φ) ops ops') :
    List.Forall₂ (Both (ValLike φ)) (outcomes m ops s) (outcomes m ops' s') ∧ DiskLike φ (runOps m ops s) (runOps m ops' s') := by
  induction ho generalizing s s' with
  | nil => exact ⟨.nil, r⟩
  | cons h _ ih =>
    obtain ⟨a, b⟩ := c137_call (m := m) r h
    obtain ⟨c, e⟩ := ih b
    exact ⟨.cons a c, e⟩

/-- **C137**, places. The tables have the same ids in the same blocks, and the device was written in the same places. -/
theorem c137_places {s s' : GptDisk} (r : DiskLike φ s s') {ops ops' : List Op} (ho : List.Forall₂ (OpLike φ) ops ops') :
    (runOps m ops' s').partitions.map (fun e => (e.1, e.2.firstLba, e.2.lastLba, e.2.isUsed)) =
      (runOps m ops s).partitions.map (fun e => (e.1, e.2.firstLba, e.2.lastLba, e.2.isUsed)) ∧
    (runOps m ops' s').device.log.map shape = (runOps m ops s).device.log.map shape := by
  have e := (c137_run (m := m) r ho).2
  refine ⟨?_, e.device.log⟩
  rw [e.partitions, Relabel.table, List.map_map]
  refine List.map_congr_left fun x _ => ?_
  show (x.1, x.2.firstLba, x.2.lastLba, (φ.part x.2).isUsed) = _
  rw [relabel_isUsed]

/-- Without change a disk is like itself. -/
theorem Spec.DevLike.refl (d : Dev) : DevLike d d := ⟨rfl, rfl, rfl, rfl, rfl⟩

/-- **C137**, from one disk. The labels of the table may be changed on any disk. -/
theorem c137_start (φ : Relabel) (s : GptDisk) : DiskLike φ s { s with partitions := φ.table s.partitions } := by
  have h : ∀ x : Except HeaderError Header, ReadLike x x := fun x => by
    cases x with
    | ok h => exact .ok (HdrLike.refl h)
    | error e => exact .error e
  exact ⟨rfl, rfl, rfl, DevLike.refl _, h _, h _, rfl⟩

end

/-! ## The hypotheses are met -/

/-- All names become "x", all attributes are set, all used partitions get one type, the GUIDs `Uuid.nil` and that of the type change places. -/
def exRelabel : Relabel where
  name _ := "x"
  flags _ := 0xffffffffffffffff
  ty t := if t.guid = Uuid.nil then t else (exPart 0 0).partType
  guid u := if u = Uuid.nil then (exPart 0 0).partType.guid else if u = (exPart 0 0).partType.guid then Uuid.nil else u
  used t := by
    by_cases h : t.guid = Uuid.nil
    · simp only [if_pos h]
    · simp only [if_neg h]
      exact ⟨fun h2 => absurd h2 (by decide), fun h2 => absurd h2 h⟩
  inj a b := by
    have : (exPart 0 0).partType.guid ≠ Uuid.nil := by decide
    split <;> split <;> (try split) <;> (try split) <;> intro h <;> simp_all

def labelOps : List Op := [.addPartition "b" 1024 (exPart 0 0).partType 0 none Uuid.nil Uuid.nil, .writeInplace, .removePartitionByGuid Uuid.nil]

def labelOps' : List Op := [.addPartition "x" 1024 (exPart 0 0).partType 0xffffffffffffffff none (exPart 0 0).partType.guid Uuid.nil, .writeInplace,
  .removePartitionByGuid (exPart 0 0).partType.guid]

/-- The histories are related, and the labels really differ. -/
theorem labelOps_like : List.Forall₂ (OpLike exRelabel) labelOps labelOps' := by
  have h1 : exRelabel.ty (exPart 0 0).partType = (exPart 0 0).partType := by decide
  have h2 : exRelabel.guid Uuid.nil = (exPart 0 0).partType.guid := by decide
  refine .cons ?_ (.cons .writeInplace (.cons ?_ .nil))
  · have := OpLike.addPartition (φ := exRelabel) "b" 1024 (exPart 0 0).partType 0 none Uuid.nil Uuid.nil
    rw [h1, h2] at this
    exact this
  · have := OpLike.removePartitionByGuid (φ := exRelabel) Uuid.nil
    rw [h2] at this
    exact this

/-- `c137_run` and `c137_places` from a disk with a partition "a". -/
example (m : Mode) :
    ({ sessDisk m with partitions := exRelabel.table (sessDisk m).partitions } : GptDisk).partitions =
      [(1, ⟨(exPart 0 0).partType, (exPart 0 0).partType.guid, 34, 35, 0xffffffffffffffff, "x"⟩)] ∧
    List.Forall₂ (Both (ValLike exRelabel)) (outcomes m labelOps (sessDisk m))
      (outcomes m labelOps' { sessDisk m with partitions := exRelabel.table (sessDisk m).partitions }) ∧
    (runOps m labelOps' { sessDisk m with partitions := exRelabel.table (sessDisk m).partitions }).device.log.map shape =
      (runOps m labelOps (sessDisk m)).device.log.map shape := by
  have r := c137_start exRelabel (sessDisk m)
  refine ⟨?_, (c137_run r labelOps_like).1, (c137_places r labelOps_like).2⟩
  show exRelabel.table (sessDisk m).partitions = _
  rw [sessDisk_partitions]
  decide

end Gpt
