import Verif.Props.Seen
import Verif.Lemmas.Open
import Verif.Lemmas.Frame
import Verif.Model.File
import Verif.Model.Mbr
/-!
# C96: the position of the stream does not matter

Every function of the library goes to the place it works on before it reads or writes, so the position at which a caller left the device has
no influence, except after a failed seek that is ignored (`file_read_header`).
-/

namespace Gpt

open GptDisk

namespace Spec

/-- The same device, but for the position of the stream. -/
structure Moved (d d' : Dev) : Prop where
  data : d.data = d'.data
  cap : d.cap = d'.cap
  faults : d.faults = d'.faults
  log : d.log = d'.log

/-- The same disk, but for the position of the stream. -/
structure MovedDisk (s s' : GptDisk) : Prop where
  device : Moved s.device s'.device
  rest : { s with device := s'.device } = s'

/-- The same value returned; a device returned may be at another position. -/
def SameVal : Res GptError OpVal → Res GptError OpVal → Prop
  | .ok (.dev d), .ok (.dev d') => Moved d d'
  | r, r' => r = r'

/-- The same from two lists of results. -/
def SameVals : List (Res GptError OpVal) → List (Res GptError OpVal) → Prop := List.Forall₂ SameVal

end Spec

open Spec

theorem Moved.refl (d : Dev) : Moved d d := ⟨rfl, rfl, rfl, rfl⟩

/-- From devices related by `Q`, the programs return the same and leave devices that differ in position only. -/
structure Par (Q : Dev → Dev → Prop) {ε α : Type} (x y : M Dev ε α) : Prop where
  run : ∀ d d', Q d d' → (x d).1 = (y d').1 ∧ Moved (x d).2 (y d').2

/-- From the same device. -/
abbrev Synced {ε α : Type} (x y : M Dev ε α) : Prop := Par Eq x y
/-- From devices that differ in position. -/
abbrev Loose {ε α : Type} (x y : M Dev ε α) : Prop := Par Moved x y

section
variable {ε ε' α β : Type}

theorem Par.synced {x y : M Dev ε α} (h : Loose x y) : Synced x y := ⟨fun d d' e => h.run d d' (e ▸ Moved.refl d)⟩
theorem Synced.same (x : M Dev ε α) : Synced x x := ⟨fun d d' e => by subst e; exact ⟨rfl, Moved.refl _⟩⟩

theorem Par.pure (a : α) : Loose (Pure.pure a : M Dev ε α) (Pure.pure a) := ⟨fun _ _ h => ⟨rfl, h⟩⟩
theorem Par.throw (e : ε) : Loose (M.throw e : M Dev ε α) (M.throw e) := ⟨fun _ _ h => ⟨rfl, h⟩⟩
theorem Par.panic : Loose (M.panic : M Dev ε α) M.panic := ⟨fun _ _ h => ⟨rfl, h⟩⟩
theorem Par.lift (r : Res ε α) : Loose (M.lift r : M Dev ε α) (M.lift r) := ⟨fun _ _ h => ⟨rfl, h⟩⟩

theorem Par.bind {Q : Dev → Dev → Prop} {x y : M Dev ε α} {f g : α → M Dev ε β} (h : Par Q x y) (k : ∀ a, Loose (f a) (g a)) :
    Par Q (x >>= f) (y >>= g) := by
  refine ⟨fun s s' hs => ?_⟩
  obtain ⟨h1, h2⟩ := h.run s s' hs
  simp only [M.bind_apply]
  rcases hx : x s with ⟨r, t⟩
  rcases hy : y s' with ⟨r', t'⟩
  rw [hx, hy] at h1 h2
  simp only at h1 h2
  subst h1
  cases r with
  | ok a => exact (k a).run t t' h2
  | err e => exact ⟨rfl, h2⟩
  | panic => exact ⟨rfl, h2⟩

theorem Par.bindSame {x : M Dev ε α} {f g : α → M Dev ε β} (k : ∀ a, Synced (f a) (g a)) : Synced (x >>= f) (x >>= g) := by
  refine ⟨fun s s' hs => ?_⟩
  subst hs
  simp only [M.bind_apply]
  rcases x s with ⟨r, t⟩
  cases r with
  | ok a => exact (k a).run t t rfl
  | err e => exact ⟨rfl, Moved.refl _⟩
  | panic => exact ⟨rfl, Moved.refl _⟩

theorem Par.mapErr {Q : Dev → Dev → Prop} (g : ε → ε') {x y : M Dev ε α} (h : Par Q x y) : Par Q (x.mapErr g) (y.mapErr g) :=
  ⟨fun d d' hd => ⟨congrArg (Res.mapErr g) (h.run d d' hd).1, (h.run d d' hd).2⟩⟩

theorem Par.attempt {Q : Dev → Dev → Prop} {x y : M Dev ε α} (h : Par Q x y) : Par Q (x.attempt : M Dev ε' _) y.attempt := by
  refine ⟨fun d d' hd => ?_⟩
  obtain ⟨h1, h2⟩ := h.run d d' hd
  unfold M.attempt
  rcases hx : x d with ⟨r, t⟩
  rcases hy : y d' with ⟨r', t'⟩
  rw [hx, hy] at h1 h2
  simp only at h1 h2
  subst h1
  cases r <;> exact ⟨rfl, h2⟩

theorem Par.ite {Q : Dev → Dev → Prop} {c : Prop} [Decidable c] {x y x' y' : M Dev ε α} (h1 : Par Q x y) (h2 : Par Q x' y') :
    Par Q (if c then x else x') (if c then y else y') := by
  split <;> assumption

theorem moved_next {d d' : Dev} (h : Moved d d') : d.nextFault = d'.nextFault := by unfold Dev.nextFault; rw [h.faults]

/-- After a successful seek both are at the same place. -/
theorem Loose.seek (e : IoErr → ε) (n : UInt64) {f g : UInt64 → M Dev ε β} (k : Synced (f n) (g n)) :
    Loose ((Dev.seekStart n).mapErr e >>= f) ((Dev.seekStart n).mapErr e >>= g) := by
  refine ⟨fun d d' h => ?_⟩
  simp only [M.bind_apply, M.mapErr_apply]
  unfold Dev.seekStart
  rw [moved_next h]
  cases d'.nextFault with
  | fail i => exact ⟨rfl, h.data, h.cap, congrArg List.tail h.faults, h.log⟩
  | none =>
    refine k.run _ _ ?_
    obtain ⟨h1, h2, h3, h4⟩ := h
    cases d; cases d'
    simp only at h1 h2 h3 h4
    subst h1 h2 h3 h4
    rfl

theorem Loose.seekEnd (e : IoErr → ε) {f g : UInt64 → M Dev ε β} (k : ∀ n, Synced (f n) (g n)) :
    Loose (Dev.seekEnd.mapErr e >>= f) (Dev.seekEnd.mapErr e >>= g) := by
  refine ⟨fun d d' h => ?_⟩
  simp only [M.bind_apply, M.mapErr_apply]
  unfold Dev.seekEnd
  rw [moved_next h]
  cases d'.nextFault with
  | fail i => exact ⟨rfl, h.data, h.cap, congrArg List.tail h.faults, h.log⟩
  | none =>
    obtain ⟨h1, h2, h3, h4⟩ := h
    cases d; cases d'
    simp only at h1 h2 h3 h4
    subst h1 h2 h3 h4
    exact (k _).run _ _ rfl

/-- The position is asked for; it differs. -/
theorem Loose.pos (e : IoErr → ε) {f g : UInt64 → M Dev ε β} (k : ∀ c c', Loose (f c) (g c')) :
    Loose (Dev.streamPosition.mapErr e >>= f) (Dev.streamPosition.mapErr e >>= g) := by
  refine ⟨fun d d' h => ?_⟩
  simp only [M.bind_apply, M.mapErr_apply]
  unfold Dev.streamPosition
  rw [moved_next h]
  have ht : Moved d.tick d'.tick := ⟨h.data, h.cap, congrArg List.tail h.faults, h.log⟩
  cases d'.nextFault with
  | fail i => exact ⟨rfl, ht⟩
  | none => exact (k _ _).run _ _ ht

theorem Loose.posTry {f g : Except IoErr UInt64 → M Dev ε β} (k : ∀ c c', Loose (f c) (g c')) :
    Loose ((Dev.streamPosition.attempt : M Dev ε _) >>= f) (Dev.streamPosition.attempt >>= g) := by
  refine ⟨fun d d' h => ?_⟩
  simp only [M.bind_apply]
  unfold M.attempt Dev.streamPosition
  rw [moved_next h]
  have ht : Moved d.tick d'.tick := ⟨h.data, h.cap, congrArg List.tail h.faults, h.log⟩
  cases d'.nextFault with
  | fail i => exact (k _ _).run _ _ ht
  | none => exact (k _ _).run _ _ ht

/-- Going back to where the stream was: to different places. -/
theorem Loose.back (e : IoErr → ε) (c c' : UInt64) {f g : UInt64 → M Dev ε β} (k : ∀ a b, Loose (f a) (g b)) :
    Loose ((Dev.seekStart c).mapErr e >>= f) ((Dev.seekStart c').mapErr e >>= g) := by
  refine ⟨fun d d' h => ?_⟩
  simp only [M.bind_apply, M.mapErr_apply]
  unfold Dev.seekStart
  rw [moved_next h]
  have ht : Moved d.tick d'.tick := ⟨h.data, h.cap, congrArg List.tail h.faults, h.log⟩
  cases d'.nextFault with
  | fail i => exact ⟨rfl, ht⟩
  | none => exact (k _ _).run _ _ ⟨ht.data, ht.cap, ht.faults, ht.log⟩

theorem Loose.backTry (c c' : UInt64) {f g : Except IoErr UInt64 → M Dev ε β} (k : ∀ a b, Loose (f a) (g b)) :
    Loose (((Dev.seekStart c).attempt : M Dev ε _) >>= f) ((Dev.seekStart c').attempt >>= g) := by
  refine ⟨fun d d' h => ?_⟩
  simp only [M.bind_apply]
  unfold M.attempt Dev.seekStart
  rw [moved_next h]
  have ht : Moved d.tick d'.tick := ⟨h.data, h.cap, congrArg List.tail h.faults, h.log⟩
  cases d'.nextFault with
  | fail i => exact (k _ _).run _ _ ht
  | none => exact (k _ _).run _ _ ⟨ht.data, ht.cap, ht.faults, ht.log⟩

end

theorem M.mapErr_self {σ ε α : Type} (x : M σ ε α) : x.mapErr (fun e => e) = x := by
  funext s
  unfold M.mapErr
  rcases x s with ⟨r, t⟩
  cases r <;> rfl

theorem Loose.seek' {β : Type} (n : UInt64) {f g : UInt64 → M Dev IoErr β} (k : Synced (f n) (g n)) :
    Loose (Dev.seekStart n >>= f) (Dev.seekStart n >>= g) := by
  have := Loose.seek (fun e => e) n k
  rwa [M.mapErr_self] at this

theorem Loose.pos' {β : Type} {f g : UInt64 → M Dev IoErr β} (k : ∀ c c', Loose (f c) (g c')) :
    Loose (Dev.streamPosition >>= f) (Dev.streamPosition >>= g) := by
  have := Loose.pos (fun e => e) k
  rwa [M.mapErr_self] at this

theorem Loose.back' {β : Type} (c c' : UInt64) {f g : UInt64 → M Dev IoErr β} (k : ∀ a b, Loose (f a) (g b)) :
    Loose (Dev.seekStart c >>= f) (Dev.seekStart c' >>= g) := by
  have := Loose.back (fun e => e) c c' k
  rwa [M.mapErr_self, M.mapErr_self] at this

theorem loose_flush : Loose Dev.flush Dev.flush := by
  refine ⟨fun d d' h => ?_⟩
  unfold Dev.flush
  rw [moved_next h]
  cases d'.nextFault with
  | fail i => exact ⟨rfl, h.data, h.cap, congrArg List.tail h.faults, h.log⟩
  | none => exact ⟨rfl, h.data, h.cap, congrArg List.tail h.faults, congrArg (· ++ _) h.log⟩

theorem loose_sync : Loose Dev.syncAll Dev.syncAll := by
  refine ⟨fun d d' h => ?_⟩
  unfold Dev.syncAll
  rw [moved_next h]
  cases d'.nextFault with
  | fail i => exact ⟨rfl, h.data, h.cap, congrArg List.tail h.faults, h.log⟩
  | none => exact ⟨rfl, h.data, h.cap, congrArg List.tail h.faults, congrArg (· ++ _) h.log⟩

theorem loose_find (lb : LbSize) : Loose (findBackupLba lb) (findBackupLba lb) := by
  unfold findBackupLba
  refine .pos _ fun c c' => ?_
  refine .seekEnd _ fun n => ?_
  exact Par.synced (.back _ _ _ fun _ _ => .ite (.throw _) (.pure _))

theorem loose_entry (m : Mode) (p : Partition) (i st : UInt64) (lb : LbSize) (n : UInt32) :
    Loose (p.writeToDevice m i st lb n) (p.writeToDevice m i st lb n) := by
  unfold Partition.writeToDevice
  exact .bind (.lift _) fun _ => .bind (.lift _) fun _ => .bind (.lift _) fun _ => .seek' _ (Synced.same _)

theorem loose_zeroEntries (m : Mode) (a b c : UInt64) (lb : LbSize) (n : UInt32) :
    Loose (Partition.writeZeroEntries m a b c lb n) (Partition.writeZeroEntries m a b c lb n) := by
  unfold Partition.writeZeroEntries
  exact .bind (.lift _) fun _ => .bind (.lift _) fun _ => .bind (.lift _) fun _ => .seek' _ (Synced.same _)

theorem loose_entries (m : Mode) (lb : LbSize) (ph : Header) (bh : Option Header) (ps : List Partition) (i n : Nat) :
    Loose (writeEntries m lb ph bh ps i n) (writeEntries m lb ph bh ps i n) := by
  induction ps generalizing i n with
  | nil => exact .pure _
  | cons p ps ih =>
    unfold writeEntries
    refine .ite (.throw _) (.bind (.mapErr _ (loose_entry ..)) fun _ => ?_)
    cases bh with
    | none => exact ih _ _
    | some bh =>
      dsimp only
      refine .ite (.bind (.throw _) fun _ => ih _ _) (.ite ?_ ?_)
      · exact .bind (.mapErr _ (loose_entry ..)) fun _ => ih _ _
      · exact .bind (.pure _) fun _ => ih _ _

theorem loose_zeros (m : Mode) (lb : LbSize) (h : Header) (n : Nat) : Loose (writeZeros m lb h n) (writeZeros m lb h n) := by
  unfold writeZeros
  cases checkedSub64 h.numParts.toUInt64 (UInt64.ofNat n) with
  | none => exact .bind .panic fun _ => .mapErr _ (loose_zeroEntries ..)
  | some k => exact .bind (.pure _) fun _ => .mapErr _ (loose_zeroEntries ..)

theorem loose_checksum (h : Header) (lb : LbSize) : Loose (partentryChecksum h lb) (partentryChecksum h lb) := by
  unfold partentryChecksum
  exact .bind (.lift _) fun _ => .seek _ _ (Synced.same _)

theorem loose_table (m : Mode) (h : Header) (lb : LbSize) : Loose (fileReadPartitions m h lb) (fileReadPartitions m h lb) := by
  unfold fileReadPartitions
  exact .bind (.lift _) fun _ => .seek' _ (Synced.same _)

/-! ## MBR -/

theorem loose_fromDisk (lb : LbSize) : Loose (ProtectiveMbr.fromDisk lb) (ProtectiveMbr.fromDisk lb) := by
  unfold ProtectiveMbr.fromDisk
  refine .pos _ fun c c' => .seek _ _ (.bindSame fun b => .bindSame fun r => Par.synced (.back _ _ _ fun _ _ => ?_))
  cases r with
  | ok p => exact .pure _
  | error e => exact .throw _

theorem loose_overwrite (b : ProtectiveMbr) : Loose b.overwriteLba0 b.overwriteLba0 := by
  unfold ProtectiveMbr.overwriteLba0
  exact .pos _ fun c c' => .seek _ _ (.bindSame fun _ => .bindSame fun _ => Par.synced (.back _ _ _ fun _ _ => .pure _))

theorem loose_update (b : ProtectiveMbr) : Loose b.updateConservative b.updateConservative := by
  unfold ProtectiveMbr.updateConservative
  exact .pos _ fun c c' => .seek _ _ (.bindSame fun _ => .bindSame fun _ => .bindSame fun _ => .bindSame fun _ => .bindSame fun _ =>
    .bindSame fun _ => Par.synced (.back _ _ _ fun _ _ => .pure _))

theorem loose_readAt (o : UInt64) (n : Nat) : Loose (readAt o n) (readAt o n) := by
  unfold readAt
  exact .pos' fun c c' => .seek' _ (.bindSame fun _ => Par.synced (.back' _ _ fun _ _ => .pure _))

theorem loose_writeAt (o : UInt64) (b : Bytes) : Loose (writeAt o b) (writeAt o b) := by
  unfold writeAt
  exact .pos' fun c c' => .seek' _ (.bindSame fun _ => .bindSame fun _ => Par.synced (.back' _ _ fun _ _ => .pure _))

/-! ## Headers -/

/-- `file_write_header` from two positions. -/
theorem moved_fileWrite (lba : UInt64) (lb : LbSize) (h : Header) {d d' : Dev} (hd : Moved d d') :
    (Header.fileWriteHeader lba lb (h, d)).1 = (Header.fileWriteHeader lba lb (h, d')).1 ∧
    (Header.fileWriteHeader lba lb (h, d)).2.1 = (Header.fileWriteHeader lba lb (h, d')).2.1 ∧
    Moved (Header.fileWriteHeader lba lb (h, d)).2.2 (Header.fileWriteHeader lba lb (h, d')).2.2 := by
  unfold Header.fileWriteHeader Header.onDev
  simp only [M.bind_apply, M.get_apply, M.zoom_apply, M.modify_apply, M.lift_apply, M.mapErr_apply]
  obtain ⟨h1, h2⟩ := (loose_checksum h lb).run d d' hd
  rcases hx : partentryChecksum h lb d with ⟨r, t⟩
  rcases hy : partentryChecksum h lb d' with ⟨r', t'⟩
  rw [hx, hy] at h1 h2
  simp only at h1 h2
  subst h1
  cases r with
  | err e => exact ⟨rfl, rfl, h2⟩
  | panic => exact ⟨rfl, rfl, h2⟩
  | ok c =>
    simp only
    cases (Header.toBytes { h with crc32Parts := c } c : Res HeaderError _) with
    | err e => exact ⟨rfl, rfl, h2⟩
    | panic => exact ⟨rfl, rfl, h2⟩
    | ok v =>
      obtain ⟨i, b⟩ := v
      cases (Res.ofOption (HeaderError.overflow "writing header: lba * lbs") (checkedMul64 lba lb.u64)) with
      | err e => exact ⟨rfl, rfl, h2⟩
      | panic => exact ⟨rfl, rfl, h2⟩
      | ok st =>
        simp only
        have : Loose ((Dev.seekStart st).mapErr HeaderError.io >>= fun _ => (Dev.writeAll (resize (patch b i (le32 (crc32 b))) lb.usize)).mapErr HeaderError.io)
          ((Dev.seekStart st).mapErr HeaderError.io >>= fun _ => (Dev.writeAll (resize (patch b i (le32 (crc32 b))) lb.usize)).mapErr HeaderError.io) :=
          .seek _ _ (Synced.same _)
        obtain ⟨h3, h4⟩ := this.run t t' h2
        simp only [M.bind_apply, M.mapErr_apply] at h3 h4
        rcases hs : Dev.seekStart st t with ⟨q, u⟩
        rcases hs' : Dev.seekStart st t' with ⟨q', u'⟩
        rw [hs, hs'] at h3 h4
        have hq : q = q' := by
          unfold Dev.seekStart at hs hs'
          rw [moved_next h2] at hs
          cases hf : t'.nextFault <;> rw [hf] at hs hs' <;> simp only [Prod.mk.injEq] at hs hs' <;> rw [← hs.1, ← hs'.1]
        subst hq
        cases q with
        | err e => exact ⟨rfl, rfl, h4⟩
        | panic => exact ⟨rfl, rfl, h4⟩
        | ok v =>
          simp only [Res.mapErr_ok] at h3 h4 ⊢
          rcases hw : Dev.writeAll (resize (patch b i (le32 (crc32 b))) lb.usize) u with ⟨w, x⟩
          rcases hw' : Dev.writeAll (resize (patch b i (le32 (crc32 b))) lb.usize) u' with ⟨w', x'⟩
          rw [hw, hw'] at h3 h4
          simp only at h3 h4 ⊢
          rw [h3]
          generalize w'.mapErr HeaderError.io = z
          cases z <;> exact ⟨rfl, rfl, h4⟩

theorem moved_primary (lb : LbSize) (h : Header) {d d' : Dev} (hd : Moved d d') :
    (Header.writePrimary lb (h, d)).1 = (Header.writePrimary lb (h, d')).1 ∧
    (Header.writePrimary lb (h, d)).2.1 = (Header.writePrimary lb (h, d')).2.1 ∧
    Moved (Header.writePrimary lb (h, d)).2.2 (Header.writePrimary lb (h, d')).2.2 := by
  unfold Header.writePrimary
  simp only [M.bind_apply, M.get_apply]
  split
  · exact ⟨rfl, rfl, hd⟩
  · exact moved_fileWrite _ _ _ hd

theorem moved_backup (lb : LbSize) (h : Header) {d d' : Dev} (hd : Moved d d') :
    (Header.writeBackup lb (h, d)).1 = (Header.writeBackup lb (h, d')).1 ∧
    (Header.writeBackup lb (h, d)).2.1 = (Header.writeBackup lb (h, d')).2.1 ∧
    Moved (Header.writeBackup lb (h, d)).2.2 (Header.writeBackup lb (h, d')).2.2 := by
  unfold Header.writeBackup
  simp only [M.bind_apply, M.get_apply]
  split
  · exact ⟨rfl, rfl, hd⟩
  · exact moved_fileWrite _ _ _ hd

theorem loose_writeHeader (m : Mode) (u : Option Uuid) (fresh : Uuid) (lb : LbSize) :
    Loose (writeHeader m u fresh lb) (writeHeader m u fresh lb) := by
  unfold writeHeader
  refine .bind (loose_find lb) fun bak => .bind (.lift _) fun h => ⟨fun d d' hd => ?_⟩
  obtain ⟨h1, h2, h3⟩ := moved_primary lb h hd
  unfold writePrimaryGuid
  rw [h1, h2]
  exact ⟨rfl, h3⟩

/-! ## Disks -/

theorem Spec.MovedDisk.fields {s s' : GptDisk} (h : MovedDisk s s') : s.config = s'.config ∧ s.guid = s'.guid ∧ s.primaryHeader = s'.primaryHeader ∧
    s.backupHeader = s'.backupHeader ∧ s.partitions = s'.partitions ∧ s.syncAll = s'.syncAll := by
  have e := h.rest
  cases s; cases s'
  simp only [GptDisk.mk.injEq] at e ⊢
  exact ⟨e.1, e.2.2⟩

theorem both_loose {ε ε' α : Type} (g : ε → ε') {x : M Dev ε α} (h : Loose x x) : Both MovedDisk (onDev g x) (onDev g x) := by
  refine ⟨fun s s' hs => ?_⟩
  obtain ⟨h1, h2⟩ := (h.mapErr g).run _ _ hs.device
  have e := hs.fields
  unfold onDev M.zoom
  refine ⟨h1, h2, ?_⟩
  cases s; cases s'
  simp only [GptDisk.mk.injEq] at e ⊢
  exact ⟨e.1, trivial, e.2⟩

theorem moved_sim : Sim MovedDisk := by
  have key : ∀ {s s' t t' : GptDisk}, MovedDisk s s' → (Moved s.device s'.device → Moved t.device t'.device) →
      ({ s with device := s'.device } = s' → { t with device := t'.device } = t') → MovedDisk t t' := fun h k l => ⟨k h.device, l h.rest⟩
  refine { config := fun h => h.fields.1, syncs := fun h => h.fields.2.2.2.2.2
           tryHeader := fun h => by unfold GptDisk.tryHeader; rw [h.fields.2.2.1, h.fields.2.2.2.1]
           parts := fun h => h.fields.2.2.2.2.1, guid := fun h => h.fields.2.1
           find := fun lb => both_loose _ (loose_find lb), entries := fun _ _ _ _ _ _ _ => both_loose _ (loose_entries ..)
           zeros := fun _ _ _ _ => both_loose _ (loose_zeros ..), flush := both_loose _ loose_flush, sync := both_loose _ loose_sync
           backup := ?backup, primary := ?primary, setParts := ?_, setPrimary := ?_, setBackup := ?_, setGuid := ?_, setDevice := ?device, setWritable := ?_ }
  case device =>
    intro s s' h x
    refine key h (fun _ => Moved.refl x) fun e => ?_
    cases s; cases s'
    simp only [GptDisk.mk.injEq] at e ⊢
    simp [e]
  case backup =>
    refine fun h lb => ⟨fun s s' hs => ?_⟩
    obtain ⟨h1, h2, h3⟩ := moved_backup lb h hs.device
    unfold onBackup
    rw [h1]
    refine ⟨rfl, h3, ?_⟩
    have e := hs.rest
    cases s; cases s'
    simp only [GptDisk.mk.injEq] at e h2 ⊢
    simp [e, h2]
  case primary =>
    refine fun h lb => ⟨fun s s' hs => ?_⟩
    obtain ⟨h1, h2, h3⟩ := moved_primary lb h hs.device
    unfold onPrimary
    rw [h1]
    refine ⟨rfl, h3, ?_⟩
    have e := hs.rest
    cases s; cases s'
    simp only [GptDisk.mk.injEq] at e h2 ⊢
    simp [e, h2]
  all_goals
    intro s s' h x
    refine key h (fun e => e) fun e => ?_
    cases s; cases s'
    simp only [GptDisk.mk.injEq] at e ⊢
    simp [e]

/-- One call. -/
theorem moved_step (m : Mode) (op : Op) {s s' : GptDisk} (h : MovedDisk s s') :
    SameVal (op.step m s).1 (op.step m s').1 ∧ MovedDisk (op.step m s).2 (op.step m s').2 := by
  have eq : ∀ {r r' : Res GptError OpVal}, r = r' → SameVal r r' := by
    rintro r _ rfl
    cases r with
    | ok v => cases v <;> first | exact Moved.refl _ | rfl
    | err e => rfl
    | panic => rfl
  have rest : ∀ op : Op, (∀ d w, op ≠ .updateDiskDevice d w) →
      SameVal (op.step m s).1 (op.step m s').1 ∧ MovedDisk (op.step m s).2 (op.step m s').2 := fun op hop =>
    ⟨eq ((moved_sim.step m op hop).run s s' h).1, ((moved_sim.step m op hop).run s s' h).2⟩
  cases op
  case updateDiskDevice d w => exact ⟨h.device, moved_sim.updateDiskDevice d w h⟩
  all_goals exact rest _ (fun _ _ => nofun)

/-! ## Opening and creating -/

theorem faults_frame : Dev.Frame (fun d d' => d.faults = [] → d'.faults = []) := by
  have tick : ∀ {d : Dev}, d.faults = [] → d.tick.faults = [] := fun h => by unfold Dev.tick; simp [h]
  have put : ∀ (d : Dev) (b : Bytes), d.faults = [] → (d.put b).faults = [] := fun d b h => by unfold Dev.put; split <;> simp [h]
  refine ⟨⟨fun _ h => h, fun _ _ _ h1 h2 h => h2 (h1 h)⟩, ?_, ?_, ?_, ?_, ?_, ?_, ?_⟩
  · intro n d h; unfold Dev.seekStart; split <;> exact tick h
  · intro d h; unfold Dev.seekEnd; split <;> exact tick h
  · intro d h; unfold Dev.streamPosition; split <;> exact tick h
  · intro n d h; unfold Dev.readExact; repeat' split
    all_goals first | exact h | exact tick h
  · intro b d h; unfold Dev.writeAll; repeat' split
    all_goals first | exact h | exact put _ _ (tick h)
  · intro d h; unfold Dev.flush; split <;> exact tick h
  · intro d h; unfold Dev.syncAll; split <;> exact tick h

/-- Devices that differ in position and whose operations do not fail. -/
def Calm (d d' : Dev) : Prop := Moved d d' ∧ d.faults = []

theorem Par.calm {ε α : Type} {x y : M Dev ε α} (h : Loose x y) : Par Calm x y := ⟨fun d d' hd => h.run d d' hd.1⟩

theorem Par.bindCalm {ε α β : Type} {x y : M Dev ε α} {f g : α → M Dev ε β} (h : Par Calm x y)
    (hf : M.Pres (fun d d' => d.faults = [] → d'.faults = []) x) (k : ∀ a, Par Calm (f a) (g a)) : Par Calm (x >>= f) (y >>= g) := by
  refine ⟨fun s s' hs => ?_⟩
  obtain ⟨h1, h2⟩ := h.run s s' hs
  have h3 := hf s hs.2
  simp only [M.bind_apply]
  rcases hx : x s with ⟨r, t⟩
  rcases hy : y s' with ⟨r', t'⟩
  rw [hx, hy] at h1 h2
  rw [hx] at h3
  simp only at h1 h2 h3
  subst h1
  cases r with
  | ok a => exact (k a).run t t' ⟨h2, h3⟩
  | err e => exact ⟨rfl, h2⟩
  | panic => exact ⟨rfl, h2⟩

theorem Par.posCalm {ε β : Type} {f g : Except IoErr UInt64 → M Dev ε β} (k : ∀ c c', Par Calm (f c) (g c')) :
    Par Calm ((Dev.streamPosition.attempt : M Dev ε _) >>= f) (Dev.streamPosition.attempt >>= g) := by
  refine ⟨fun d d' h => ?_⟩
  have h' := h.1.faults ▸ h.2
  simp only [M.bind_apply]
  unfold M.attempt Dev.streamPosition
  rw [Dev.nextFault_of_nil h.2, Dev.nextFault_of_nil h', Dev.tick_of_nil h.2, Dev.tick_of_nil h']
  exact (k _ _).run _ _ h

theorem calm_read (o : UInt64) : Par Calm (fileReadHeader o) (fileReadHeader o) := by
  refine ⟨fun d d' h => ?_⟩
  have h' := h.1.faults ▸ h.2
  unfold fileReadHeader
  simp only [M.bind_apply]
  unfold M.attempt Dev.seekStart
  rw [Dev.nextFault_of_nil h.2, Dev.nextFault_of_nil h', Dev.tick_of_nil h.2, Dev.tick_of_nil h']
  obtain ⟨⟨h1, h2, h3, h4⟩, -⟩ := h
  cases d; cases d'
  simp only at h1 h2 h3 h4
  subst h1 h2 h3 h4
  exact ⟨rfl, Moved.refl _⟩

theorem calm_primary (lb : LbSize) : Par Calm (readPrimaryHeader lb) (readPrimaryHeader lb) := by
  unfold readPrimaryHeader
  refine .posCalm fun c c' => .bind (.attempt (calm_read _)) fun r => .backTry _ _ fun _ _ => ?_
  cases r with
  | ok h => exact .pure _
  | error e => exact .throw _

theorem calm_backup (lb : LbSize) : Par Calm (readBackupHeader lb) (readBackupHeader lb) := by
  unfold readBackupHeader
  refine .posCalm fun c c' => .bindCalm (.calm (loose_find lb)) (faults_frame.findBackupLba lb) fun n => ?_
  refine .bindCalm (.calm (.lift _)) (M.Pres.lift faults_frame.chain _) fun o => .bind (.attempt (calm_read _)) fun r => .backTry _ _ fun _ _ => ?_
  cases r with
  | ok h => exact .pure _
  | error e => exact .throw _

namespace Spec

/-- The same from `open` or `create`: the same disk but for the position, or the same failure. -/
def SameDisk : Res GptError GptDisk → Res GptError GptDisk → Prop
  | .ok s, .ok s' => MovedDisk s s'
  | .err e, .err e' => e = e'
  | .panic, .panic => True
  | _, _ => False

end Spec

theorem calm_rest (m : Mode) (cfg : GptConfig) (h1 h2 : Except HeaderError Header) (hd : Header) {d d' : Dev} (h : Moved d d') :
    SameDisk (openRest m cfg h1 h2 hd d).1 (openRest m cfg h1 h2 hd d').1 ∧ Moved (openRest m cfg h1 h2 hd d).2 (openRest m cfg h1 h2 hd d').2 := by
  unfold openRest
  simp only [M.bind_apply]
  obtain ⟨e1, e2⟩ := ((loose_table m hd cfg.lbSize).mapErr GptError.io).run d d' h
  rcases hx : (fileReadPartitions m hd cfg.lbSize).mapErr GptError.io d with ⟨r, t⟩
  rcases hy : (fileReadPartitions m hd cfg.lbSize).mapErr GptError.io d' with ⟨r', t'⟩
  rw [hx, hy] at e1 e2
  simp only at e1 e2
  subst e1
  cases r with
  | ok a => exact ⟨⟨e2, rfl⟩, e2⟩
  | err e => exact ⟨rfl, e2⟩
  | panic => exact ⟨trivial, e2⟩

theorem calm_open (m : Mode) (cfg : GptConfig) {d d' : Dev} (h : Moved d d') (hf : d.faults = []) :
    SameDisk (openFromDevice m cfg d).1 (openFromDevice m cfg d').1 ∧ Moved (openFromDevice m cfg d).2 (openFromDevice m cfg d').2 := by
  rw [openFromDevice_eq, openFromDevice_eq]
  obtain ⟨e1, e2⟩ := (Par.attempt (ε' := GptError) (calm_primary cfg.lbSize)).run d d' ⟨h, hf⟩
  have e3 := M.Pres.attempt (ε' := GptError) (faults_frame.readPrimaryHeader cfg.lbSize) d hf
  rcases hx : ((readPrimaryHeader cfg.lbSize).attempt : M Dev GptError _) d with ⟨r, t⟩
  rcases hy : ((readPrimaryHeader cfg.lbSize).attempt : M Dev GptError _) d' with ⟨r', t'⟩
  rw [hx, hy] at e1 e2
  rw [hx] at e3
  simp only at e1 e2 e3
  subst e1
  cases r with
  | err e => exact ⟨rfl, e2⟩
  | panic => exact ⟨trivial, e2⟩
  | ok h1 =>
    obtain ⟨f1, f2⟩ := (Par.attempt (ε' := GptError) (calm_backup cfg.lbSize)).run t t' ⟨e2, e3⟩
    simp only
    rcases hx : ((readBackupHeader cfg.lbSize).attempt : M Dev GptError _) t with ⟨r, u⟩
    rcases hy : ((readBackupHeader cfg.lbSize).attempt : M Dev GptError _) t' with ⟨r', u'⟩
    rw [hx, hy] at f1 f2
    simp only at f1 f2
    subst f1
    cases r with
    | err e => exact ⟨rfl, f2⟩
    | panic => exact ⟨trivial, f2⟩
    | ok h2 =>
      simp only
      cases selectHeader cfg.onlyValidHeaders h1 h2 with
      | error e => exact ⟨rfl, f2⟩
      | ok hd => exact calm_rest m cfg h1 h2 hd f2

theorem moved_create (m : Mode) (cfg : GptConfig) (guid : Option Uuid) (fresh fresh2 : Uuid) {d d' : Dev} (h : Moved d d') :
    SameDisk (createFromDevice m cfg guid fresh fresh2 d).1 (createFromDevice m cfg guid fresh fresh2 d').1 ∧
    Moved (createFromDevice m cfg guid fresh fresh2 d).2 (createFromDevice m cfg guid fresh fresh2 d').2 := by
  unfold createFromDevice
  obtain ⟨e1, e2⟩ := (moved_sim.init m fresh2).run (blankDisk cfg d (guid.getD fresh)) (blankDisk cfg d' (guid.getD fresh)) ⟨h, rfl⟩
  rcases hx : initHeaders m fresh2 (blankDisk cfg d (guid.getD fresh)) with ⟨r, t⟩
  rcases hy : initHeaders m fresh2 (blankDisk cfg d' (guid.getD fresh)) with ⟨r', t'⟩
  rw [hx, hy] at e1 e2
  simp only at e1 e2
  subst e1
  cases r with
  | ok a => exact ⟨e2, e2.device⟩
  | err e => exact ⟨rfl, e2.device⟩
  | panic => exact ⟨trivial, e2.device⟩

theorem sameDisk_file {x : M Dev GptError GptDisk} {d d' : Dev} (h : SameDisk (x d).1 (x d').1 ∧ Moved (x d).2 (x d').2) :
    SameDisk ((x >>= fun g => pure { g with syncAll := true } : M Dev GptError GptDisk) d).1
      ((x >>= fun g => pure { g with syncAll := true } : M Dev GptError GptDisk) d').1 ∧
    Moved ((x >>= fun g => pure { g with syncAll := true } : M Dev GptError GptDisk) d).2
      ((x >>= fun g => pure { g with syncAll := true } : M Dev GptError GptDisk) d').2 := by
  simp only [M.bind_apply]
  rcases hx : x d with ⟨r, t⟩
  rcases hy : x d' with ⟨r', t'⟩
  rw [hx, hy] at h
  cases r <;> cases r' <;> try exact h
  refine ⟨⟨h.1.device, ?_⟩, h.2⟩
  have e := h.1.rest
  rename_i s s'
  cases s; cases s'
  simp only [GptDisk.mk.injEq] at e ⊢
  simp [e]

namespace Spec

/-- `x` returns the same and leaves the same device (but for its position) whatever the position it starts from. -/
def AnyPosition {ε α : Type} (x : M Dev ε α) : Prop := ∀ d d', Moved d d' → (x d).1 = (x d').1 ∧ Moved (x d).2 (x d').2

end Spec

/-- **C96**: the functions of `src/mbr.rs`, whatever fails. -/
theorem c96_mbr (lb : LbSize) (b : ProtectiveMbr) (boot : ByteArr 440) (sig : ByteArr 4) : AnyPosition (ProtectiveMbr.fromDisk lb) ∧
    AnyPosition b.overwriteLba0 ∧ AnyPosition b.updateConservative ∧ AnyPosition readBootcode ∧ AnyPosition (writeBootcode boot) ∧
    AnyPosition readDiskSignature ∧ AnyPosition (writeDiskSignature sig) :=
  ⟨(loose_fromDisk lb).run, (loose_overwrite b).run, (loose_update b).run, (loose_readAt _ _).run, (loose_writeAt _ _).run, (loose_readAt _ _).run,
    (loose_writeAt _ _).run⟩

/-- **C96**: reading a table, writing entries and `write_header`, whatever fails. -/
theorem c96_tables (m : Mode) (lb : LbSize) (h : Header) (p : Partition) (i st a : UInt64) (n : UInt32) (u : Option Uuid) (fresh : Uuid) :
    AnyPosition (fileReadPartitions m h lb) ∧ AnyPosition (p.writeToDevice m i st lb n) ∧ AnyPosition (Partition.writeZeroEntries m i a st lb n) ∧
    AnyPosition (p.write m i st lb) ∧ AnyPosition (writeHeader m u fresh lb) :=
  ⟨(loose_table m h lb).run, (loose_entry m p i st lb n).run, (loose_zeroEntries m i a st lb n).run, (loose_entry m p i st lb 128).run,
    (loose_writeHeader m u fresh lb).run⟩

/-- **C96**: `write_primary` and `write_backup`, whatever fails; the header is changed in the same way too. -/
theorem c96_header_writes (lb : LbSize) (h : Header) {d d' : Dev} (hd : Moved d d') :
    ((Header.writePrimary lb (h, d)).1 = (Header.writePrimary lb (h, d')).1 ∧
      (Header.writePrimary lb (h, d)).2.1 = (Header.writePrimary lb (h, d')).2.1 ∧
      Moved (Header.writePrimary lb (h, d)).2.2 (Header.writePrimary lb (h, d')).2.2) ∧
    (Header.writeBackup lb (h, d)).1 = (Header.writeBackup lb (h, d')).1 ∧
      (Header.writeBackup lb (h, d)).2.1 = (Header.writeBackup lb (h, d')).2.1 ∧
      Moved (Header.writeBackup lb (h, d)).2.2 (Header.writeBackup lb (h, d')).2.2 :=
  ⟨moved_primary lb h hd, moved_backup lb h hd⟩

/-- **C96**: reading a header from a device that works. -/
theorem c96_header_reads (lb : LbSize) {d d' : Dev} (h : Moved d d') (hf : d.faults = []) :
    ((readPrimaryHeader lb d).1 = (readPrimaryHeader lb d').1 ∧ Moved (readPrimaryHeader lb d).2 (readPrimaryHeader lb d').2) ∧
    (readBackupHeader lb d).1 = (readBackupHeader lb d').1 ∧ Moved (readBackupHeader lb d).2 (readBackupHeader lb d').2 :=
  ⟨(calm_primary lb).run d d' ⟨h, hf⟩, (calm_backup lb).run d d' ⟨h, hf⟩⟩

/-- **C96**: opening a device that works. -/
theorem c96_open (m : Mode) (cfg : GptConfig) {d d' : Dev} (h : Moved d d') (hf : d.faults = []) :
    SameDisk (openFromDevice m cfg d).1 (openFromDevice m cfg d').1 ∧ SameDisk (openFile m cfg d).1 (openFile m cfg d').1 :=
  ⟨(calm_open m cfg h hf).1, (sameDisk_file (calm_open m cfg h hf)).1⟩

/-- **C96**: creating, whatever fails. -/
theorem c96_create (m : Mode) (cfg : GptConfig) (guid : Option Uuid) (fresh fresh2 : Uuid) {d d' : Dev} (h : Moved d d') :
    SameDisk (createFromDevice m cfg guid fresh fresh2 d).1 (createFromDevice m cfg guid fresh fresh2 d').1 ∧
    SameDisk (createFile m cfg fresh fresh2 d).1 (createFile m cfg fresh fresh2 d').1 :=
  ⟨(moved_create m cfg guid fresh fresh2 h).1, (sameDisk_file (moved_create m cfg none fresh fresh2 h)).1⟩

theorem readPrimary_res (lb : LbSize) (d : Dev) : (readPrimaryHeader lb d).1 = (fileReadHeader lb.u64 d.tick).1 := by
  have h1 : ∃ c, (Dev.streamPosition.attempt : M Dev HeaderError _) d = (.ok c, d.tick) := by
    unfold M.attempt Dev.streamPosition
    cases d.nextFault <;> exact ⟨_, rfl⟩
  have h2 : ∀ n t, ∃ c u, ((Dev.seekStart n).attempt : M Dev HeaderError _) t = (.ok c, u) := by
    intro n t
    unfold M.attempt Dev.seekStart
    cases t.nextFault <;> exact ⟨_, _, rfl⟩
  obtain ⟨c, h1⟩ := h1
  unfold readPrimaryHeader
  rw [M.bind_apply, h1]
  simp only
  rw [M.bind_apply]
  rcases hx : fileReadHeader lb.u64 d.tick with ⟨r, t⟩
  cases r with
  | panic =>
    have h3 : ((fileReadHeader lb.u64).attempt : M Dev HeaderError _) d.tick = (.panic, t) := by unfold M.attempt; rw [hx]
    rw [h3]
  | ok h =>
    have h3 : ((fileReadHeader lb.u64).attempt : M Dev HeaderError _) d.tick = (.ok (.ok h), t) := by unfold M.attempt; rw [hx]
    rw [h3]
    simp only
    rw [M.bind_apply]
    obtain ⟨c', u, e⟩ := h2 _ t
    rw [e]
    rfl
  | err e =>
    have h3 : ((fileReadHeader lb.u64).attempt : M Dev HeaderError _) d.tick = (.ok (.error e), t) := by unfold M.attempt; rw [hx]
    rw [h3]
    simp only
    rw [M.bind_apply]
    obtain ⟨c', u, e⟩ := h2 _ t
    rw [e]
    rfl

theorem failedSeek_parse (lb : LbSize) (d : Dev) (k : Nat) (hf : d.faults = [.none, .fail k]) : (readPrimaryHeader lb d).1 =
    if d.pos + 92 ≤ d.data.length then parseHeader (slice d.data d.pos 92) else .err (.io .unexpectedEof) := by
  rw [readPrimary_res]
  obtain ⟨data, pos, cap, faults, log⟩ := d
  simp only at hf
  subst hf
  unfold fileReadHeader
  rw [M.bind_apply]
  have : ((Dev.seekStart lb.u64).attempt : M Dev HeaderError _) (Dev.tick ⟨data, pos, cap, [.none, .fail k], log⟩) = (.ok (.error .device), ⟨data, pos, cap, [], log⟩) := rfl
  rw [this]
  simp only
  rw [M.bind_apply, M.mapErr_apply]
  unfold Dev.readExact
  rw [if_neg (by decide), Dev.nextFault_of_nil rfl]
  simp only
  by_cases hc : pos + 92 ≤ data.length
  · rw [if_pos hc, if_pos hc]; rfl
  · rw [if_neg hc, if_neg hc]; rfl

/-- **C96**: a history of calls returns the same and ends with the same disk, whatever the position the device was left at, and whatever fails. -/
theorem c96_history (m : Mode) (ops : List Op) {s s' : GptDisk} (h : MovedDisk s s') :
    SameVals (results m ops s) (results m ops s') ∧ MovedDisk (runOps m ops s) (runOps m ops s') := by
  induction ops generalizing s s' with
  | nil => exact ⟨.nil, h⟩
  | cons op ops ih =>
    obtain ⟨h1, h2⟩ := moved_step m op h
    obtain ⟨h3, h4⟩ := ih h2
    exact ⟨.cons h1 h3, h4⟩

theorem parseHeader_cases (b : Bytes) : (∃ h, parseHeader b = .ok h) ∨ parseHeader b = .err .invalidGptSignature ∨
    parseHeader b = .err .invalidCrc32Checksum := by
  unfold parseHeader
  split_ifs <;> simp

theorem headerRead_at (data : Bytes) (off : Nat) : Spec.HeaderRead data off (readHeaderAt data off) := by
  obtain ⟨h1, h2, h3, h4⟩ := readHeaderAt_spec data off
  by_cases hl : data.length < off + 92
  · rw [h2.mpr hl]
    exact .short hl
  by_cases hs : slice data off 8 = Spec.signature
  · by_cases hc : Spec.num data (off + 16) 4 = (crc32 (Spec.withoutCrc data off)).toNat
    · cases hr : readHeaderAt data off with
      | ok h => exact .read ((h1 h).mp hr).1 ((h1 h).mp hr).2
      | panic => exact absurd hr (readHeaderAt_noPanic _ _)
      | err e =>
        exfalso
        unfold readHeaderAt at hr h3 h4
        rw [if_pos (by omega)] at hr h3 h4
        rcases parseHeader_cases (slice data off 92) with ⟨h, e1⟩ | e1 | e1
        · rw [e1] at hr; cases hr
        · exact (h3.mp e1).2 hs
        · exact (h4.mp e1).2.2 hc
    · rw [h4.mpr ⟨by omega, hs, hc⟩]
      exact .checksum (by omega) hs hc
  · rw [h3.mpr ⟨by omega, hs⟩]
    exact .signature (by omega) hs

/-- **C96**: where it does matter. When the seek to the header fails the failure is ignored and the header is read from wherever the stream
is. -/
theorem c96_failed_seek (lb : LbSize) (d : Dev) (k : Nat) (hf : d.faults = [.none, .fail k]) :
    Spec.HeaderRead d.data d.pos (readPrimaryHeader lb d).1 := by
  rw [failedSeek_parse lb d k hf]
  exact headerRead_at d.data d.pos

/-- **C96**: so with a failing seek two positions can give different errors. -/
theorem c96_failed_seek_matters : ∃ d d', Moved d d' ∧ (readPrimaryHeader .lb512 d).1 = .err .invalidGptSignature ∧
    (readPrimaryHeader .lb512 d').1 = .err (.io .unexpectedEof) :=
  ⟨⟨zeros 100, 0, 100, [.none, .fail 0], []⟩, ⟨zeros 100, 50, 100, [.none, .fail 0], []⟩, ⟨rfl, rfl, rfl, rfl⟩,
    (failedSeek_parse _ _ 0 rfl).trans (by decide +kernel), (failedSeek_parse _ _ 0 rfl).trans (by decide +kernel)⟩

/-- A disk left at two positions, the third operation of the device failing: an addition and a write. -/
example (g : Uuid) (z : Bytes) : SameVals
    (results .debug [.addPartitionAt "n" 3 50 10 (exPart 0 0).partType 0 g Uuid.nil, .writeInplace]
      { exDisk with device := ⟨z, 7, 51200, [.none, .none, .fail 1], []⟩, config := { exDisk.config with writable := true } })
    (results .debug [.addPartitionAt "n" 3 50 10 (exPart 0 0).partType 0 g Uuid.nil, .writeInplace]
      { exDisk with device := ⟨z, 900, 51200, [.none, .none, .fail 1], []⟩, config := { exDisk.config with writable := true } }) :=
  (c96_history _ _ ⟨⟨rfl, rfl, rfl, rfl⟩, rfl⟩).1

end Gpt
