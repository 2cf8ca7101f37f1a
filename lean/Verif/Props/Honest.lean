import Verif.Props.Cursor
/-!
# C108: a failing device is never passed over

Every function but those that read headers reports each failure of the device. For every state there is the number of operations the call makes
on a device that works: if one of them fails the call returns that failure, and if none does the call returns and leaves what it would on a device
that works.
-/

namespace Gpt

open GptDisk

namespace Spec

/-- None of the first `k` operations fails. -/
def Works (k : Nat) (fs : List Fault) : Prop := ∀ f ∈ fs.take k, f = .none

/-- `set` gives the device of a state the failures to come. `x` is honest: from any state there are a number `k` of device operations, a result and a
state such that with any failures to come `x` gives that result and that state (with `k` operations done) if none of the first `k` operations fails, and
else an error in `io`. -/
structure Honest {σ ε α : Type} (set : List Fault → σ → σ) (io : ε → Prop) (x : M σ ε α) : Prop where
  run : ∀ s, ∃ (k : Nat) (r : Res ε α) (t : σ), ∀ fs, (Works k fs → x (set fs s) = (r, set (fs.drop k) t)) ∧
    (¬ Works k fs → ∃ e, (x (set fs s)).1 = .err e ∧ io e)

/-- A device with other failures to come. -/
def setFaults (fs : List Fault) (d : Dev) : Dev := { d with faults := fs }

/-- A disk on a device with other failures to come. -/
def setDiskFaults (fs : List Fault) (s : GptDisk) : GptDisk := { s with device := setFaults fs s.device }

/-- A header and a device with other failures to come. -/
def setPairFaults (fs : List Fault) (s : Header × Dev) : Header × Dev := (s.1, setFaults fs s.2)

/-- The failure of the device, as the disk reports it. -/
def GptIo (e : GptError) : Prop := e = .io .device ∨ e = .header (.io .device)

end Spec

open Spec

theorem works_zero (fs : List Fault) : Works 0 fs := by simp [Works]

theorem works_add {k l : Nat} {fs : List Fault} : Works (k + l) fs ↔ Works k fs ∧ Works l (fs.drop k) := by
  unfold Works
  rw [List.take_add]
  simp only [List.mem_append]
  exact ⟨fun h => ⟨fun f hf => h f (.inl hf), fun f hf => h f (.inr hf)⟩, fun h f hf => hf.elim (h.1 f) (h.2 f)⟩

theorem works_one {fs : List Fault} : Works 1 fs ↔ fs.headD .none = .none := by
  unfold Works
  cases fs <;> simp

theorem works_nil (k : Nat) : Works k [] := by simp [Works]

namespace Spec.Honest
section
variable {σ τ ε ε' α β : Type} {set : List Fault → σ → σ} {io : ε → Prop}

theorem lift (r : Res ε α) : Honest set io (M.lift r) := ⟨fun s => ⟨0, r, s, fun fs => ⟨fun _ => rfl, fun h => absurd (works_zero fs) h⟩⟩⟩
theorem pure (a : α) : Honest set io (Pure.pure a : M σ ε α) := lift (.ok a)
theorem throw (e : ε) : Honest set io (M.throw e : M σ ε α) := lift (.err e)
theorem panic : Honest set io (M.panic : M σ ε α) := lift .panic

theorem tryLift (r : Res ε' α) : Honest set io ((M.lift r : M σ ε' α).attempt : M σ ε _) := by
  refine ⟨fun s => ?_⟩
  refine ⟨0, match r with | .ok a => .ok (.ok a) | .err e => .ok (.error e) | .panic => .panic, s, fun fs => ⟨fun _ => ?_, fun h => absurd (works_zero fs) h⟩⟩
  cases r <;> rfl

theorem modify {g : σ → σ} (h : ∀ fs s, g (set fs s) = set fs (g s)) : Honest set io (M.modify g : M σ ε Unit) := ⟨fun s =>
  ⟨0, .ok (), g s, fun fs => ⟨fun _ => by show (_, g (set fs s)) = _; rw [h]; rfl, fun h => absurd (works_zero fs) h⟩⟩⟩

theorem bind {x : M σ ε α} {f : α → M σ ε β} (h : Honest set io x) (k : ∀ a, Honest set io (f a)) : Honest set io (x >>= f) := by
  refine ⟨fun s => ?_⟩
  obtain ⟨k1, r, t, h1⟩ := h.run s
  cases r with
  | ok a =>
    obtain ⟨k2, r2, t2, h2⟩ := (k a).run t
    refine ⟨k1 + k2, r2, t2, fun fs => ⟨fun hw => ?_, fun hw => ?_⟩⟩
    · rw [works_add] at hw
      rw [M.bind_apply, (h1 fs).1 hw.1]
      simp only
      rw [(h2 _).1 hw.2, List.drop_drop]
    · rw [works_add, Classical.not_and_iff_not_or_not] at hw
      by_cases hw1 : Works k1 fs
      · obtain ⟨e, h3, h4⟩ := (h2 (fs.drop k1)).2 (hw.resolve_left (not_not_intro hw1))
        refine ⟨e, ?_, h4⟩
        rw [M.bind_apply, (h1 fs).1 hw1]
        exact h3
      · obtain ⟨e, h3, h4⟩ := (h1 fs).2 hw1
        refine ⟨e, ?_, h4⟩
        rw [M.bind_apply]
        rcases hx : x (set fs s) with ⟨r, u⟩
        rw [hx] at h3
        simp only at h3
        subst h3
        rfl
  | err e =>
    refine ⟨k1, .err e, t, fun fs => ⟨fun hw => ?_, fun hw => ?_⟩⟩
    · rw [M.bind_apply, (h1 fs).1 hw]
    · obtain ⟨e, h3, h4⟩ := (h1 fs).2 hw
      refine ⟨e, ?_, h4⟩
      rw [M.bind_apply]
      rcases hx : x (set fs s) with ⟨r, u⟩
      rw [hx] at h3
      simp only at h3
      subst h3
      rfl
  | panic =>
    refine ⟨k1, .panic, t, fun fs => ⟨fun hw => ?_, fun hw => ?_⟩⟩
    · rw [M.bind_apply, (h1 fs).1 hw]
    · obtain ⟨e, h3, h4⟩ := (h1 fs).2 hw
      refine ⟨e, ?_, h4⟩
      rw [M.bind_apply]
      rcases hx : x (set fs s) with ⟨r, u⟩
      rw [hx] at h3
      simp only at h3
      subst h3
      rfl

theorem get {f : σ → M σ ε β} (k : ∀ s, Honest set io (f s)) (e : ∀ fs s, f (set fs s) = f s) : Honest set io (M.get >>= f) := by
  refine ⟨fun s => ?_⟩
  obtain ⟨k1, r, t, h⟩ := (k s).run s
  refine ⟨k1, r, t, fun fs => ?_⟩
  have : (M.get >>= f) (set fs s) = f s (set fs s) := by rw [M.bind_apply, M.get_apply]; simp only; rw [e]
  rw [this]
  exact h fs

theorem mapErr {io' : ε' → Prop} {x : M σ ε α} {g : ε → ε'} (h : Honest set io x) (hg : ∀ e, io e → io' (g e)) : Honest set io' (x.mapErr g) := by
  refine ⟨fun s => ?_⟩
  obtain ⟨k, r, t, h⟩ := h.run s
  refine ⟨k, r.mapErr g, t, fun fs => ⟨fun hw => ?_, fun hw => ?_⟩⟩
  · rw [M.mapErr_apply, (h fs).1 hw]
  · obtain ⟨e, h1, h2⟩ := (h fs).2 hw
    exact ⟨g e, by rw [M.mapErr_apply, h1]; rfl, hg e h2⟩

theorem ite {c : Prop} [Decidable c] {x y : M σ ε α} (h1 : Honest set io x) (h2 : Honest set io y) : Honest set io (if c then x else y) := by
  split <;> assumption

theorem mapOk {x : M σ ε α} (g : α → β) (h : Honest set io x) : Honest set io (x.mapOk g) := by
  refine ⟨fun s => ?_⟩
  obtain ⟨k, r, t, h⟩ := h.run s
  refine ⟨k, match r with | .ok a => .ok (g a) | .err e => .err e | .panic => .panic, t, fun fs => ⟨fun hw => ?_, fun hw => ?_⟩⟩
  · unfold M.mapOk
    rw [(h fs).1 hw]
    cases r <;> rfl
  · obtain ⟨e, h1, h2⟩ := (h fs).2 hw
    exact ⟨e, by unfold M.mapOk; rw [h1], h2⟩

theorem zoom {setT : List Fault → τ → τ} {x : M τ ε α} {proj : σ → τ} {put : τ → σ → σ} (h : Honest setT io x)
    (h1 : ∀ fs s, proj (set fs s) = setT fs (proj s)) (h2 : ∀ fs fs' t s, put (setT fs t) (set fs' s) = set fs (put t s)) :
    Honest set io (M.zoom proj put x) := by
  refine ⟨fun s => ?_⟩
  obtain ⟨k, r, t, h⟩ := h.run (proj s)
  refine ⟨k, r, put t s, fun fs => ⟨fun hw => ?_, fun hw => ?_⟩⟩
  · rw [M.zoom_apply, h1, (h fs).1 hw, h2]
  · obtain ⟨e, h3, h4⟩ := (h fs).2 hw
    exact ⟨e, by rw [M.zoom_apply, h1, h3], h4⟩

end

/-! ## The operations of the device -/

/-- One operation. -/
theorem one {α : Type} {x : M Dev IoErr α} {d : Dev} (r : Res IoErr α) (t : Dev)
    (h1 : ∀ fs, fs.headD .none = .none → x (setFaults fs d) = (r, setFaults fs.tail t))
    (h2 : ∀ fs, fs.headD .none ≠ .none → (x (setFaults fs d)).1 = .err .device) :
    ∃ (k : Nat) (r : Res IoErr α) (t : Dev), ∀ fs, (Works k fs → x (setFaults fs d) = (r, setFaults (fs.drop k) t)) ∧
    (¬ Works k fs → ∃ e, (x (setFaults fs d)).1 = .err e ∧ e = .device) := by
  refine ⟨1, r, t, fun fs => ⟨fun hw => ?_, fun hw => ?_⟩⟩
  · rw [h1 fs (works_one.mp hw), List.drop_one]
  · exact ⟨_, h2 fs (fun h => hw (works_one.mpr h)), rfl⟩

theorem seekStart (n : UInt64) : Honest setFaults (· = .device) (Dev.seekStart n) := by
  refine ⟨fun d => ?_⟩
  refine one (.ok n) { d with pos := n.toNat } (fun fs h => ?_) (fun fs h => ?_)
  · unfold Dev.seekStart Dev.nextFault; rw [show (setFaults fs d).faults = fs from rfl, h]; rfl
  · unfold Dev.seekStart Dev.nextFault
    rw [show (setFaults fs d).faults = fs from rfl]
    cases hf : fs.headD .none with
    | none => exact absurd hf h
    | fail k => rfl

theorem seekEnd : Honest setFaults (· = .device) Dev.seekEnd := by
  refine ⟨fun d => ?_⟩
  refine one (.ok (UInt64.ofNat d.data.length)) { d with pos := d.data.length } (fun fs h => ?_) (fun fs h => ?_)
  · unfold Dev.seekEnd Dev.nextFault; rw [show (setFaults fs d).faults = fs from rfl, h]; rfl
  · unfold Dev.seekEnd Dev.nextFault
    rw [show (setFaults fs d).faults = fs from rfl]
    cases hf : fs.headD .none with
    | none => exact absurd hf h
    | fail k => rfl

theorem streamPosition : Honest setFaults (· = .device) Dev.streamPosition := by
  refine ⟨fun d => ?_⟩
  refine one (.ok (UInt64.ofNat d.pos)) d (fun fs h => ?_) (fun fs h => ?_)
  · unfold Dev.streamPosition Dev.nextFault; rw [show (setFaults fs d).faults = fs from rfl, h]; rfl
  · unfold Dev.streamPosition Dev.nextFault
    rw [show (setFaults fs d).faults = fs from rfl]
    cases hf : fs.headD .none with
    | none => exact absurd hf h
    | fail k => rfl

theorem flush : Honest setFaults (· = .device) Dev.flush := by
  refine ⟨fun d => ?_⟩
  refine one (.ok ()) { d with log := d.log ++ [.flush] } (fun fs h => ?_) (fun fs h => ?_)
  · unfold Dev.flush Dev.nextFault; rw [show (setFaults fs d).faults = fs from rfl, h]; rfl
  · unfold Dev.flush Dev.nextFault
    rw [show (setFaults fs d).faults = fs from rfl]
    cases hf : fs.headD .none with
    | none => exact absurd hf h
    | fail k => rfl

theorem syncAll : Honest setFaults (· = .device) Dev.syncAll := by
  refine ⟨fun d => ?_⟩
  refine one (.ok ()) { d with log := d.log ++ [.sync] } (fun fs h => ?_) (fun fs h => ?_)
  · unfold Dev.syncAll Dev.nextFault; rw [show (setFaults fs d).faults = fs from rfl, h]; rfl
  · unfold Dev.syncAll Dev.nextFault
    rw [show (setFaults fs d).faults = fs from rfl]
    cases hf : fs.headD .none with
    | none => exact absurd hf h
    | fail k => rfl

theorem readExact (n : Nat) : Honest setFaults (· = .device) (Dev.readExact n) := by
  refine ⟨fun d => ?_⟩
  by_cases hn : n = 0
  · subst hn
    exact ⟨0, .ok [], d, fun fs => ⟨fun _ => rfl, fun h => absurd (works_zero fs) h⟩⟩
  have fault : ∀ fs, fs.headD .none ≠ .none → (Dev.readExact n (setFaults fs d)).1 = .err .device := fun fs h => by
    unfold Dev.readExact Dev.nextFault
    rw [if_neg hn, show (setFaults fs d).faults = fs from rfl]
    cases hf : fs.headD .none with
    | none => exact absurd hf h
    | fail k => rfl
  by_cases hr : d.pos + n ≤ d.data.length
  · refine one (.ok (slice d.data d.pos n)) { d with pos := d.pos + n } (fun fs h => ?_) fault
    unfold Dev.readExact Dev.nextFault
    rw [if_neg hn, show (setFaults fs d).faults = fs from rfl, h]
    simp only
    rw [if_pos (show (setFaults fs d).pos + n ≤ (setFaults fs d).data.length from hr)]
    rfl
  · refine one (.err .unexpectedEof) { d with pos := max d.pos d.data.length } (fun fs h => ?_) fault
    unfold Dev.readExact Dev.nextFault
    rw [if_neg hn, show (setFaults fs d).faults = fs from rfl, h]
    simp only
    rw [if_neg (show ¬ (setFaults fs d).pos + n ≤ (setFaults fs d).data.length from hr)]
    rfl

theorem put_set (fs : List Fault) (d : Dev) (bs : Bytes) : (setFaults fs d).put bs = setFaults fs (d.put bs) := by
  unfold Dev.put
  split <;> rfl

theorem writeAll (bs : Bytes) : Honest setFaults (· = .device) (Dev.writeAll bs) := by
  refine ⟨fun d => ?_⟩
  by_cases hn : bs = []
  · subst hn
    exact ⟨0, .ok (), d, fun fs => ⟨fun _ => rfl, fun h => absurd (works_zero fs) h⟩⟩
  have fault : ∀ fs, fs.headD .none ≠ .none → (Dev.writeAll bs (setFaults fs d)).1 = .err .device := fun fs h => by
    unfold Dev.writeAll Dev.nextFault
    rw [if_neg hn, show (setFaults fs d).faults = fs from rfl]
    cases hf : fs.headD .none with
    | none => exact absurd hf h
    | fail k => rfl
  by_cases hr : d.pos + bs.length ≤ d.cap
  · refine one (.ok ()) (d.put bs) (fun fs h => ?_) fault
    unfold Dev.writeAll Dev.nextFault
    rw [if_neg hn, show (setFaults fs d).faults = fs from rfl, h]
    simp only
    rw [if_pos (show (setFaults fs d).pos + bs.length ≤ (setFaults fs d).cap from hr), ← put_set]
    rfl
  · refine one (.err .writeZero) (d.put (bs.take (d.cap - d.pos))) (fun fs h => ?_) fault
    unfold Dev.writeAll Dev.nextFault
    rw [if_neg hn, show (setFaults fs d).faults = fs from rfl, h]
    simp only
    rw [if_neg (show ¬ (setFaults fs d).pos + bs.length ≤ (setFaults fs d).cap from hr), ← put_set]
    rfl

end Spec.Honest

/-! ## The functions on a device -/

/-- The failure of the device, as headers report it. -/
def Spec.HeaderIo (e : HeaderError) : Prop := e = .io .device

theorem dev_header {α : Type} {x : M Dev IoErr α} (h : Honest setFaults (· = .device) x) : Honest setFaults HeaderIo (x.mapErr .io) :=
  Honest.mapErr h fun _ h => by rw [h]; rfl

theorem honest_find (lb : LbSize) : Honest setFaults HeaderIo (findBackupLba lb) := by
  unfold findBackupLba
  refine .bind (dev_header .streamPosition) fun _ => .bind (dev_header .seekEnd) fun _ => .bind (dev_header (.seekStart _)) fun _ => ?_
  exact .ite (.throw _) (.pure _)

theorem honest_checksum (h : Header) (lb : LbSize) : Honest setFaults HeaderIo (partentryChecksum h lb) := by
  unfold partentryChecksum
  exact .bind (.lift _) fun _ => .bind (dev_header (.seekStart _)) fun _ => .bind (.lift _) fun _ => .bind (.lift _) fun _ =>
    .bind (dev_header (.readExact _)) fun _ => .pure _

theorem honest_entry (m : Mode) (p : Partition) (i st : UInt64) (lb : LbSize) (n : UInt32) :
    Honest setFaults (· = .device) (p.writeToDevice m i st lb n) := by
  unfold Partition.writeToDevice
  exact .bind (.lift _) fun _ => .bind (.lift _) fun _ => .bind (.lift _) fun _ => .bind (.seekStart _) fun _ => .writeAll _

theorem honest_zeroEntries (m : Mode) (a b c : UInt64) (lb : LbSize) (n : UInt32) :
    Honest setFaults (· = .device) (Partition.writeZeroEntries m a b c lb n) := by
  unfold Partition.writeZeroEntries
  exact .bind (.lift _) fun _ => .bind (.lift _) fun _ => .bind (.lift _) fun _ => .bind (.seekStart _) fun _ =>
    .bind (.lift _) fun _ => .bind (.lift _) fun _ => .writeAll _

theorem honest_readEntries (m : Mode) (n : Nat) (i : UInt32) (e : Nat) (t : PMap) : Honest setFaults (· = .device) (readEntries m n i e t) := by
  induction n generalizing i e t with
  | zero => exact .pure _
  | succ n ih =>
    unfold readEntries
    refine .bind (.readExact _) fun _ => .ite (.bind (.lift _) fun _ => ih ..) (.bind (.lift _) fun _ => ih ..)

theorem honest_table (m : Mode) (h : Header) (lb : LbSize) : Honest setFaults (· = .device) (fileReadPartitions m h lb) := by
  unfold fileReadPartitions
  exact .bind (.lift _) fun _ => .bind (.seekStart _) fun _ => .ite .panic (.bind (honest_readEntries ..) fun _ => .bind (.seekStart _) fun _ =>
    .bind (.lift _) fun _ => .bind (.readExact _) fun _ => .ite (.throw _) (.pure _))

theorem honest_fileWrite (lba : UInt64) (lb : LbSize) : Honest setPairFaults HeaderIo (Header.fileWriteHeader lba lb) := by
  have z : ∀ {α : Type} {x : M Dev HeaderError α}, Honest setFaults HeaderIo x → Honest setPairFaults HeaderIo (Header.onDev x) :=
    fun h => .zoom h (fun _ _ => rfl) (fun _ _ _ _ => rfl)
  unfold Header.fileWriteHeader
  refine .get (fun s => ?_) (fun _ _ => rfl)
  refine .bind (z (honest_checksum ..)) fun c => .bind (.modify fun _ _ => rfl) fun _ => .get (fun s => ?_) (fun _ _ => rfl)
  refine .bind (.lift _) fun v => ?_
  exact .bind (.modify fun _ _ => rfl) fun _ => .bind (.lift _) fun _ => .bind (z (dev_header (.seekStart _))) fun _ =>
    .bind (z (dev_header (.writeAll _))) fun _ => .pure _

theorem honest_primary (lb : LbSize) : Honest setPairFaults HeaderIo (Header.writePrimary lb) := by
  unfold Header.writePrimary
  exact .get (fun s => .ite (.throw _) (honest_fileWrite ..)) (fun _ _ => rfl)

theorem honest_backup (lb : LbSize) : Honest setPairFaults HeaderIo (Header.writeBackup lb) := by
  unfold Header.writeBackup
  exact .get (fun s => .ite (.throw _) (honest_fileWrite ..)) (fun _ _ => rfl)

theorem honest_writeHeader (m : Mode) (u : Option Uuid) (fresh : Uuid) (lb : LbSize) : Honest setFaults HeaderIo (writeHeader m u fresh lb) := by
  unfold writeHeader
  refine .bind (honest_find lb) fun bak => .bind (.lift _) fun h => ⟨fun d => ?_⟩
  obtain ⟨k, r, t, h1⟩ := (honest_primary lb).run (h, d)
  refine ⟨k, match r with | .ok _ => .ok t.1.diskGuid | .err e => .err e | .panic => .panic, t.2, fun fs => ⟨fun hw => ?_, fun hw => ?_⟩⟩
  · unfold writePrimaryGuid
    rw [show (h, setFaults fs d) = setPairFaults fs (h, d) from rfl, (h1 fs).1 hw]
    cases r <;> rfl
  · obtain ⟨e, h2, h3⟩ := (h1 fs).2 hw
    refine ⟨e, ?_, h3⟩
    unfold writePrimaryGuid
    rw [show (h, setFaults fs d) = setPairFaults fs (h, d) from rfl, h2]

/-! ## MBR -/

/-- The failure of the device, as the functions of the MBR report it. -/
def Spec.MbrIo (e : MbrError) : Prop := e = .io .device

theorem dev_mbr {α : Type} {x : M Dev IoErr α} (h : Honest setFaults (· = .device) x) : Honest setFaults MbrIo (x.mapErr .io) :=
  Honest.mapErr h fun _ h => by rw [h]; rfl

theorem honest_fromDisk (lb : LbSize) : Honest setFaults MbrIo (ProtectiveMbr.fromDisk lb) := by
  unfold ProtectiveMbr.fromDisk
  refine .bind (dev_mbr .streamPosition) fun _ => .bind (dev_mbr (.seekStart _)) fun _ => .bind (dev_mbr (.readExact _)) fun _ =>
    .bind (.tryLift _) fun r => .bind (dev_mbr (.seekStart _)) fun _ => ?_
  cases r with
  | ok p => exact .pure _
  | error e => exact .throw _

theorem honest_overwrite (b : ProtectiveMbr) : Honest setFaults MbrIo b.overwriteLba0 := by
  unfold ProtectiveMbr.overwriteLba0
  exact .bind (dev_mbr .streamPosition) fun _ => .bind (dev_mbr (.seekStart _)) fun _ => .bind (dev_mbr (.writeAll _)) fun _ =>
    .bind (dev_mbr .flush) fun _ => .bind (dev_mbr (.seekStart _)) fun _ => .pure _

theorem honest_update (b : ProtectiveMbr) : Honest setFaults MbrIo b.updateConservative := by
  unfold ProtectiveMbr.updateConservative
  exact .bind (dev_mbr .streamPosition) fun _ => .bind (dev_mbr (.seekStart _)) fun _ => .bind (dev_mbr (.writeAll _)) fun _ =>
    .bind (dev_mbr (.writeAll _)) fun _ => .bind (dev_mbr (.writeAll _)) fun _ => .bind (dev_mbr (.writeAll _)) fun _ =>
    .bind (dev_mbr (.writeAll _)) fun _ => .bind (dev_mbr .flush) fun _ => .bind (dev_mbr (.seekStart _)) fun _ => .pure _

theorem honest_readAt (o : UInt64) (n : Nat) : Honest setFaults (· = .device) (readAt o n) := by
  unfold readAt
  exact .bind .streamPosition fun _ => .bind (.seekStart _) fun _ => .bind (.readExact _) fun _ => .bind (.seekStart _) fun _ => .pure _

theorem honest_writeAt (o : UInt64) (b : Bytes) : Honest setFaults (· = .device) (writeAt o b) := by
  unfold writeAt
  exact .bind .streamPosition fun _ => .bind (.seekStart _) fun _ => .bind (.writeAll _) fun _ => .bind .flush fun _ =>
    .bind (.seekStart _) fun _ => .pure _

/-! ## Disks -/

theorem honest_onDev {ε α : Type} {io : ε → Prop} (g : ε → GptError) {x : M Dev ε α} (h : Honest setFaults io x) (hg : ∀ e, io e → GptIo (g e)) :
    Honest setDiskFaults GptIo (onDev g x) := by
  unfold onDev
  exact .zoom (.mapErr h hg) (fun _ _ => rfl) (fun _ _ _ _ => rfl)

theorem gptIo_header (e : HeaderError) (h : HeaderIo e) : GptIo (.header e) := by unfold HeaderIo at h; rw [h]; exact .inr rfl
theorem gptIo_io (e : IoErr) (h : e = .device) : GptIo (.io e) := by rw [h]; exact .inl rfl

theorem honest_init (m : Mode) (fresh : Uuid) : Honest setDiskFaults GptIo (initHeaders m fresh) := by
  unfold initHeaders
  refine .get (fun s => ?_) (fun _ _ => rfl)
  exact .bind (honest_onDev _ (honest_find _) gptIo_header) fun _ => .bind (.lift _) fun _ => .bind (.modify fun _ _ => rfl) fun _ =>
    .ite (.pure _) (.bind (.lift _) fun _ => .modify fun _ _ => rfl)

theorem honest_insert (m : Mode) (name : String) (id : UInt32) (first length : UInt64) (ty : PType) (flags : UInt64) (fresh fresh2 : Uuid) :
    Honest setDiskFaults GptIo (insertPartition m name id first length ty flags fresh fresh2) := by
  unfold insertPartition
  refine .bind (.lift _) fun _ => .bind (.lift _) fun _ => .get (fun s => ?_) (fun _ _ => rfl)
  refine .bind (.lift _) fun _ => .ite (.throw _) (.bind (.modify fun _ _ => rfl) fun _ => ?_)
  exact .ite (.bind (honest_init ..) fun _ => .pure _) (.pure _)

theorem honest_addLoop (m : Mode) (name : String) (size : UInt64) (ty : PType) (flags : UInt64) (align : Option UInt64) (fresh fresh2 : Uuid)
    (free : List (UInt64 × UInt64)) : Honest setDiskFaults GptIo (addPartitionLoop m name size ty flags align fresh fresh2 free) := by
  induction free with
  | nil => exact .throw _
  | cons x rest ih =>
    obtain ⟨start, length⟩ := x
    unfold addPartitionLoop
    refine .bind (.lift _) fun _ => .bind (.lift _) fun _ => .ite (.bind (.lift _) fun _ => .get (fun s => ?_) (fun _ _ => rfl)) ih
    refine .bind (.lift _) fun i => ?_
    cases i with
    | some i => exact .bind (.pure _) fun _ => honest_insert ..
    | none => exact .bind (.lift _) fun _ => .bind (.lift _) fun _ => honest_insert ..

theorem honest_add (m : Mode) (name : String) (size : UInt64) (ty : PType) (flags : UInt64) (align : Option UInt64) (fresh fresh2 : Uuid) :
    Honest setDiskFaults GptIo (addPartition m name size ty flags align fresh fresh2) := by
  unfold addPartition
  exact .ite .panic (.get (fun s => .bind (.lift _) fun _ => .bind (.lift _) fun _ => .bind (.lift _) fun _ => honest_addLoop ..) (fun _ _ => rfl))

theorem honest_addAtLoop (m : Mode) (name : String) (id : UInt32) (first length : UInt64) (ty : PType) (flags : UInt64) (fresh fresh2 : Uuid)
    (free : List (UInt64 × UInt64)) : Honest setDiskFaults GptIo (addPartitionAtLoop m name id first length ty flags fresh fresh2 free) := by
  induction free with
  | nil => exact .throw _
  | cons x rest ih =>
    obtain ⟨start, len⟩ := x
    unfold addPartitionAtLoop
    exact .ite (honest_insert ..) ih

theorem honest_addAt (m : Mode) (name : String) (id : UInt32) (first length : UInt64) (ty : PType) (flags : UInt64) (fresh fresh2 : Uuid) :
    Honest setDiskFaults GptIo (addPartitionAt m name id first length ty flags fresh fresh2) := by
  unfold addPartitionAt
  exact .ite .panic (.ite .panic (.get (fun s => .ite (.throw _) (.bind (.lift _) fun _ => honest_addAtLoop ..)) (fun _ _ => rfl)))

theorem honest_updateParts (m : Mode) (pp : PMap) (fresh : Uuid) : Honest setDiskFaults GptIo (updatePartitions m pp fresh) := by
  unfold updatePartitions
  exact .ite .panic (.get (fun s => .bind (.lift _) fun _ => .ite (.throw _) (.bind (.modify fun _ _ => rfl) fun _ => honest_init ..)) (fun _ _ => rfl))

theorem honest_entries (m : Mode) (lb : LbSize) (ph : Header) (bh : Option Header) (ps : List Partition) (i n : Nat) :
    Honest setFaults GptIo (writeEntries m lb ph bh ps i n) := by
  induction ps generalizing i n with
  | nil => exact .pure _
  | cons p ps ih =>
    unfold writeEntries
    refine .ite (.throw _) (.bind (.mapErr (honest_entry ..) gptIo_io) fun _ => ?_)
    cases bh with
    | none => exact ih _ _
    | some bh =>
      dsimp only
      refine .ite (.bind (.throw _) fun _ => ih _ _) (.ite ?_ ?_)
      · exact .bind (.mapErr (honest_entry ..) gptIo_io) fun _ => ih _ _
      · exact .bind (.pure _) fun _ => ih _ _

theorem honest_zeros (m : Mode) (lb : LbSize) (h : Header) (n : Nat) : Honest setFaults GptIo (writeZeros m lb h n) := by
  unfold writeZeros
  cases checkedSub64 h.numParts.toUInt64 (UInt64.ofNat n) with
  | none => exact .bind .panic fun _ => .mapErr (honest_zeroEntries ..) gptIo_io
  | some k => exact .bind (.pure _) fun _ => .mapErr (honest_zeroEntries ..) gptIo_io

theorem honest_onBackup (h : Header) {x : M (Header × Dev) HeaderError Nat} (hx : Honest setPairFaults HeaderIo x) :
    Honest setDiskFaults GptIo (onBackup h x) := by
  refine ⟨fun s => ?_⟩
  obtain ⟨k, r, t, h1⟩ := hx.run (h, s.device)
  refine ⟨k, match r with | .ok _ => .ok () | .err e => .err (.header e) | .panic => .panic,
    { s with backupHeader := .ok t.1, device := t.2 }, fun fs => ⟨fun hw => ?_, fun hw => ?_⟩⟩
  · unfold onBackup
    rw [show (h, (setDiskFaults fs s).device) = setPairFaults fs (h, s.device) from rfl, (h1 fs).1 hw]
    cases r <;> rfl
  · obtain ⟨e, h2, h3⟩ := (h1 fs).2 hw
    refine ⟨.header e, ?_, gptIo_header e h3⟩
    unfold onBackup
    rw [show (h, (setDiskFaults fs s).device) = setPairFaults fs (h, s.device) from rfl, h2]

theorem honest_onPrimary (h : Header) {x : M (Header × Dev) HeaderError Nat} (hx : Honest setPairFaults HeaderIo x) :
    Honest setDiskFaults GptIo (onPrimary h x) := by
  refine ⟨fun s => ?_⟩
  obtain ⟨k, r, t, h1⟩ := hx.run (h, s.device)
  refine ⟨k, match r with | .ok _ => .ok () | .err e => .err (.header e) | .panic => .panic,
    { s with primaryHeader := .ok t.1, device := t.2 }, fun fs => ⟨fun hw => ?_, fun hw => ?_⟩⟩
  · unfold onPrimary
    rw [show (h, (setDiskFaults fs s).device) = setPairFaults fs (h, s.device) from rfl, (h1 fs).1 hw]
    cases r <;> rfl
  · obtain ⟨e, h2, h3⟩ := (h1 fs).2 hw
    refine ⟨.header e, ?_, gptIo_header e h3⟩
    unfold onPrimary
    rw [show (h, (setDiskFaults fs s).device) = setPairFaults fs (h, s.device) from rfl, h2]

theorem honest_write (m : Mode) : Honest setDiskFaults GptIo (writeInplace m) := by
  have dev : ∀ {α : Type} {x : M Dev GptError α}, Honest setFaults GptIo x → Honest setDiskFaults GptIo (onDev id x) :=
    fun h => honest_onDev _ h fun _ h => h
  unfold writeInplace
  refine .get (fun s => ?_) (fun _ _ => rfl)
  refine .ite (.throw _) (.bind (honest_onDev _ (honest_find _) gptIo_header) fun _ => .bind (.lift _) fun _ => .bind (.lift _) fun ph =>
    .bind (.modify fun _ _ => rfl) fun _ => ?_)
  have tail : Honest setDiskFaults GptIo (do
      onPrimary ph (Header.writePrimary s.config.lbSize)
      onDev .io Dev.flush
      if s.syncAll then onDev .io Dev.syncAll else pure ()) :=
    .bind (honest_onPrimary _ (honest_primary _)) fun _ => .bind (honest_onDev _ .flush gptIo_io) fun _ =>
      .ite (honest_onDev _ .syncAll gptIo_io) (.pure _)
  refine .ite (.bind (.pure _) fun bh => ?_) (.bind (.lift _) fun _ => .bind (.modify fun _ _ => rfl) fun _ => .bind (.pure _) fun bh => ?_)
  all_goals
    refine .bind (dev (honest_entries ..)) fun _ => .bind (dev (honest_zeros ..)) fun _ => ?_
    cases bh with
    | none => exact tail
    | some bh => exact .bind (dev (honest_zeros ..)) fun _ => .bind (honest_onBackup _ (honest_backup _)) fun _ => tail

/-! ## C108 -/

/-- **C108**: the calls on a disk. (`device_mut` and `update_disk_device` do nothing to a device.) -/
theorem c108_calls (m : Mode) (op : Op) (h1 : ∀ d w, op ≠ .updateDiskDevice d w) (h2 : ∀ d, op ≠ .deviceMut d) :
    Honest setDiskFaults GptIo (op.step m) := by
  have quiet : ∀ {α : Type} (f : GptDisk → α) (g : GptDisk → GptDisk), (∀ fs s, f (setDiskFaults fs s) = f s) →
      (∀ fs s, g (setDiskFaults fs s) = setDiskFaults fs (g s)) → Honest setDiskFaults GptIo (fun s => (.ok (f s), g s) : M GptDisk GptError α) :=
    fun f g hf hg => ⟨fun s => ⟨0, .ok (f s), g s, fun fs => ⟨fun _ => by simp only [hf, hg]; rfl, fun h => absurd (works_zero fs) h⟩⟩⟩
  cases op with
  | addPartition n sz t f a r r2 => exact .mapOk _ (honest_add ..)
  | addPartitionAt n i fl l t f r r2 => exact .mapOk _ (honest_addAt ..)
  | removePartition i =>
    refine .mapOk _ ⟨fun s => ?_⟩
    unfold removePartition
    cases hg : PMap.get s.partitions i with
    | none => exact ⟨0, .ok none, s, fun fs => ⟨fun _ => by simp only [show (setDiskFaults fs s).partitions = s.partitions from rfl, hg]; rfl, fun h => absurd (works_zero fs) h⟩⟩
    | some p => exact ⟨0, .ok (some i), { s with partitions := PMap.remove s.partitions i }, fun fs => ⟨fun _ => by
        simp only [show (setDiskFaults fs s).partitions = s.partitions from rfl, hg]; rfl, fun h => absurd (works_zero fs) h⟩⟩
  | removePartitionByGuid g =>
    refine .mapOk _ ⟨fun s => ?_⟩
    unfold removePartitionByGuid
    cases hg : s.partitions.find? (fun e => e.2.partGuid == g) with
    | none => exact ⟨0, .ok none, s, fun fs => ⟨fun _ => by simp only [show (setDiskFaults fs s).partitions = s.partitions from rfl, hg]; rfl, fun h => absurd (works_zero fs) h⟩⟩
    | some e => exact ⟨0, .ok (some e.1), { s with partitions := PMap.remove s.partitions e.1 }, fun fs => ⟨fun _ => by
        simp only [show (setDiskFaults fs s).partitions = s.partitions from rfl, hg]; rfl, fun h => absurd (works_zero fs) h⟩⟩
  | takePartitions => exact .mapOk _ (quiet (·.partitions) (fun s => { s with partitions := [] }) (fun _ _ => rfl) fun _ _ => rfl)
  | updateGuid u r => exact .mapOk (fun _ => OpVal.unit) (quiet (fun _ => ()) (fun s => { s with guid := u.getD r }) (fun _ _ => rfl) fun _ _ => rfl)
  | updatePartitions pp r => exact .mapOk _ (honest_updateParts ..)
  | updateDiskDevice d w => exact absurd rfl (h1 d w)
  | deviceMut d => exact absurd rfl (h2 d)
  | writeInplace => exact .mapOk _ (honest_write m)

/-- **C108**: reading a table, writing entries and `write_header`. -/
theorem c108_tables (m : Mode) (lb : LbSize) (h : Header) (p : Partition) (i st a : UInt64) (n : UInt32) (u : Option Uuid) (fresh : Uuid) :
    Honest setFaults (· = .device) (fileReadPartitions m h lb) ∧ Honest setFaults (· = .device) (p.writeToDevice m i st lb n) ∧
    Honest setFaults (· = .device) (Partition.writeZeroEntries m i a st lb n) ∧ Honest setFaults (· = .device) (p.write m i st lb) ∧
    Honest setFaults HeaderIo (writeHeader m u fresh lb) :=
  ⟨honest_table .., honest_entry .., honest_zeroEntries .., honest_entry .., honest_writeHeader ..⟩

/-- **C108**: `write_primary` and `write_backup`. -/
theorem c108_headers (lb : LbSize) : Honest setPairFaults HeaderIo (Header.writePrimary lb) ∧ Honest setPairFaults HeaderIo (Header.writeBackup lb) :=
  ⟨honest_primary lb, honest_backup lb⟩

/-- **C108**: the functions of `src/mbr.rs`. -/
theorem c108_mbr (lb : LbSize) (b : ProtectiveMbr) (boot : ByteArr 440) (sig : ByteArr 4) : Honest setFaults MbrIo (ProtectiveMbr.fromDisk lb) ∧
    Honest setFaults MbrIo b.overwriteLba0 ∧ Honest setFaults MbrIo b.updateConservative ∧ Honest setFaults (· = .device) readBootcode ∧
    Honest setFaults (· = .device) (writeBootcode boot) ∧ Honest setFaults (· = .device) readDiskSignature ∧
    Honest setFaults (· = .device) (writeDiskSignature sig) :=
  ⟨honest_fromDisk lb, honest_overwrite b, honest_update b, honest_readAt _ _, honest_writeAt _ _, honest_readAt _ _, honest_writeAt _ _⟩

/-- **C108**: creating. -/
theorem c108_create (m : Mode) (cfg : GptConfig) (guid : Option Uuid) (fresh fresh2 : Uuid) (d : Dev) :
    ∃ (k : Nat) (r : Res GptError GptDisk) (t : Dev), ∀ fs,
      (Works k fs → createFromDevice m cfg guid fresh fresh2 (setFaults fs d) =
        (match r with | .ok s => .ok (setDiskFaults (fs.drop k) s) | .err e => .err e | .panic => .panic, setFaults (fs.drop k) t)) ∧
      (¬ Works k fs → ∃ e, (createFromDevice m cfg guid fresh fresh2 (setFaults fs d)).1 = .err e ∧ GptIo e) := by
  obtain ⟨k, r, t, h⟩ := (honest_init m fresh2).run (blankDisk cfg d (guid.getD fresh))
  refine ⟨k, match r with | .ok _ => .ok t | .err e => .err e | .panic => .panic, t.device, fun fs => ⟨fun hw => ?_, fun hw => ?_⟩⟩
  · unfold createFromDevice
    rw [show blankDisk cfg (setFaults fs d) (guid.getD fresh) = setDiskFaults fs (blankDisk cfg d (guid.getD fresh)) from rfl, (h fs).1 hw]
    cases r <;> rfl
  · obtain ⟨e, h1, h2⟩ := (h fs).2 hw
    refine ⟨e, ?_, h2⟩
    unfold createFromDevice
    rw [show blankDisk cfg (setFaults fs d) (guid.getD fresh) = setDiskFaults fs (blankDisk cfg d (guid.getD fresh)) from rfl]
    rcases hx : initHeaders m fresh2 (setDiskFaults fs (blankDisk cfg d (guid.getD fresh))) with ⟨r', u⟩
    rw [hx] at h1
    simp only at h1
    subst h1
    rfl

/-- **C108**: so what is reported as done was done. A call that returns `Ok` returns, and leaves, what it would on a device that works. -/
theorem c108_ok (m : Mode) (op : Op) (h1 : ∀ d w, op ≠ .updateDiskDevice d w) (h2 : ∀ d, op ≠ .deviceMut d) (s s' : GptDisk) (v : OpVal)
    (h : op.step m s = (.ok v, s')) : op.step m (setDiskFaults [] s) = (.ok v, setDiskFaults [] s') := by
  obtain ⟨k, r, t, hk⟩ := (c108_calls m op h1 h2).run s
  have hs : setDiskFaults s.device.faults s = s := rfl
  have h3 := hk s.device.faults
  rw [hs, h] at h3
  by_cases hw : Works k s.device.faults
  · obtain ⟨rfl, rfl⟩ := Prod.mk.inj (h3.1 hw)
    have := (hk []).1 (works_nil k)
    rw [this, List.drop_nil]
    rfl
  · obtain ⟨e, h4, -⟩ := h3.2 hw
    cases h4

/-- **C108**: reading a header is not honest; a failed seek to it is passed over (C60, C96). -/
theorem c108_not_header : ¬ Honest setFaults HeaderIo (readPrimaryHeader .lb512) := by
  intro h
  obtain ⟨k, r, t, hk⟩ := h.run ⟨zeros 100, 0, 100, [], []⟩
  have e1 : (readPrimaryHeader .lb512 (setFaults [] ⟨zeros 100, 0, 100, [], []⟩)).1 = .err (.io .unexpectedEof) := by decide +kernel
  have e2 : (readPrimaryHeader .lb512 (setFaults [.none, .fail 0] ⟨zeros 100, 0, 100, [], []⟩)).1 = .err .invalidGptSignature :=
    (failedSeek_parse _ _ 0 rfl).trans (by decide +kernel)
  rw [(hk []).1 (works_nil k)] at e1
  simp only at e1
  subst e1
  by_cases hw : Works k [.none, .fail 0]
  · rw [(hk _).1 hw] at e2
    cases e2
  · obtain ⟨e, h1, h2⟩ := (hk _).2 hw
    rw [e2] at h1
    cases h1
    cases h2

/-- An addition that makes three operations: it returns the failure of the third, and `Ok` when only the fourth would fail. -/
example : ((Op.addPartitionAt "x" 200 80 5 (exPart 0 0).partType 0 Uuid.nil Uuid.nil).step .debug
      (setDiskFaults [.none, .none, .fail 0] { exDiskChange with device := ⟨zeros 102400, 0, 102400, [], []⟩ })).1 = .err (.header (.io .device)) ∧
    ((Op.addPartitionAt "x" 200 80 5 (exPart 0 0).partType 0 Uuid.nil Uuid.nil).step .debug
      (setDiskFaults [.none, .none, .none, .fail 0] { exDiskChange with device := ⟨zeros 102400, 0, 102400, [], []⟩ })).1 = .ok (.id 200) :=
  ⟨by decide +kernel, by decide +kernel⟩

end Gpt
