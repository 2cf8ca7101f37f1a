import Verif.Props.Decides
import Verif.Props.Untouched
import Verif.Props.Create
/-!
# C135: where a disk GUID set with `update_guid` shows

C43 (false as stated) says that a write stores it. Here: what it takes for the new GUID to reach the headers, and that until then no call,
no header and no byte of the device depends on it.
-/

namespace Gpt

open Spec GptDisk

/-- The disk `s` with another GUID in memory. -/
def Spec.withGuid (g : Uuid) (s : GptDisk) : GptDisk := { s with guid := g }

/-- The calls that rebuild the headers with the GUID in memory, if the number of slots may not change. -/
def Spec.Replaces : Op → Bool
  | .updatePartitions _ _ => true
  | _ => false

/-- The calls that set the GUID. -/
def Spec.SetsGuid : Op → Bool
  | .updateGuid _ _ => true
  | _ => false

/-- `x` does the same on `s` and on `f s`. -/
def M.BlindAt {σ ε α : Type} (f : σ → σ) (x : M σ ε α) (s : σ) : Prop := x (f s) = ((x s).1, f (x s).2)

namespace M.BlindAt
variable {ε α β : Type} {f : GptDisk → GptDisk} {s : GptDisk}

theorem lift {r : Res ε β} {k : β → M GptDisk ε α} (hk : ∀ a, M.BlindAt f (k a) s) : M.BlindAt f (M.lift r >>= k) s := by
  unfold M.BlindAt
  simp only [M.bind_apply, M.lift_apply]
  cases r with
  | ok a => exact hk a
  | err e => rfl
  | panic => rfl

theorem ite {c : Prop} [Decidable c] {x y : M GptDisk ε α} (hx : M.BlindAt f x s) (hy : M.BlindAt f y s) :
    M.BlindAt f (if c then x else y) s := by
  split
  · exact hx
  · exact hy

end M.BlindAt

section
variable {m : Mode} {g : Uuid} {s : GptDisk}

theorem insertPartition_guid (hc : s.config.changePartitionCount = false) (name : String) (id : UInt32) (first length : UInt64) (ty : PType)
    (flags : UInt64) (fresh fresh2 : Uuid) :
    M.BlindAt (withGuid g) (insertPartition m name id first length ty flags fresh fresh2) s := by
  unfold insertPartition
  refine .lift fun e => .lift fun last => ?_
  show M.BlindAt (withGuid g) (M.lift s.header >>= fun h => if (h.numPartsWouldChange id && !s.config.changePartitionCount) = true then _ else _) s
  refine .lift fun h => ?_
  rw [hc]
  cases h.numPartsWouldChange id with
  | true => exact rfl
  | false => exact rfl

theorem addPartitionLoop_guid (hc : s.config.changePartitionCount = false) (name : String) (sizeLba : UInt64) (ty : PType) (flags : UInt64)
    (align : Option UInt64) (fresh fresh2 : Uuid) (L : List (UInt64 × UInt64)) :
    M.BlindAt (withGuid g) (addPartitionLoop m name sizeLba ty flags align fresh fresh2 L) s := by
  induction L with
  | nil => exact rfl
  | cons sec rest ih =>
    unfold addPartitionLoop
    refine .lift fun off => .lift fun need => .ite (.lift fun st => ?_) ih
    refine M.BlindAt.lift (r := s.findNextPartitionId) (k := fun id? => _) fun id? => ?_
    cases id? with
    | some i => exact insertPartition_guid hc _ _ _ _ _ _ _ _
    | none =>
      dsimp only
      exact M.BlindAt.lift fun _ => .lift fun id => insertPartition_guid hc _ _ _ _ _ _ _ _

theorem addPartition_guid (hc : s.config.changePartitionCount = false) (name : String) (size : UInt64) (ty : PType) (flags : UInt64)
    (align : Option UInt64) (fresh fresh2 : Uuid) : M.BlindAt (withGuid g) (addPartition m name size ty flags align fresh fresh2) s := by
  unfold addPartition
  refine .ite rfl ?_
  exact M.BlindAt.lift (r := sub64 m size 1) fun _ => .lift fun _ => .lift (r := s.findFreeSectors m) fun _ => addPartitionLoop_guid hc _ _ _ _ _ _ _ _

theorem addPartitionAtLoop_guid (hc : s.config.changePartitionCount = false) (name : String) (id : UInt32) (first length : UInt64) (ty : PType)
    (flags : UInt64) (fresh fresh2 : Uuid) (L : List (UInt64 × UInt64)) :
    M.BlindAt (withGuid g) (addPartitionAtLoop m name id first length ty flags fresh fresh2 L) s := by
  induction L with
  | nil => exact rfl
  | cons sec rest ih =>
    unfold addPartitionAtLoop
    exact .ite (insertPartition_guid hc _ _ _ _ _ _ _ _) ih

theorem addPartitionAt_guid (hc : s.config.changePartitionCount = false) (name : String) (id : UInt32) (first length : UInt64) (ty : PType)
    (flags : UInt64) (fresh fresh2 : Uuid) : M.BlindAt (withGuid g) (addPartitionAt m name id first length ty flags fresh fresh2) s := by
  unfold addPartitionAt
  refine .ite rfl (.ite rfl ?_)
  exact M.BlindAt.ite (c := (PMap.get s.partitions id).any (·.isUsed) = true) rfl
    (.lift (r := s.findFreeSectors m) fun _ => addPartitionAtLoop_guid hc _ _ _ _ _ _ _ _ _)

theorem writeInplace_guid : M.Blind (withGuid g) (writeInplace m) := by
  unfold writeInplace
  refine .get fun s => ?_
  refine M.Blind.ite (c := (!s.config.writable) = true) (.throw _) ?_ s
  dsimp only
  have dev : ∀ {ε ε' α : Type} (g' : ε → ε') (x : M Dev ε α), M.Blind (withGuid g) (GptDisk.onDev g' x) := fun _ _ _ => rfl
  refine M.Blind.bind (dev _ _) fun _ => .bind (.lift _) fun h => .bind (.lift _) fun ph => .bind (.modify fun _ => rfl) fun _ => ?_
  have rest : ∀ bh, M.Blind (withGuid g) (do
      let next ← onDev id (writeEntries m s.config.lbSize ph bh (usedParts s.partitions) 0 0)
      onDev id (writeZeros m s.config.lbSize ph next)
      match bh with
      | some bh => do
        onDev id (writeZeros m s.config.lbSize bh next)
        onBackup bh (Header.writeBackup s.config.lbSize)
      | none => pure ()
      onPrimary ph (Header.writePrimary s.config.lbSize)
      onDev .io Dev.flush
      if s.syncAll then onDev .io Dev.syncAll else pure ()) := by
    intro bh
    refine M.Blind.bind (dev _ _) fun next => .bind (dev _ _) fun _ => ?_
    have last : M.Blind (withGuid g) (do
        onPrimary ph (Header.writePrimary s.config.lbSize)
        onDev .io Dev.flush
        if s.syncAll then onDev .io Dev.syncAll else pure ()) :=
      .bind (fun _ => rfl) fun _ => .bind (dev _ _) fun _ => .ite (dev _ _) (.pure _)
    cases bh with
    | none => exact last
    | some bh => exact .bind (dev _ _) fun _ => .bind (fun _ => rfl) fun _ => last
  refine M.Blind.ite (.bind (.pure _) rest) ?_
  exact .bind (.lift _) fun bh => .bind (.modify fun _ => rfl) fun _ => .bind (.pure _) rest

theorem mapOk_blindAt {α β : Type} {f : GptDisk → GptDisk} {x : M GptDisk GptError α} (k : α → β) (hx : M.BlindAt f x s) : M.BlindAt f (x.mapOk k) s := by
  unfold M.BlindAt at *
  show (_, _) = (_, _)
  simp only [M.mapOk, hx]

theorem step_guid (hc : s.config.changePartitionCount = false) (op : Op) (hr : Replaces op = false) (hg : SetsGuid op = false) :
    M.BlindAt (withGuid g) (op.step m) s := by
  cases op with
  | addPartition n sz t f a r r2 => exact mapOk_blindAt _ (addPartition_guid hc _ _ _ _ _ _ _)
  | addPartitionAt n i fl l t f r r2 => exact mapOk_blindAt _ (addPartitionAt_guid hc _ _ _ _ _ _ _ _)
  | removePartition i =>
    refine mapOk_blindAt _ ?_
    unfold M.BlindAt removePartition
    show (match PMap.get s.partitions i with | some _ => _ | none => _) = _
    cases PMap.get s.partitions i <;> rfl
  | removePartitionByGuid g =>
    refine mapOk_blindAt _ ?_
    unfold M.BlindAt removePartitionByGuid
    show (match s.partitions.find? (fun e => e.2.partGuid == g) with | some _ => _ | none => _) = _
    cases s.partitions.find? (fun e => e.2.partGuid == g) <;> rfl
  | takePartitions => exact rfl
  | updateGuid u r => cases hg
  | updatePartitions pp r => cases hr
  | updateDiskDevice d w => exact rfl
  | deviceMut d => exact rfl
  | writeInplace => exact mapOk_blindAt _ (writeInplace_guid s)

end

/-! ## Until the headers are rebuilt -/

/-- **C135**, unseen. While the number of slots may not change and `update_partitions` is not called, the GUID in memory decides nothing: every
call returns the same, and the disk (headers, table, device) is the same but for that GUID. -/
theorem c135_unseen (m : Mode) (g : Uuid) (ops : List Op) (s : GptDisk) (hc : s.config.changePartitionCount = false)
    (hr : ∀ op ∈ ops, Replaces op = false) :
    outcomes m ops (withGuid g s) = outcomes m ops s ∧
    runOps m ops (withGuid g s) = withGuid (ops.foldl guidAfter g) (runOps m ops s) := by
  induction ops generalizing s g with
  | nil => exact ⟨rfl, rfl⟩
  | cons op ops ih =>
    have hc' : (op.step m s).2.config.changePartitionCount = false := by
      have := (c90_history m [op] s).1
      change (op.step m s).2.config = _ at this
      rw [this]
      exact hc
    have hop := hr op List.mem_cons_self
    have i := fun g => ih g (op.step m s).2 hc' fun o ho => hr o (List.mem_cons_of_mem _ ho)
    have key : op.step m (withGuid g s) = ((op.step m s).1, withGuid (guidAfter g op) (op.step m s).2) := by
      cases hg : SetsGuid op with
      | true =>
        cases op <;> first | rfl | cases hg
      | false =>
        have := step_guid (m := m) (g := g) hc op hop hg
        unfold M.BlindAt at this
        rw [this]
        cases op <;> first | rfl | cases hg
    constructor
    · show _ :: outcomes m ops _ = _ :: outcomes m ops _
      rw [key, (i _).1]
    · show runOps m ops (op.step m (withGuid g s)).2 = _
      rw [key]
      exact (i _).2

/-- **C135**, left out. Under the same conditions all calls of `update_guid` can be left out: headers, table and device are the same. -/
theorem c135_skip (m : Mode) (ops : List Op) (s : GptDisk) (hc : s.config.changePartitionCount = false)
    (hr : ∀ op ∈ ops, Replaces op = false) :
    runOps m ops s = withGuid (ops.foldl guidAfter s.guid) (runOps m (ops.filter fun op => !SetsGuid op) s) := by
  induction ops generalizing s with
  | nil => rfl
  | cons op ops ih =>
    have hc' : (op.step m s).2.config.changePartitionCount = false := by
      have := (c90_history m [op] s).1
      change (op.step m s).2.config = _ at this
      rw [this]
      exact hc
    have hrest : ∀ o ∈ ops, Replaces o = false := fun o ho => hr o (List.mem_cons_of_mem _ ho)
    have i := ih (op.step m s).2 hc' hrest
    have hgd : (op.step m s).2.guid = guidAfter s.guid op := (c90_history m [op] s).2.2
    show runOps m ops (op.step m s).2 = withGuid (ops.foldl guidAfter (guidAfter s.guid op)) _
    rw [i, hgd]
    cases hg : SetsGuid op with
    | false =>
      rw [List.filter_cons_of_pos (by simp [hg])]
      rfl
    | true =>
      rw [List.filter_cons_of_neg (by simp [hg])]
      have e : (op.step m s).2 = withGuid (guidAfter s.guid op) s := by
        cases op <;> first | rfl | cases hg
      rw [e, (c135_unseen m _ _ s hc fun o ho => hrest o (List.mem_of_mem_filter ho)).2]
      rfl

/-- **C135**, arrival. A successful `update_partitions` puts the GUID in memory into the primary header and, unless the backup is kept, into the
backup header. -/
theorem c135_arrives (m : Mode) (pp : PMap) (fresh : Uuid) (s s' : GptDisk) (h : updatePartitions m pp fresh s = (.ok (), s')) :
    ∃ h1, s'.primaryHeader = .ok h1 ∧ h1.diskGuid = s.guid ∧
      (s.config.readonlyBackup = false → ∃ h2, s'.backupHeader = .ok h2 ∧ h2.diskGuid = s.guid) := by
  rcases updatePartitions_any m pp fresh s with ⟨-, hc | ⟨hc, -⟩⟩ | ⟨-, -, -, -, e⟩
  · rw [h] at hc; simp at hc
  · rw [h] at hc; simp at hc
  · rw [h] at e
    rcases initHeaders_any e.symm with ⟨-, -, hc⟩ | ⟨bak, hh, -, hb, hp1, hk⟩
    · exact absurd rfl hc
    · have hg := (build_keeps hb).1
      refine ⟨hh, hp1, hg, fun hro => ?_⟩
      rcases hk with ⟨hc, -⟩ | ⟨-, h2, hb2, hp2, -⟩ | ⟨-, -, -, hc⟩
      · change s.config.readonlyBackup = true at hc
        rw [hro] at hc
        cases hc
      · refine ⟨h2, hp2, ?_⟩
        unfold backupOf at hb2
        rw [(build_keeps hb2).1]
        exact hg
      · exact absurd rfl hc

/-! ## Where the GUIDs in the headers come from -/

/-- Every GUID of the disk (that of the headers in memory and the one set) is in `S`. -/
structure Spec.GuidsIn (S : Uuid → Prop) (s : GptDisk) : Prop where
  primary : ∀ h, s.primaryHeader = .ok h → S h.diskGuid
  backup : ∀ h, s.backupHeader = .ok h → S h.diskGuid
  memory : S s.guid

/-- `x` leaves `P` true. -/
def M.Stays {σ ε α : Type} (P : σ → Prop) (x : M σ ε α) : Prop := ∀ s, P s → P (x s).2

namespace M.Stays
variable {σ ε α β : Type} {P : σ → Prop}

theorem bind {x : M σ ε α} {k : α → M σ ε β} (hx : M.Stays P x) (hk : ∀ a, M.Stays P (k a)) : M.Stays P (x >>= k) := by
  intro s hs
  have h1 := hx s hs
  rw [M.bind_apply]
  revert h1
  rcases x s with ⟨r, s'⟩
  intro h1
  cases r with
  | ok a => exact hk a s' h1
  | err e => exact h1
  | panic => exact h1

theorem lift {r : Res ε β} {k : β → M σ ε α} (hk : ∀ a, r = .ok a → M.Stays P (k a)) : M.Stays P (M.lift r >>= k) := by
  intro s hs
  rw [M.bind_apply, M.lift_apply]
  cases r with
  | ok a => exact hk a rfl s hs
  | err e => exact hs
  | panic => exact hs

theorem get {k : σ → M σ ε α} (hk : ∀ s, P s → P (k s s).2) : M.Stays P (M.get >>= k) := fun s hs => hk s hs
theorem pure (a : α) : M.Stays P (Pure.pure a : M σ ε α) := fun _ h => h
theorem last (r : Res ε α) : M.Stays P (M.lift r : M σ ε α) := fun _ h => h
theorem throw (e : ε) : M.Stays P (M.throw e : M σ ε α) := fun _ h => h
theorem panic : M.Stays P (M.panic : M σ ε α) := fun _ h => h
theorem modify {g : σ → σ} (h : ∀ s, P s → P (g s)) : M.Stays P (M.modify g : M σ ε Unit) := fun s hs => h s hs

theorem ite {c : Prop} [Decidable c] {x y : M σ ε α} (hx : M.Stays P x) (hy : M.Stays P y) : M.Stays P (if c then x else y) := by
  split
  · exact hx
  · exact hy

end M.Stays

section
variable {S : Uuid → Prop} {m : Mode}

theorem onDev_guids {ε ε' α : Type} (g : ε → ε') (x : M Dev ε α) : M.Stays (GuidsIn S) (GptDisk.onDev g x) := fun _ h => ⟨h.1, h.2, h.3⟩

theorem initHeaders_guids (fresh : Uuid) : M.Stays (GuidsIn S) (initHeaders m fresh) := by
  intro s hs
  rcases hx : initHeaders m fresh s with ⟨r, s'⟩
  have hgd : s'.guid = s.guid := by
    have := (initHeaders_fixed m fresh s).guid
    rw [hx] at this
    exact this
  rcases initHeaders_any hx with ⟨h1, h2, -⟩ | ⟨bak, hh, -, hb, hp1, hk⟩
  · exact ⟨by rw [h1]; exact hs.1, by rw [h2]; exact hs.2, by rw [hgd]; exact hs.3⟩
  · have hg : hh.diskGuid = s.guid := (build_keeps hb).1
    refine ⟨fun h e => ?_, fun h e => ?_, by rw [hgd]; exact hs.3⟩
    · rw [hp1] at e
      cases e
      rw [hg]
      exact hs.3
    · rcases hk with ⟨-, hk, -⟩ | ⟨-, h2, hb2, hk, -⟩ | ⟨-, -, hk, -⟩
      · rw [hk] at e; exact hs.2 h e
      · rw [hk] at e
        cases e
        unfold backupOf at hb2
        rw [(build_keeps hb2).1]
        show S hh.diskGuid
        rw [hg]
        exact hs.3
      · rw [hk] at e; exact hs.2 h e

theorem header_guids {s : GptDisk} (hs : GuidsIn S s) {h : Header} (hh : s.header (ε := GptError) = .ok h) : S h.diskGuid := by
  have ht := header_ok_iff.mp hh
  unfold tryHeader at ht
  cases h1 : s.primaryHeader with
  | ok x =>
    rw [h1] at ht
    cases ht
    exact hs.1 _ h1
  | error e =>
    cases h2 : s.backupHeader with
    | ok x =>
      rw [h1, h2] at ht
      cases ht
      exact hs.2 _ h2
    | error e' =>
      rw [h1, h2] at ht
      cases ht

theorem insertPartition_guids (name : String) (id : UInt32) (first length : UInt64) (ty : PType) (flags : UInt64) (fresh fresh2 : Uuid) :
    M.Stays (GuidsIn S) (insertPartition m name id first length ty flags fresh fresh2) := by
  unfold insertPartition
  refine .bind (.last _) fun e => .bind (.last _) fun last => .get fun s hs => ?_
  refine M.Stays.bind (.last _) (fun h => ?_) s hs
  refine M.Stays.ite (.throw _) ?_
  refine M.Stays.bind (.modify fun _ h => ⟨h.1, h.2, h.3⟩) fun _ => ?_
  exact M.Stays.ite (.bind (initHeaders_guids _) fun _ => .pure _) (.pure _)

theorem addPartitionLoop_guids (name : String) (sizeLba : UInt64) (ty : PType) (flags : UInt64) (align : Option UInt64) (fresh fresh2 : Uuid)
    (L : List (UInt64 × UInt64)) : M.Stays (GuidsIn S) (addPartitionLoop m name sizeLba ty flags align fresh fresh2 L) := by
  induction L with
  | nil => exact .throw _
  | cons sec rest ih =>
    unfold addPartitionLoop
    refine .bind (.last _) fun off => .bind (.last _) fun need => .ite (.bind (.last _) fun st => .get fun s hs => ?_) ih
    refine M.Stays.bind (.last _) (fun id? => ?_) s hs
    cases id? with
    | some i => exact M.Stays.bind (.pure _) fun id => insertPartition_guids _ _ _ _ _ _ _ _
    | none =>
      dsimp only
      exact M.Stays.bind (.last _) fun _ => .bind (.last _) fun id => insertPartition_guids _ _ _ _ _ _ _ _

theorem addPartition_guids (name : String) (size : UInt64) (ty : PType) (flags : UInt64) (align : Option UInt64) (fresh fresh2 : Uuid) :
    M.Stays (GuidsIn S) (addPartition m name size ty flags align fresh fresh2) := by
  unfold addPartition
  refine .ite .panic (.get fun s hs => ?_)
  exact M.Stays.bind (.last _) (fun _ => .bind (.last _) fun _ => .bind (.last _) fun _ => addPartitionLoop_guids _ _ _ _ _ _ _ _) s hs

theorem addPartitionAtLoop_guids (name : String) (id : UInt32) (first length : UInt64) (ty : PType) (flags : UInt64) (fresh fresh2 : Uuid)
    (L : List (UInt64 × UInt64)) : M.Stays (GuidsIn S) (addPartitionAtLoop m name id first length ty flags fresh fresh2 L) := by
  induction L with
  | nil => exact .throw _
  | cons sec rest ih =>
    unfold addPartitionAtLoop
    exact .ite (insertPartition_guids _ _ _ _ _ _ _ _) ih

theorem addPartitionAt_guids (name : String) (id : UInt32) (first length : UInt64) (ty : PType) (flags : UInt64) (fresh fresh2 : Uuid) :
    M.Stays (GuidsIn S) (addPartitionAt m name id first length ty flags fresh fresh2) := by
  unfold addPartitionAt
  refine .ite .panic (.ite .panic (.get fun s hs => ?_))
  exact M.Stays.ite (.throw _) (.bind (.last _) fun _ => addPartitionAtLoop_guids _ _ _ _ _ _ _ _ _) s hs

theorem updatePartitions_guids (pp : PMap) (fresh : Uuid) : M.Stays (GuidsIn S) (updatePartitions m pp fresh) := by
  unfold updatePartitions
  refine .ite .panic (.get fun s hs => ?_)
  refine M.Stays.bind (.last _) (fun h => ?_) s hs
  exact M.Stays.ite (.throw _) (.bind (.modify fun _ h => ⟨h.1, h.2, h.3⟩) fun _ => initHeaders_guids _)

/-- Writing a header sets its checksums and nothing else. -/
theorem fileWriteHeader_guid (lba : UInt64) (lb : LbSize) (g : Uuid) : M.Stays (fun x : Header × Dev => x.1.diskGuid = g) (Header.fileWriteHeader lba lb) := by
  have dev : ∀ {α : Type} (x : M Dev HeaderError α), M.Stays (fun x : Header × Dev => x.1.diskGuid = g) (Header.onDev x) := fun _ _ h => h
  unfold Header.fileWriteHeader
  refine .get fun s hs => ?_
  refine M.Stays.bind (dev _) (fun pc => ?_) s hs
  refine .bind (.modify fun _ h => h) fun _ => .get fun s hs => ?_
  refine M.Stays.bind (P := fun x : Header × Dev => x.1.diskGuid = g) (.last _) (fun b => ?_) s hs
  refine .bind (.modify fun _ h => h) fun _ => .bind (.last _) fun _ => .bind (dev _) fun _ => .bind (dev _) fun _ => .pure _

theorem writePrimary_guid (lb : LbSize) (g : Uuid) : M.Stays (fun x : Header × Dev => x.1.diskGuid = g) (Header.writePrimary lb) := by
  unfold Header.writePrimary
  refine .get fun s hs => ?_
  exact M.Stays.ite (.throw _) (fileWriteHeader_guid _ _ _) s hs

theorem writeBackup_guid (lb : LbSize) (g : Uuid) : M.Stays (fun x : Header × Dev => x.1.diskGuid = g) (Header.writeBackup lb) := by
  unfold Header.writeBackup
  refine .get fun s hs => ?_
  exact M.Stays.ite (.throw _) (fileWriteHeader_guid _ _ _) s hs

theorem onPrimary_guids {h : Header} (hh : S h.diskGuid) (lb : LbSize) : M.Stays (GuidsIn S) (onPrimary h (Header.writePrimary lb)) := by
  intro s hs
  refine ⟨fun h' e => ?_, hs.2, hs.3⟩
  cases e
  rw [writePrimary_guid lb h.diskGuid (h, s.device) rfl]
  exact hh

theorem onBackup_guids {h : Header} (hh : S h.diskGuid) (lb : LbSize) : M.Stays (GuidsIn S) (onBackup h (Header.writeBackup lb)) := by
  intro s hs
  refine ⟨hs.1, fun h' e => ?_, hs.3⟩
  cases e
  rw [writeBackup_guid lb h.diskGuid (h, s.device) rfl]
  exact hh

theorem mapErr_ok' {ε ε' α : Type} {f : ε → ε'} {r : Res ε α} {a : α} (h : r.mapErr f = .ok a) : r = .ok a := by
  cases r <;> simp [Res.mapErr] at h ⊢
  exact h

theorem writeInplace_guids : M.Stays (GuidsIn S) (writeInplace m) := by
  unfold writeInplace
  refine .get fun s hs => ?_
  refine M.Stays.ite (c := (!s.config.writable) = true) (.throw _) ?_ s hs
  dsimp only
  refine M.Stays.bind (onDev_guids _ _) fun _ => .lift fun h hh => .lift fun ph hph => ?_
  have g0 : S h.diskGuid := header_guids hs hh
  have g1 : S ph.diskGuid := by
    rw [(build_keeps (mapErr_ok' hph)).1]
    exact g0
  refine .bind (.modify fun _ h => ⟨fun h' e => by cases e; exact g1, h.2, h.3⟩) fun _ => ?_
  have rest : ∀ bh, (∀ b, bh = some b → S b.diskGuid) → M.Stays (GuidsIn S) (do
      let next ← onDev id (writeEntries m s.config.lbSize ph bh (usedParts s.partitions) 0 0)
      onDev id (writeZeros m s.config.lbSize ph next)
      match bh with
      | some bh => do
        onDev id (writeZeros m s.config.lbSize bh next)
        onBackup bh (Header.writeBackup s.config.lbSize)
      | none => pure ()
      onPrimary ph (Header.writePrimary s.config.lbSize)
      onDev .io Dev.flush
      if s.syncAll then onDev .io Dev.syncAll else pure ()) := by
    intro bh hbh
    refine M.Stays.bind (onDev_guids _ _) fun next => .bind (onDev_guids _ _) fun _ => ?_
    have last : M.Stays (GuidsIn S) (do
        onPrimary ph (Header.writePrimary s.config.lbSize)
        onDev .io Dev.flush
        if s.syncAll then onDev .io Dev.syncAll else pure ()) :=
      .bind (onPrimary_guids g1 _) fun _ => .bind (onDev_guids _ _) fun _ => .ite (onDev_guids _ _) (.pure _)
    cases bh with
    | none => exact last
    | some bh => exact .bind (onDev_guids _ _) fun _ => .bind (onBackup_guids (hbh bh rfl) _) fun _ => last
  refine M.Stays.ite (rest none (fun _ h => nomatch h)) ?_
  refine .lift fun bh hb => ?_
  have g2 : S bh.diskGuid := by
    rw [(build_keeps (mapErr_ok' hb)).1]
    exact g1
  exact .bind (.modify fun _ h => ⟨h.1, fun h' e => by cases e; exact g2, h.3⟩) fun _ => rest (some bh) (fun b e => by cases e; exact g2)

theorem step_guids (op : Op) (hu : ∀ u r, op = .updateGuid u r → S (u.getD r)) : M.Stays (GuidsIn S) (op.step m) := by
  have key : ∀ {α : Type} {x : M GptDisk GptError α} (k : α → OpVal), M.Stays (GuidsIn S) x → M.Stays (GuidsIn S) (x.mapOk k) :=
    fun _ h s hs => h s hs
  cases op with
  | addPartition n sz t f a r r2 => exact key _ (addPartition_guids _ _ _ _ _ _ _)
  | addPartitionAt n i fl l t f r r2 => exact key _ (addPartitionAt_guids _ _ _ _ _ _ _ _)
  | removePartition i =>
    refine key _ fun s hs => ?_
    unfold removePartition
    split <;> exact ⟨hs.1, hs.2, hs.3⟩
  | removePartitionByGuid g =>
    refine key _ fun s hs => ?_
    unfold removePartitionByGuid
    split <;> exact ⟨hs.1, hs.2, hs.3⟩
  | takePartitions => exact fun s hs => ⟨hs.1, hs.2, hs.3⟩
  | updateGuid u r => exact fun s hs => ⟨hs.1, hs.2, hu u r rfl⟩
  | updatePartitions pp r => exact key _ (updatePartitions_guids _ _)
  | updateDiskDevice d w => exact fun s hs => ⟨hs.1, hs.2, hs.3⟩
  | deviceMut d => exact fun s hs => ⟨hs.1, hs.2, hs.3⟩
  | writeInplace => exact key _ writeInplace_guids

end

/-- **C135**, origin. After any history, also one in which calls fail or panic, every header in memory has a GUID that was in a header of the
disk at the beginning, or was that of the disk, or was set with `update_guid`. -/
theorem c135_origin (m : Mode) (ops : List Op) (s : GptDisk) (h : Header)
    (hh : (runOps m ops s).primaryHeader = .ok h ∨ (runOps m ops s).backupHeader = .ok h) :
    (∃ h0, (s.primaryHeader = .ok h0 ∨ s.backupHeader = .ok h0) ∧ h.diskGuid = h0.diskGuid) ∨ h.diskGuid = s.guid ∨
    ∃ u fresh, Op.updateGuid u fresh ∈ ops ∧ h.diskGuid = u.getD fresh := by
  let S : Uuid → Prop := fun g => (∃ h0, (s.primaryHeader = .ok h0 ∨ s.backupHeader = .ok h0) ∧ g = h0.diskGuid) ∨ g = s.guid ∨
    ∃ u fresh, Op.updateGuid u fresh ∈ ops ∧ g = u.getD fresh
  have key : ∀ (l : List Op), (∀ o ∈ l, o ∈ ops) → ∀ s0, GuidsIn S s0 → GuidsIn S (runOps m l s0) := by
    intro l
    induction l with
    | nil => exact fun _ _ h => h
    | cons op l ih =>
      intro hl s0 h0
      exact ih (fun o ho => hl o (List.mem_cons_of_mem _ ho)) _
        (step_guids op (fun u r e => .inr (.inr ⟨u, r, e ▸ hl op List.mem_cons_self, rfl⟩)) s0 h0)
  have fin := key ops (fun _ h => h) s ⟨fun h e => .inl ⟨h, .inl e, rfl⟩, fun h e => .inl ⟨h, .inr e, rfl⟩, .inr (.inl rfl)⟩
  rcases hh with hh | hh
  · exact fin.primary h hh
  · exact fin.backup h hh

/-! ## The hypotheses are met -/

/-- A history with two new GUIDs, one of them set before a partition is added, and a write. -/
def guidOps : List Op := [.updateGuid (some ⟨7, 7, 7, 7⟩) Uuid.nil, .addPartition "a" 512 (exPart 0 0).partType 0 none ⟨0, 0, 0, 9⟩ Uuid.nil,
  .updateGuid none ⟨8, 8, 8, 8⟩, .writeInplace, .removePartition 1]

/-- `c135_unseen` and `c135_skip` for it. -/
example : exDisk.config.changePartitionCount = false ∧ (∀ op ∈ guidOps, Replaces op = false) ∧
    guidOps.foldl guidAfter exDisk.guid = ⟨8, 8, 8, 8⟩ ∧ (guidOps.filter fun op => !SetsGuid op).length = 3 := by
  refine ⟨rfl, ?_, rfl, rfl⟩
  intro op h
  simp only [guidOps, List.mem_cons, List.not_mem_nil, or_false] at h
  rcases h with h | h | h | h | h <;> subst h <;> rfl

/-- Neither condition can be dropped: after `update_partitions` the header has the GUID set. -/
example (m : Mode) (g : Uuid) : ∃ s1, updatePartitions m [(1, smallPart)] g
    (withGuid g (madeDisk (GptConfig.new.setWritable true) dev100 32 99 ⟨1, 2, 3, 4⟩)) = (.ok (), s1) ∧
    ∃ h, s1.primaryHeader = .ok h ∧ h.diskGuid = g := by
  have hz : dev100.data.length / (GptConfig.new.setWritable true).lbSize.usize = 99 + 1 := by rw [dev100_length]; rfl
  have hs := madeDisk_sane (cfg := GptConfig.new.setWritable true) (d := dev100) (k := 32) (B := 99) (g := ⟨1, 2, 3, 4⟩)
    (by rw [dev100_length]; decide) enough512 hz (by decide)
  have hs1 : SaneDisk (withGuid g (madeDisk (GptConfig.new.setWritable true) dev100 32 99 ⟨1, 2, 3, 4⟩)) (createdP 32 99 ⟨1, 2, 3, 4⟩) 32 99 :=
    ⟨hs.header, hs.sane, hs.fits, hs.length⟩
  have hu := updatePartitions_sane (m := m) (fresh := g) (pp := [(1, smallPart)]) hs1 rfl (by decide) (by decide) rfl
    (by show 0 < 2 ^ 64; decide) hz
  obtain ⟨h1, e1, e2, -⟩ := c135_arrives m _ _ _ _ hu
  exact ⟨_, hu, h1, e1, e2⟩

/-- `c135_origin`: the GUIDs of the headers of `exDisk`. -/
example (m : Mode) : ∃ h, (runOps m guidOps exDisk).primaryHeader = .ok h ∨ (runOps m guidOps exDisk).backupHeader = .ok h := by
  exact ⟨exHeader, .inl (by cases m <;> rfl)⟩

end Gpt
