import Verif.Props.Device
import Verif.Props.Create
import Verif.Model.File
/-!
# C90: what each call leaves alone, and C39 for disks opened by path
-/

namespace Gpt

open Spec GptDisk

/-! ### Frames of the calls -/

/-- Settings, GUID and sync function are as before. -/
structure Fixed (s s' : GptDisk) : Prop where
  config : s'.config = s.config
  guid : s'.guid = s.guid
  sync : s'.syncAll = s.syncAll

theorem Fixed.chain : M.Chain Fixed :=
  ⟨fun _ => ⟨rfl, rfl, rfl⟩, fun _ _ _ h g => ⟨g.1.trans h.1, g.2.trans h.2, g.3.trans h.3⟩⟩

/-- So is the table. -/
structure Fixed2 (s s' : GptDisk) : Prop extends Fixed s s' where
  table : s'.partitions = s.partitions

theorem Fixed2.chain : M.Chain Fixed2 :=
  ⟨fun s => ⟨Fixed.chain.refl s, rfl⟩, fun _ _ _ h g => ⟨Fixed.chain.trans _ _ _ h.1 g.1, g.2.trans h.2⟩⟩

theorem onDev_fixed {ε ε' α : Type} (g : ε → ε') (x : M Dev ε α) : M.Pres Fixed2 (onDev g x) := fun _ => ⟨⟨rfl, rfl, rfl⟩, rfl⟩

theorem initHeaders_fixed (m : Mode) (fresh : Uuid) : M.Pres Fixed2 (initHeaders m fresh) := by
  have C := Fixed2.chain
  unfold initHeaders
  refine M.Pres.bind C (M.Pres.get C) fun s => ?_
  refine M.Pres.bind C (onDev_fixed _ _) fun _ => ?_
  refine M.Pres.bind C (M.Pres.lift C _) fun _ => ?_
  refine M.Pres.bind C (fun _ => ⟨⟨rfl, rfl, rfl⟩, rfl⟩) fun _ => ?_
  split
  · exact M.Pres.pure C _
  · exact M.Pres.bind C (M.Pres.lift C _) fun _ => fun _ => ⟨⟨rfl, rfl, rfl⟩, rfl⟩

theorem Fixed2.pres {ε α : Type} {x : M GptDisk ε α} (h : M.Pres Fixed2 x) : M.Pres Fixed x := fun s => (h s).1

theorem insertPartition_fixed (m : Mode) (name : String) (id : UInt32) (first length : UInt64) (ty : PType) (flags : UInt64)
    (fresh fresh2 : Uuid) : M.Pres Fixed (insertPartition m name id first length ty flags fresh fresh2) := by
  have C := Fixed.chain
  unfold insertPartition
  refine M.Pres.bind C (M.Pres.lift C _) fun _ => ?_
  refine M.Pres.bind C (M.Pres.lift C _) fun _ => ?_
  refine M.Pres.bind C (M.Pres.get C) fun _ => ?_
  refine M.Pres.bind C (M.Pres.lift C _) fun _ => ?_
  dsimp only
  split
  · exact M.Pres.throw C _
  · refine M.Pres.bind C (fun _ => ⟨rfl, rfl, rfl⟩) fun _ => ?_
    split
    · exact M.Pres.bind C (Fixed2.pres (initHeaders_fixed _ _)) fun _ => M.Pres.pure C _
    · exact M.Pres.pure C _

theorem addLoop_fixed (m : Mode) (name : String) (sizeLba : UInt64) (ty : PType) (flags : UInt64) (align : Option UInt64)
    (fresh fresh2 : Uuid) (free : List (UInt64 × UInt64)) :
    M.Pres Fixed (addPartitionLoop m name sizeLba ty flags align fresh fresh2 free) := by
  have C := Fixed.chain
  induction free with
  | nil => exact M.Pres.throw C _
  | cons e rest ih =>
    obtain ⟨start, length⟩ := e
    unfold addPartitionLoop
    refine M.Pres.bind C (M.Pres.lift C _) fun _ => ?_
    refine M.Pres.bind C (M.Pres.lift C _) fun _ => ?_
    split
    · refine M.Pres.bind C (M.Pres.lift C _) fun _ => ?_
      refine M.Pres.bind C (M.Pres.get C) fun _ => ?_
      refine M.Pres.bind C (M.Pres.lift C _) fun _ => ?_
      dsimp only
      split
      · exact M.Pres.bind C (M.Pres.pure C _) fun _ => insertPartition_fixed _ _ _ _ _ _ _ _ _
      · refine M.Pres.bind C (M.Pres.lift C _) fun _ => M.Pres.bind C (M.Pres.lift C _) fun _ => ?_
        exact insertPartition_fixed _ _ _ _ _ _ _ _ _
    · exact ih

theorem addPartition_fixed (m : Mode) (name : String) (size : UInt64) (ty : PType) (flags : UInt64) (align : Option UInt64)
    (fresh fresh2 : Uuid) : M.Pres Fixed (addPartition m name size ty flags align fresh fresh2) := by
  have C := Fixed.chain
  unfold addPartition
  split
  · exact M.Pres.panic C
  · refine M.Pres.bind C (M.Pres.get C) fun _ => ?_
    refine M.Pres.bind C (M.Pres.lift C _) fun _ => ?_
    refine M.Pres.bind C (M.Pres.lift C _) fun _ => ?_
    refine M.Pres.bind C (M.Pres.lift C _) fun _ => ?_
    exact addLoop_fixed _ _ _ _ _ _ _ _ _

theorem addPartitionAt_fixed (m : Mode) (name : String) (id : UInt32) (first length : UInt64) (ty : PType) (flags : UInt64)
    (fresh fresh2 : Uuid) : M.Pres Fixed (addPartitionAt m name id first length ty flags fresh fresh2) := by
  have C := Fixed.chain
  unfold addPartitionAt
  split
  · exact M.Pres.panic C
  split
  · exact M.Pres.panic C
  refine M.Pres.bind C (M.Pres.get C) fun _ => ?_
  split
  · exact M.Pres.throw C _
  refine M.Pres.bind C (M.Pres.lift C _) fun free => ?_
  induction free with
  | nil => exact M.Pres.throw C _
  | cons e rest ih =>
    obtain ⟨start, len⟩ := e
    unfold addPartitionAtLoop
    split
    · exact insertPartition_fixed _ _ _ _ _ _ _ _ _
    · exact ih

theorem updatePartitions_fixed (m : Mode) (pp : PMap) (fresh : Uuid) : M.Pres Fixed (updatePartitions m pp fresh) := by
  have C := Fixed.chain
  unfold updatePartitions
  split
  · exact M.Pres.panic C
  refine M.Pres.bind C (M.Pres.get C) fun _ => ?_
  refine M.Pres.bind C (M.Pres.lift C _) fun _ => ?_
  dsimp only
  split
  · exact M.Pres.throw C _
  · exact M.Pres.bind C (fun _ => ⟨rfl, rfl, rfl⟩) fun _ => Fixed2.pres (initHeaders_fixed _ _)

theorem writeInplace_fixed (m : Mode) : M.Pres Fixed2 (writeInplace m) := by
  have C := Fixed2.chain
  have hm : ∀ {ε : Type} (f : GptDisk → GptDisk), (∀ s, Fixed2 s (f s)) → M.Pres Fixed2 (M.modify f : M GptDisk ε Unit) := fun f h s => h s
  unfold writeInplace
  refine M.Pres.bind C (M.Pres.get C) fun s => ?_
  split
  · exact M.Pres.throw C _
  refine M.Pres.bind C (onDev_fixed _ _) fun _ => ?_
  refine M.Pres.bind C (M.Pres.lift C _) fun _ => ?_
  refine M.Pres.bind C (M.Pres.lift C _) fun ph => ?_
  refine M.Pres.bind C (hm _ fun _ => ⟨⟨rfl, rfl, rfl⟩, rfl⟩) fun _ => ?_
  have tail : ∀ bh, M.Pres Fixed2 (do
      let next ← onDev id (writeEntries m s.config.lbSize ph bh (usedParts s.partitions) 0 0)
      onDev id (writeZeros m s.config.lbSize ph next)
      match bh with
      | some bh => do
        onDev id (writeZeros m s.config.lbSize bh next)
        onBackup bh (Header.writeBackup s.config.lbSize)
      | none => pure ()
      onPrimary ph (Header.writePrimary s.config.lbSize)
      onDev .io Dev.flush
      if s.syncAll then onDev .io Dev.syncAll else pure () : M GptDisk GptError Unit) := by
    intro bh
    refine M.Pres.bind C (onDev_fixed _ _) fun _ => ?_
    refine M.Pres.bind C (onDev_fixed _ _) fun _ => ?_
    have fin : M.Pres Fixed2 (do
        onPrimary ph (Header.writePrimary s.config.lbSize)
        onDev .io Dev.flush
        if s.syncAll then onDev .io Dev.syncAll else pure () : M GptDisk GptError Unit) := by
      refine M.Pres.bind C (fun _ => ⟨⟨rfl, rfl, rfl⟩, rfl⟩) fun _ => ?_
      refine M.Pres.bind C (onDev_fixed _ _) fun _ => ?_
      split
      · exact onDev_fixed _ _
      · exact M.Pres.pure C _
    cases bh with
    | none => exact fin
    | some b => exact M.Pres.bind C (onDev_fixed _ _) fun _ => M.Pres.bind C (fun _ => ⟨⟨rfl, rfl, rfl⟩, rfl⟩) fun _ => fin
  dsimp only
  split
  · exact M.Pres.bind C (M.Pres.pure C _) fun _ => tail _
  · refine M.Pres.bind C (M.Pres.lift C _) fun _ => ?_
    refine M.Pres.bind C (hm _ fun _ => ⟨⟨rfl, rfl, rfl⟩, rfl⟩) fun _ => ?_
    exact M.Pres.bind C (M.Pres.pure C _) fun _ => tail _

/-! ### C90 -/

/-- The calls that put entries into the table or take them out. -/
def Spec.EditsTable : Op → Prop
  | .addPartition .. | .addPartitionAt .. | .removePartition .. | .removePartitionByGuid .. | .takePartitions | .updatePartitions .. => True
  | .updateGuid .. | .updateDiskDevice .. | .deviceMut .. | .writeInplace => False

/-- The calls that may rebuild the headers in memory. -/
def Spec.EditsHeaders : Op → Prop
  | .addPartition .. | .addPartitionAt .. | .updatePartitions .. | .writeInplace => True
  | .removePartition .. | .removePartitionByGuid .. | .takePartitions | .updateGuid .. | .updateDiskDevice .. | .deviceMut .. => False

/-- The calls after which the content of the device may be another one. -/
def Spec.EditsContent : Op → Prop
  | .updateDiskDevice .. | .deviceMut .. | .writeInplace => True
  | .addPartition .. | .addPartitionAt .. | .removePartition .. | .removePartitionByGuid .. | .takePartitions | .updateGuid .. |
    .updatePartitions .. => False

/-- The disk GUID after a call. -/
def Spec.guidAfter (g : Uuid) : Op → Uuid
  | .updateGuid u fresh => u.getD fresh
  | _ => g

/-- Whether the disk is writable after a call. -/
def Spec.writableAfter (w : Bool) : Op → Bool
  | .updateDiskDevice _ w' => w'
  | _ => w

/-- What is known without looking at the outcome. -/
structure Spec.LeavesAlone (op : Op) (s s' : GptDisk) : Prop where
  settings : s'.config.lbSize = s.config.lbSize ∧ s'.config.onlyValidHeaders = s.config.onlyValidHeaders ∧
    s'.config.readonlyBackup = s.config.readonlyBackup ∧ s'.config.changePartitionCount = s.config.changePartitionCount
  writable : s'.config.writable = writableAfter s.config.writable op
  sync : s'.syncAll = s.syncAll
  guid : s'.guid = guidAfter s.guid op
  table : ¬ EditsTable op → s'.partitions = s.partitions
  headers : ¬ EditsHeaders op → s'.primaryHeader = s.primaryHeader ∧ s'.backupHeader = s.backupHeader
  content : ¬ EditsContent op → s'.device.data = s.device.data ∧ s'.device.log = s.device.log

theorem Fixed.untouched {op : Op} {s s' : GptDisk} (h : Fixed s s') (hg : guidAfter s.guid op = s.guid)
    (hw : writableAfter s.config.writable op = s.config.writable) (ht : ¬ EditsTable op → s'.partitions = s.partitions)
    (hh : ¬ EditsHeaders op → s'.primaryHeader = s.primaryHeader ∧ s'.backupHeader = s.backupHeader)
    (hc : ¬ EditsContent op → s'.device.data = s.device.data ∧ s'.device.log = s.device.log) : LeavesAlone op s s' := by
  refine ⟨?_, ?_, h.sync, h.guid.trans hg.symm, ht, hh, hc⟩
  · rw [h.config]; exact ⟨rfl, rfl, rfl, rfl⟩
  · rw [h.config, hw]

theorem mapOk_snd {σ ε α β : Type} (f : α → β) (x : M σ ε α) (s : σ) : (x.mapOk f s).2 = (x s).2 := rfl

/-- **C90**: whatever a call returns, even if it fails or panics. -/
theorem c90_call (m : Mode) (op : Op) (s : GptDisk) : LeavesAlone op s (op.step m s).2 := by
  have hc : ¬ EditsContent op → (op.step m s).2.device.data = s.device.data ∧ (op.step m s).2.device.log = s.device.log := by
    intro h
    obtain ⟨q, -⟩ := step_quiet m op s (by rintro rfl; exact h trivial) (by cases op <;> first | rfl | exact absurd trivial h)
    exact ⟨q.data, q.log⟩
  cases op with
  | addPartition name size ty flags align f1 f2 =>
    exact (addPartition_fixed m name size ty flags align f1 f2 s).untouched rfl rfl (fun h => absurd trivial h) (fun h => absurd trivial h) hc
  | addPartitionAt name id first length ty flags f1 f2 =>
    exact (addPartitionAt_fixed m name id first length ty flags f1 f2 s).untouched rfl rfl (fun h => absurd trivial h) (fun h => absurd trivial h) hc
  | removePartition id =>
    have e : ∃ t, (Op.step m (.removePartition id) s).2 = { s with partitions := t } := by
      simp only [Op.step, mapOk_snd]; unfold removePartition; split <;> exact ⟨_, rfl⟩
    obtain ⟨t, e⟩ := e
    rw [e] at hc ⊢
    exact Fixed.untouched ⟨rfl, rfl, rfl⟩ rfl rfl (fun h => (h trivial).elim) (fun _ => ⟨rfl, rfl⟩) hc
  | removePartitionByGuid g =>
    have e : ∃ t, (Op.step m (.removePartitionByGuid g) s).2 = { s with partitions := t } := by
      simp only [Op.step, mapOk_snd]; unfold removePartitionByGuid; split <;> exact ⟨_, rfl⟩
    obtain ⟨t, e⟩ := e
    rw [e] at hc ⊢
    exact Fixed.untouched ⟨rfl, rfl, rfl⟩ rfl rfl (fun h => (h trivial).elim) (fun _ => ⟨rfl, rfl⟩) hc
  | takePartitions => exact Fixed.untouched ⟨rfl, rfl, rfl⟩ rfl rfl (fun h => (h trivial).elim) (fun _ => ⟨rfl, rfl⟩) hc
  | updateGuid u f => exact ⟨⟨rfl, rfl, rfl, rfl⟩, rfl, rfl, rfl, fun _ => rfl, fun _ => ⟨rfl, rfl⟩, hc⟩
  | updatePartitions pp f =>
    exact (updatePartitions_fixed m pp f s).untouched rfl rfl (fun h => absurd trivial h) (fun h => absurd trivial h) hc
  | updateDiskDevice d w => exact ⟨⟨rfl, rfl, rfl, rfl⟩, rfl, rfl, rfl, fun _ => rfl, fun _ => ⟨rfl, rfl⟩, hc⟩
  | deviceMut d => exact ⟨⟨rfl, rfl, rfl, rfl⟩, rfl, rfl, rfl, fun _ => rfl, fun _ => ⟨rfl, rfl⟩, hc⟩
  | writeInplace =>
    have h := writeInplace_fixed m s
    exact h.1.untouched rfl rfl (fun _ => h.2) (fun h => absurd trivial h) hc

/-- **C90**: over a history the settings other than `writable` are those the disk was opened with, so is the sync function; `writable`
is what the last `update_disk_device` said, the GUID the last `update_guid` gave. -/
theorem c90_history (m : Mode) (ops : List Op) (s : GptDisk) :
    (runOps m ops s).config = { s.config with writable := ops.foldl writableAfter s.config.writable } ∧
    (runOps m ops s).syncAll = s.syncAll ∧ (runOps m ops s).guid = ops.foldl guidAfter s.guid := by
  induction ops generalizing s with
  | nil => exact ⟨rfl, rfl, rfl⟩
  | cons op ops ih =>
    obtain ⟨⟨a1, a2, a3, a4⟩, b, c, d, -, -, -⟩ := c90_call m op s
    obtain ⟨h1, h2, h3⟩ := ih (op.step m s).2
    refine ⟨?_, ?_, ?_⟩
    · show (runOps m ops (op.step m s).2).config = _
      rw [h1]
      clear h1 h2 h3
      generalize (op.step m s).2 = s1 at *
      obtain ⟨⟨lb, w, v, r, c⟩, _, _, _, _, _, _⟩ := s1
      simp only at a1 a2 a3 a4 b
      subst a1 a2 a3 a4 b
      rfl
    · show (runOps m ops (op.step m s).2).syncAll = _
      rw [h2, c]
    · show (runOps m ops (op.step m s).2).guid = _
      rw [h3, d]; rfl

/-- Two calls that change what may be changed. -/
example (m : Mode) (s : GptDisk) (d : Dev) :
    (runOps m [.updateGuid (some ⟨1, 2, 3, 4⟩) Uuid.nil, .writeInplace, .updateDiskDevice d false] s).guid = ⟨1, 2, 3, 4⟩ ∧
    (runOps m [.updateGuid (some ⟨1, 2, 3, 4⟩) Uuid.nil, .writeInplace, .updateDiskDevice d false] s).config.writable = false := by
  obtain ⟨h1, -, h3⟩ := c90_history m [.updateGuid (some ⟨1, 2, 3, 4⟩) Uuid.nil, .writeInplace, .updateDiskDevice d false] s
  exact ⟨h3, by rw [h1]; rfl⟩

/-! ### C39 for a disk opened or created by path -/

/-- **C39**: after any calls on a disk opened or created by path, a write that returns `Ok` has flushed and then synced, after its last
write. -/
theorem c39_path (m m' : Mode) (fs : Fs) (cfg : GptConfig) (path : String) (f1 f2 : Uuid) (s s' : GptDisk) (d : Option Dev)
    (ops : List Op) (ho : openPath m fs cfg path = (.ok s, d) ∨ createPath m fs cfg path f1 f2 = (.ok s, d) ∨ readDiskPath m fs path = (.ok s, d))
    (hok : writeInplace m' (runOps m' ops s) = (.ok (), s')) :
    ∃ l, s'.device.log = (runOps m' ops s).device.log ++ l ++ [.flush, .sync] ∧
      s'.device.data = l.foldl Event.replay (runOps m' ops s).device.data := by
  have hs : s.syncAll = true := by
    have key : ∀ (o : Except IoErr Dev) (x : M Dev GptError GptDisk), withFile .io o (do let g ← x; pure { g with syncAll := true }) = (.ok s, d) →
        s.syncAll = true := by
      intro o x h
      unfold withFile at h
      cases o with
      | error e => simp at h
      | ok d0 =>
        simp only [Prod.mk.injEq] at h
        obtain ⟨h, -⟩ := h
        obtain ⟨g, d1, -, h⟩ := M.bind_ok.mp (Prod.ext h rfl : (do let g ← x; pure { g with syncAll := true } : M Dev GptError GptDisk) d0 = (.ok s, _))
        cases h
        rfl
    rcases ho with h | h | h
    · exact key _ _ h
    · exact key _ _ h
    · exact key _ _ h
  obtain ⟨l, h1, h2⟩ := c39_flushed m' _ s' hok
  rw [(c90_history m' ops s).2.1, hs] at h1
  exact ⟨l, h1, h2⟩

/-- A file of 100 blocks, a table made on it, written at once. -/
example (m : Mode) (g : Uuid) : ∃ s s' l, createPath m (fun _ _ => .ok dev100) (GptConfig.new.setWritable true) "disk" g g = (.ok s, some dev100) ∧
    writeInplace m s = (.ok (), s') ∧ s'.device.log = l ++ [.flush, .sync] := by
  have hB : dev100.data.length / (GptConfig.new.setWritable true).lbSize.usize = 99 + 1 := by rw [dev100_length]; rfl
  have hlen : dev100.data.length < 2 ^ 64 := by rw [dev100_length]; decide
  have hc := createFromDevice_nil m (GptConfig.new.setWritable true) none g g (d := dev100) rfl (show 0 < 2 ^ 64 by decide) hlen enough512 hB
  rw [if_pos (by decide)] at hc
  have hs := madeDisk_sane (cfg := GptConfig.new.setWritable true) (d := dev100) (g := g) hlen enough512 hB (by decide)
  have hs' : SaneDisk { madeDisk (GptConfig.new.setWritable true) dev100 32 99 g with syncAll := true } (createdP 32 99 g) 32 99 :=
    ⟨hs.header, hs.sane, hs.fits, hs.length⟩
  have hok := c62_write_succeeds m _ _ 32 99 hs' rfl (Nat.zero_le _) rfl (hs.fits.trans (show dev100.data.length ≤ 51200 by rw [dev100_length]))
  rcases hx : writeInplace m { madeDisk (GptConfig.new.setWritable true) dev100 32 99 g with syncAll := true } with ⟨r, s'⟩
  rw [hx] at hok
  simp only at hok
  subst hok
  have hcr : createPath m (fun _ _ => .ok dev100) (GptConfig.new.setWritable true) "disk" g g =
      (.ok { madeDisk (GptConfig.new.setWritable true) dev100 32 99 g with syncAll := true }, some dev100) := by
    have e : createFile m (GptConfig.new.setWritable true) g g dev100 =
        (.ok { madeDisk (GptConfig.new.setWritable true) dev100 32 99 g with syncAll := true }, dev100) := by
      unfold createFile
      exact M.bind_ok.mpr ⟨_, _, hc, rfl⟩
    show ((createFile m (GptConfig.new.setWritable true) g g dev100).1, some (createFile m (GptConfig.new.setWritable true) g g dev100).2) = _
    rw [e]
  obtain ⟨l, h1, -⟩ := c39_path m m _ _ _ _ _ _ s' _ [] (.inr (.inl hcr)) hx
  exact ⟨_, s', _, hcr, hx, h1⟩

/-! ### C34 for paths -/

/-- **C34**: `open` and `create` ask for write access to the file exactly when the configuration is writable (how opening it the other way
would end makes no difference), `read_disk`, `read_header` and `read_partitions` never do; the disk from `read_disk` is not writable,
those from `open` and `create` are what was asked for. -/
theorem c34_paths (m : Mode) (fs fs' : Fs) (cfg : GptConfig) (path : String) (f1 f2 : Uuid) (lb : LbSize) (h : Header) :
    (fs path cfg.writable = fs' path cfg.writable → openPath m fs cfg path = openPath m fs' cfg path ∧
      createPath m fs cfg path f1 f2 = createPath m fs' cfg path f1 f2) ∧
    (fs path false = fs' path false → readDiskPath m fs path = readDiskPath m fs' path ∧ readHeader fs path lb = readHeader fs' path lb ∧
      readPartitions m fs path h lb = readPartitions m fs' path h lb) ∧
    (∀ s d, readDiskPath m fs path = (.ok s, d) → s.config.writable = false) ∧
    (∀ s d, openPath m fs cfg path = (.ok s, d) ∨ createPath m fs cfg path f1 f2 = (.ok s, d) → s.config = cfg) := by
  have hopen : ∀ (cfg : GptConfig) s d, openPath m fs cfg path = (.ok s, d) → s.config = cfg := by
    intro cfg s d he
    unfold openPath withFile at he
    cases ho : fs path cfg.writable with
    | error e => rw [ho] at he; simp at he
    | ok d0 =>
      rw [ho] at he
      simp only [Prod.mk.injEq] at he
      obtain ⟨he, -⟩ := he
      have he : openFile m cfg d0 = (.ok s, (openFile m cfg d0).2) := Prod.ext he rfl
      unfold openFile at he
      obtain ⟨g, d1, h1, h2⟩ := M.bind_ok.mp he
      cases h2
      show g.config = cfg
      obtain ⟨_, _, -, -, -, -, -, hc, -⟩ := openFromDevice_ok h1
      exact hc
  refine ⟨fun e => ?_, fun e => ?_, fun s d he => ?_, fun s d he => ?_⟩
  · unfold openPath createPath
    rw [e]
    exact ⟨rfl, rfl⟩
  · unfold readDiskPath openPath readHeader readPartitions
    rw [e, show fs path GptConfig.new.writable = fs' path GptConfig.new.writable from e]
    exact ⟨rfl, rfl, rfl⟩
  · rw [hopen _ s d he]; rfl
  · rcases he with he | he
    · exact hopen _ s d he
    · unfold createPath withFile at he
      cases ho : fs path cfg.writable with
      | error e => rw [ho] at he; simp at he
      | ok d0 =>
        rw [ho] at he
        simp only [Prod.mk.injEq] at he
        obtain ⟨he, -⟩ := he
        have he : createFile m cfg f1 f2 d0 = (.ok s, (createFile m cfg f1 f2 d0).2) := Prod.ext he rfl
        unfold createFile at he
        obtain ⟨g, d1, h1, h2⟩ := M.bind_ok.mp he
        cases h2
        show g.config = cfg
        unfold createFromDevice at h1
        simp only [Option.getD_none] at h1
        rcases hx : GptDisk.initHeaders m f2 (blankDisk cfg d0 f1) with ⟨r, s1⟩
        rw [hx] at h1
        cases r with
        | ok =>
          simp only [Prod.mk.injEq, Res.ok.injEq] at h1
          rw [← h1.1]
          exact (initHeaders_same hx).config
        | err => cases h1
        | panic => cases h1

/-- A file that may be read but not written can be opened read-only. -/
example (m : Mode) (d : Dev) (e : IoErr) (g : Uuid) (h : Header) :
    readDiskPath m (fun _ w => if w then .error e else .ok d) "disk" = readDiskPath m (fun _ _ => .ok d) "disk" :=
  ((c34_paths m _ _ GptConfig.new "disk" g g .lb512 h).2.1 rfl).1

end Gpt
