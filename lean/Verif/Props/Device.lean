import Verif.Lemmas.Steps
import Verif.Lemmas.Open
import Verif.Lemmas.Errors
/-!
# When the device is written: C34, C35
-/

namespace Gpt

open GptDisk

/-- Nothing was written, flushed or synced between `d` and `d'`: same bytes, same journal. The position may differ. -/
structure Spec.Untouched (d d' : Dev) : Prop where
  data : d'.data = d.data
  log : d'.log = d.log

/-- The calls that hand a device to the disk or give the caller access to it. -/
def Spec.attaches : Op → Option Dev
  | .updateDiskDevice d _ => some d
  | .deviceMut d => some d
  | _ => none

/-- The device as the caller last saw it, after a history: the one first given, or the one given last. -/
def Spec.lastGiven (d : Dev) (ops : List Op) : Dev := ops.foldl (fun d op => (Spec.attaches op).getD d) d

theorem Dev.Quiet.untouched {d d' : Dev} (h : Dev.Quiet d d') : Spec.Untouched d d' := ⟨h.data, h.log⟩

theorem Inserted.quiet {m : Mode} {id : UInt32} {p : Partition} {fresh2 : Uuid} {s s' : GptDisk} {r : Res GptError UInt32}
    (h : Inserted m id p fresh2 s r s') : Dev.Quiet s.device s'.device ∧ s'.config = s.config ∧ s'.syncAll = s.syncAll := by
  cases h with
  | panic => exact ⟨Dev.Quiet.refl _, rfl, rfl⟩
  | refused => exact ⟨Dev.Quiet.refl _, rfl, rfl⟩
  | plain => exact ⟨Dev.Quiet.refl _, rfl, rfl⟩
  | rebuilt h r s' _ _ _ e =>
    have q := initHeaders_same e
    exact ⟨q.device, q.config, q.syncAll⟩

/-- Every call other than `write_inplace` and the two that attach a device keeps the device content and the configuration. -/
theorem step_quiet (m : Mode) (op : Op) (s : GptDisk) (hw : op ≠ .writeInplace) (ha : Spec.attaches op = none) :
    Dev.Quiet s.device (op.step m s).2.device ∧ (op.step m s).2.config = s.config ∧ (op.step m s).2.syncAll = s.syncAll := by
  cases op with
  | writeInplace => exact absurd rfl hw
  | updateDiskDevice d w => cases ha
  | deviceMut d => cases ha
  | addPartition n sz t f a r r2 =>
    show Dev.Quiet _ (addPartition m n sz t f a r r2 s).2.device ∧ (addPartition m n sz t f a r r2 s).2.config = _ ∧
      (addPartition m n sz t f a r r2 s).2.syncAll = _
    rcases addPartition_any m n sz t f a r r2 s with ⟨e, -⟩ | ⟨_, _, _, -, h⟩
    · rw [e]; exact ⟨Dev.Quiet.refl _, rfl, rfl⟩
    · exact Inserted.quiet h
  | addPartitionAt n i fl l t f r r2 =>
    show Dev.Quiet _ (addPartitionAt m n i fl l t f r r2 s).2.device ∧ (addPartitionAt m n i fl l t f r r2 s).2.config = _ ∧
      (addPartitionAt m n i fl l t f r r2 s).2.syncAll = _
    rcases addPartitionAt_any m n i fl l t f r r2 s with ⟨e, -⟩ | ⟨-, -, -, -, h⟩
    · rw [e]; exact ⟨Dev.Quiet.refl _, rfl, rfl⟩
    · exact Inserted.quiet h
  | removePartition i =>
    show Dev.Quiet _ (removePartition (ε := GptError) i s).2.device ∧ (removePartition (ε := GptError) i s).2.config = _ ∧
      (removePartition (ε := GptError) i s).2.syncAll = _
    unfold removePartition
    split <;> exact ⟨Dev.Quiet.refl _, rfl, rfl⟩
  | removePartitionByGuid g =>
    show Dev.Quiet _ (removePartitionByGuid (ε := GptError) g s).2.device ∧ (removePartitionByGuid (ε := GptError) g s).2.config = _ ∧
      (removePartitionByGuid (ε := GptError) g s).2.syncAll = _
    unfold removePartitionByGuid
    split <;> exact ⟨Dev.Quiet.refl _, rfl, rfl⟩
  | takePartitions => exact ⟨Dev.Quiet.refl _, rfl, rfl⟩
  | updateGuid u r => exact ⟨Dev.Quiet.refl _, rfl, rfl⟩
  | updatePartitions pp r =>
    show Dev.Quiet _ (updatePartitions m pp r s).2.device ∧ (updatePartitions m pp r s).2.config = _ ∧
      (updatePartitions m pp r s).2.syncAll = _
    rcases updatePartitions_any m pp r s with ⟨e, -⟩ | ⟨-, -, -, -, e⟩
    · rw [e]; exact ⟨Dev.Quiet.refl _, rfl, rfl⟩
    · rw [e]
      have q := initHeaders_sameTable m r (s.withParts pp)
      exact ⟨q.device, q.config, q.syncAll⟩

/-! ## C35 -/

/-- **C35**, one call: whatever it returns (the fault list of the device is arbitrary), a call other than `write_inplace` leaves
the device untouched; a call that attaches a device leaves that device as given and hands the previous one back as it was. -/
theorem c35_call (m : Mode) (op : Op) (s : GptDisk) (hw : op ≠ .writeInplace) :
    Spec.Untouched ((Spec.attaches op).getD s.device) (op.step m s).2.device ∧
    (∀ d w, op = .updateDiskDevice d w → (op.step m s).1 = .ok (.dev s.device) ∧ (op.step m s).2.device = d) := by
  constructor
  · cases ha : Spec.attaches op with
    | none => exact (step_quiet m op s hw ha).1.untouched
    | some d =>
      cases op <;> simp only [Spec.attaches, reduceCtorEq, Option.some.injEq] at ha
      · subst ha; exact ⟨rfl, rfl⟩
      · subst ha; exact ⟨rfl, rfl⟩
  · rintro d w rfl
    exact ⟨rfl, rfl⟩

/-- **C35**, opening and creating: they never change the device, and the disk they return holds it unchanged. -/
theorem c35_open_create (m : Mode) (cfg : GptConfig) (d : Dev) (g : Option Uuid) (fresh fresh2 : Uuid) (x : M Dev GptError GptDisk)
    (hx : x ∈ [openFromDevice m cfg, createFromDevice m cfg g fresh fresh2, openFile m cfg, createFile m cfg fresh fresh2, readDisk m]) :
    Spec.Untouched d (x d).2 ∧ ∀ s, (x d).1 = .ok s → s.device = (x d).2 := by
  have hopen : ∀ cfg, Spec.Untouched d (openFromDevice m cfg d).2 ∧
      ∀ s, (openFromDevice m cfg d).1 = .ok s → s.device = (openFromDevice m cfg d).2 := by
    intro cfg
    refine ⟨(openFromDevice_quiet m cfg d).untouched, fun s hs => ?_⟩
    rcases e : openFromDevice m cfg d with ⟨r, d'⟩
    rw [e] at hs
    simp only at hs
    subst hs
    obtain ⟨_, _, -, -, -, -, -, -, -, hd, -⟩ := openFromDevice_ok e
    exact hd
  have hcreate : ∀ g, Spec.Untouched d (createFromDevice m cfg g fresh fresh2 d).2 ∧
      ∀ s, (createFromDevice m cfg g fresh fresh2 d).1 = .ok s → s.device = (createFromDevice m cfg g fresh fresh2 d).2 := by
    intro g
    have q := initHeaders_sameTable m fresh2 (blankDisk cfg d (g.getD fresh))
    unfold createFromDevice
    rcases e : initHeaders m fresh2 (blankDisk cfg d (g.getD fresh)) with ⟨r, s'⟩
    rw [e] at q
    cases r with
    | ok _ => exact ⟨q.device.untouched, fun s hs => by cases hs; rfl⟩
    | err _ => exact ⟨q.device.untouched, fun s hs => by cases hs⟩
    | panic => exact ⟨q.device.untouched, fun s hs => by cases hs⟩
  have hsync : ∀ x : M Dev GptError GptDisk, (Spec.Untouched d (x d).2 ∧ ∀ s, (x d).1 = .ok s → s.device = (x d).2) →
      Spec.Untouched d ((do let g ← x; pure { g with syncAll := true } : M Dev GptError GptDisk) d).2 ∧
      ∀ s, ((do let g ← x; pure { g with syncAll := true } : M Dev GptError GptDisk) d).1 = .ok s →
        s.device = ((do let g ← x; pure { g with syncAll := true } : M Dev GptError GptDisk) d).2 := by
    intro x ⟨h1, h2⟩
    rw [M.bind_apply]
    rcases e : x d with ⟨r, d'⟩
    rw [e] at h1 h2
    cases r with
    | ok g => exact ⟨h1, fun s hs => by cases hs; exact h2 g rfl⟩
    | err _ => exact ⟨h1, fun s hs => by cases hs⟩
    | panic => exact ⟨h1, fun s hs => by cases hs⟩
  simp only [List.mem_cons, List.not_mem_nil, or_false] at hx
  rcases hx with rfl | rfl | rfl | rfl | rfl
  · exact hopen cfg
  · exact hcreate g
  · exact hsync _ (hopen cfg)
  · exact hsync _ (hcreate none)
  · exact hsync _ (hopen _)

/-- **C35**, histories: as long as `write_inplace` is not among the calls, the device is as the caller last gave it. -/
theorem c35_history (m : Mode) (ops : List Op) (s : GptDisk) (hw : Op.writeInplace ∉ ops) :
    Spec.Untouched (Spec.lastGiven s.device ops) (runOps m ops s).device := by
  have key : ∀ (ops : List Op) (s : GptDisk) (d : Dev), Op.writeInplace ∉ ops → Spec.Untouched d s.device →
      Spec.Untouched (Spec.lastGiven d ops) (runOps m ops s).device := by
    intro ops
    induction ops with
    | nil => exact fun s d _ h => h
    | cons op ops ih =>
      intro s d hw h
      have hop : op ≠ .writeInplace := fun hc => hw (by rw [hc]; exact List.mem_cons_self)
      refine ih _ _ (fun hc => hw (List.mem_cons_of_mem _ hc)) ?_
      have := (c35_call m op s hop).1
      show Spec.Untouched ((Spec.attaches op).getD d) (op.step m s).2.device
      cases ha : Spec.attaches op with
      | none =>
        rw [ha] at this
        exact ⟨this.data.trans h.data, this.log.trans h.log⟩
      | some d' => rw [ha] at this; exact this
  exact key ops s s.device hw ⟨rfl, rfl⟩

/-- A history in which a seek fails: the entry is inserted in memory, the call fails, the device is as it was. -/
example (m : Mode) (d : Dev) (g : Uuid) : Spec.Untouched { d with faults := [.fail 0] } (runOps m
    [.updateDiskDevice { d with faults := [.fail 0] } true, .updatePartitions [] g, .takePartitions] (blankDisk GptConfig.new d g)).device :=
  c35_history m [.updateDiskDevice { d with faults := [.fail 0] } true, .updatePartitions [] g, .takePartitions]
    (blankDisk GptConfig.new d g) (by simp)

/-! ## C34 -/

/-- **C34**, the calls: on a disk that is not writable `write` and `write_inplace` return `ReadOnly`; disk and device are exactly
as they were. -/
theorem c34_refused (m : Mode) (s : GptDisk) (h : s.config.writable = false) :
    writeInplace m s = (.err .readOnly, s) ∧ write m s = (.err .readOnly, s) := by
  have e : writeInplace m s = (.err .readOnly, s) := by
    unfold writeInplace
    simp only [M.bind_apply, M.get_apply, h, Bool.not_false, if_true, M.throw_apply]
  refine ⟨e, ?_⟩
  unfold write
  simp only [M.bind_apply, e]

/-- Conversely `ReadOnly` is returned only then. -/
theorem c34_only (m : Mode) (s : GptDisk) (h : (writeInplace m s).1 = .err .readOnly) : s.config.writable = false := by
  rcases writeInplace_errs h with ⟨-, hw⟩ | ⟨-, hc⟩
  · exact hw
  · exact hc.elim

/-- The calls that make a disk writable. -/
def Spec.grantsWrite : Op → Prop
  | .updateDiskDevice _ true => True
  | _ => False

/-- **C34**, histories: on a disk that is not writable, until a device is attached as writable, no sequence of calls (including
`write_inplace`) changes the device from what the caller last gave. -/
theorem c34_history (m : Mode) (ops : List Op) (s : GptDisk) (h : s.config.writable = false)
    (hw : ∀ op ∈ ops, ¬ Spec.grantsWrite op) :
    Spec.Untouched (Spec.lastGiven s.device ops) (runOps m ops s).device ∧ (runOps m ops s).config.writable = false := by
  have key : ∀ (ops : List Op) (s : GptDisk) (d : Dev), (∀ op ∈ ops, ¬ Spec.grantsWrite op) → s.config.writable = false →
      Spec.Untouched d s.device →
      Spec.Untouched (Spec.lastGiven d ops) (runOps m ops s).device ∧ (runOps m ops s).config.writable = false := by
    intro ops
    induction ops with
    | nil => exact fun s d _ h1 h2 => ⟨h2, h1⟩
    | cons op ops ih =>
      intro s d hw h hd
      have hop := hw op List.mem_cons_self
      have hconf : (op.step m s).2.config.writable = false := by
        cases ha : Spec.attaches op with
        | some d' =>
          cases op <;> simp only [Spec.attaches, reduceCtorEq, Option.some.injEq] at ha
          · rename_i w
            cases w with
            | true => exact absurd trivial hop
            | false => rfl
          · exact h
        | none =>
          by_cases hwr : op = .writeInplace
          · subst hwr
            show (writeInplace m s).2.config.writable = false
            rw [(c34_refused m s h).1]; exact h
          · rw [(step_quiet m op s hwr ha).2.1]; exact h
      refine ih _ _ (fun o ho => hw o (List.mem_cons_of_mem _ ho)) hconf ?_
      by_cases hwr : op = .writeInplace
      · subst hwr
        show Spec.Untouched d (writeInplace m s).2.device
        rw [(c34_refused m s h).1]
        exact hd
      · have := (c35_call m op s hwr).1
        show Spec.Untouched ((Spec.attaches op).getD d) (op.step m s).2.device
        cases ha : Spec.attaches op with
        | none =>
          rw [ha] at this
          exact ⟨this.data.trans hd.data, this.log.trans hd.log⟩
        | some d' => rw [ha] at this; exact this
  exact key ops s s.device hw h ⟨rfl, rfl⟩

/-- A disk with the default configuration: adding and writing do not touch the device. -/
example (m : Mode) (d : Dev) (g : Uuid) (t : PType) : (runOps m [.addPartition "a" 512 t 0 none g g, .writeInplace, .takePartitions, .writeInplace]
    (blankDisk GptConfig.new d g)).device.data = d.data :=
  (c34_history m [.addPartition "a" 512 t 0 none g g, .writeInplace, .takePartitions, .writeInplace] (blankDisk GptConfig.new d g) rfl
    (by simp [Spec.grantsWrite])).1.data

end Gpt
