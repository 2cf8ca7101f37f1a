import Verif.Props.Table
import Verif.Lemmas.Sim
/-!
# C94: what the accessors show determines the future

A disk object holds more than its accessors show: an I/O error kept for a header may carry a message of which `primary_header` and
`backup_header` show only the kind. That part never matters.
-/

namespace Gpt

open GptDisk

/-- The accessors show the same, and device and configuration are the same. -/
structure Spec.Alike (s s' : GptDisk) : Prop where
  observe : s.observe = s'.observe
  device : s.device = s'.device
  config : s.config = s'.config
  syncAll : s.syncAll = s'.syncAll

/-- What each call of a history returned. -/
def Spec.results (m : Mode) : List Op → GptDisk → List (Res GptError OpVal)
  | [], _ => []
  | op :: ops, s => (op.step m s).1 :: results m ops (op.step m s).2

open Spec

theorem alike_iff {s s' : GptDisk} : Alike s s' ↔ s.clone = s'.clone := by
  constructor
  · rintro ⟨h1, h2, h3, h4⟩
    unfold observe primaryHeader? backupHeader? at h1
    simp only [Observe.mk.injEq] at h1
    obtain ⟨a, b, _, _, e, f⟩ := h1
    unfold clone
    cases s; cases s'
    simp only at *
    subst h2 h3 h4 e f
    rw [a, b]
  · intro h
    have o := (c48_clone s).1
    rw [h, (c48_clone s').1] at o
    exact ⟨o.symm, congrArg GptDisk.device (a₁ := s.clone) (a₂ := s'.clone) h, congrArg GptDisk.config (a₁ := s.clone) (a₂ := s'.clone) h,
      congrArg GptDisk.syncAll (a₁ := s.clone) (a₂ := s'.clone) h⟩

/-- A device computation. -/
theorem both_onDev {ε ε' α : Type} (g : ε → ε') (x : M Dev ε α) : Both Alike (onDev g x) (GptDisk.onDev g x) := by
  refine ⟨fun s s' h => ?_⟩
  have e := alike_iff.mp h
  have hd := h.device
  unfold GptDisk.onDev M.zoom
  simp only [hd, true_and]
  rw [alike_iff]
  unfold clone at e ⊢
  simp only [GptDisk.mk.injEq] at e ⊢
  exact ⟨e.1, trivial, e.2.2.1, e.2.2.2⟩

theorem both_onBackup (hd : Header) (x : M (Header × Dev) HeaderError Nat) : Both Alike (onBackup hd x) (onBackup hd x) := by
  refine ⟨fun s s' h => ?_⟩
  have e := alike_iff.mp h
  have hdv := h.device
  unfold onBackup
  simp only [hdv, true_and]
  rw [alike_iff]
  unfold clone at e ⊢
  simp only [GptDisk.mk.injEq] at e ⊢
  exact ⟨e.1, trivial, e.2.2.1, e.2.2.2.1, trivial, e.2.2.2.2.2⟩

theorem both_onPrimary (hd : Header) (x : M (Header × Dev) HeaderError Nat) : Both Alike (onPrimary hd x) (onPrimary hd x) := by
  refine ⟨fun s s' h => ?_⟩
  have e := alike_iff.mp h
  have hdv := h.device
  unfold onPrimary
  simp only [hdv, true_and]
  rw [alike_iff]
  unfold clone at e ⊢
  simp only [GptDisk.mk.injEq] at e ⊢
  exact ⟨e.1, trivial, e.2.2.1, trivial, e.2.2.2.2⟩

theorem alike_sim : Sim Alike := by
  have key : ∀ {s s' t t' : GptDisk}, Alike s s' → (s.clone = s'.clone → t.clone = t'.clone) → Alike t t' :=
    fun h k => alike_iff.mpr (k (alike_iff.mp h))
  refine { config := fun h => h.config, syncs := fun h => h.syncAll, tryHeader := fun h => congrArg Observe.header h.observe
           parts := fun h => congrArg Observe.parts h.observe, guid := fun h => congrArg Observe.guid h.observe
           find := fun lb => both_onDev _ _, entries := fun _ _ _ _ _ _ _ => both_onDev _ _, zeros := fun _ _ _ _ => both_onDev _ _
           flush := both_onDev _ _, sync := both_onDev _ _, backup := fun _ _ => both_onBackup _ _, primary := fun _ _ => both_onPrimary _ _
           setParts := ?_, setPrimary := ?_, setBackup := ?_, setGuid := ?_, setDevice := ?_, setWritable := ?_ }
  all_goals
    intro s s' h x
    refine key h fun e => ?_
    unfold clone at e ⊢
    simp only [GptDisk.mk.injEq] at e ⊢
    simp [e]

theorem both_step (m : Mode) (op : Op) : Both Alike (op.step m) (op.step m) := by
  cases op
  case updateDiskDevice d w => exact .mapOk _ ⟨fun s s' h => ⟨congrArg Res.ok h.device, alike_sim.updateDiskDevice d w h⟩⟩
  all_goals exact alike_sim.step m _ (fun _ _ => nofun)

/-- **C94**: from disks that look alike every history of calls returns the same and ends in disks that look alike. -/
theorem c94_history (m : Mode) (ops : List Op) {s s' : GptDisk} (h : Alike s s') :
    results m ops s = results m ops s' ∧ Alike (runOps m ops s) (runOps m ops s') := by
  induction ops generalizing s s' with
  | nil => exact ⟨rfl, h⟩
  | cons op ops ih =>
    obtain ⟨h1, h2⟩ := (both_step m op).run s s' h
    obtain ⟨h3, h4⟩ := ih h2
    refine ⟨?_, h4⟩
    unfold results
    rw [h1, h3]

/-- **C94**: so a clone can take the place of the original. -/
theorem c94_clone (m : Mode) (ops : List Op) (s : GptDisk) :
    results m ops s.clone = results m ops s ∧ Alike (runOps m ops s.clone) (runOps m ops s) :=
  c94_history m ops ⟨(c48_clone s).1, (c48_clone s).2.1, (c48_clone s).2.2.1, (c48_clone s).2.2.2⟩

/-- **C94**: `with_disk_device` on the device and with the permission the disk has makes a disk that takes its place, except for the syncing of
files. -/
theorem c94_with_disk_device (m : Mode) (ops : List Op) (s : GptDisk) (hs : s.syncAll = false) :
    results m ops (s.withDiskDevice s.device s.config.writable) = results m ops s ∧
    Alike (runOps m ops (s.withDiskDevice s.device s.config.writable)) (runOps m ops s) := by
  obtain ⟨h1, h2, h3, h4⟩ := c48_with_disk_device s s.device s.config.writable
  exact c94_history m ops ⟨h1, h2, h3, h4.trans hs.symm⟩

/-- The queries that are not part of a history: what they return is the same as well. -/
theorem c94_queries {ε : Type} (m : Mode) {s s' : GptDisk} (h : Alike s s') :
    (s.findFreeSectors m : Res ε _) = s'.findFreeSectors m ∧ (s.findNextPartitionId : Res ε _) = s'.findNextPartitionId ∧
    (s.calculateAlignment : Res ε _) = s'.calculateAlignment ∧ (s.header : Res ε _) = s'.header := by
  refine ⟨alike_sim.free m h, alike_sim.next h, ?_, alike_sim.header h⟩
  unfold calculateAlignment
  rw [alike_sim.parts h]

/-- Two disks that differ but look alike. -/
example (msg : String) (hm : msg ≠ "") : ({ exDisk with backupHeader := .error (.io (.other msg)) } : GptDisk) ≠
    ({ exDisk with backupHeader := .error (.io (.other "")) } : GptDisk) ∧
    Alike { exDisk with backupHeader := .error (.io (.other msg)) } { exDisk with backupHeader := .error (.io (.other "")) } := by
  refine ⟨fun e => hm ?_, ⟨rfl, rfl, rfl, rfl⟩⟩
  simp only [GptDisk.mk.injEq, Except.error.injEq, HeaderError.io.injEq, IoErr.other.injEq] at e
  exact e.2.2.2.2.1

/-- A history on both: an addition, a removal and a write. -/
example (msg : String) : results .debug [.addPartitionAt "n" 3 50 10 (exPart 0 0).partType 0 ⟨0, 0, 0, 8⟩ Uuid.nil, .removePartition 1, .writeInplace]
      { exDisk with backupHeader := .error (.io (.other msg)) } = [.ok (.id 3), .ok (.optId (some 1)), .err .readOnly] := by
  refine ((c94_history .debug _ (s := { exDisk with backupHeader := .error (.io (.other msg)) }) (s' := { exDisk with backupHeader := .error (.io (.other "")) }) ⟨rfl, rfl, rfl, rfl⟩).1).trans ?_
  decide +kernel

end Gpt
