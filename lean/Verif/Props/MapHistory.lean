import Verif.Spec.Map
import Verif.Props.Reach
/-!
# The table as a map: C59
-/

namespace Gpt

open Spec GptDisk

/-- **C59**, the claim: for any history on a disk with a well-formed table. -/
def C59 : Prop := ∀ (m : Mode) (ops : List Op) (s : GptDisk), s.partitions.Pairwise (fun a b => a.1 < b.1) → (∀ op ∈ ops, op.Wf) →
  MapRun MapStep (trace m ops s) (mapOf s.partitions) (mapOf (runOps m ops s).partitions)

theorem mapOf_insert (t : PMap) (k : UInt32) (p : Partition) : mapOf (PMap.insert k p t) = (mapOf t).set k p := by
  funext i
  exact PMap.get_insert k i p

theorem mapOf_remove (t : PMap) (k : UInt32) : mapOf (PMap.remove t k) = (mapOf t).erase k := by
  funext i
  exact PMap.get_remove k i

theorem inserted_lax {m : Mode} {id : UInt32} {p : Partition} {fresh2 : Uuid} {s : GptDisk} {x : M GptDisk GptError UInt32} {op : Op}
    (hi : Inserted m id p fresh2 s (x s).1 (x s).2)
    (hop : MapStep op (.ok (.id id)) (mapOf s.partitions) ((mapOf s.partitions).set id p)) :
    LaxStep op (x.mapOk OpVal.id s).1 (mapOf s.partitions) (mapOf (x.mapOk OpVal.id s).2.partitions) := by
  have e2 : (x.mapOk OpVal.id s).2 = (x s).2 := rfl
  rw [e2]
  unfold M.mapOk
  simp only
  generalize (x s).1 = r at hi
  generalize (x s).2 = s' at hi
  clear e2
  cases hi with
  | panic => exact .inl .panicked
  | refused => exact .inl .failed
  | plain h _ _ =>
    refine .inl ?_
    show MapStep op (.ok (.id id)) _ (mapOf (PMap.insert id p s.partitions))
    rw [mapOf_insert]
    exact hop
  | rebuilt h r s' _ _ _ hx =>
    have e := (initHeaders_same hx).partitions
    rw [e]
    show LaxStep op _ _ (mapOf (PMap.insert id p s.partitions))
    rw [mapOf_insert]
    cases r with
    | ok u => exact .inl hop
    | err e =>
      obtain ⟨e', rfl⟩ := initHeaders_err hx
      exact .inr ⟨.inr ⟨e', rfl⟩, _, hop⟩
    | panic => exact .inr ⟨.inl rfl, _, hop⟩

theorem step_lax (m : Mode) (op : Op) (s : GptDisk) (hs : PMap.Sorted s.partitions) :
    LaxStep op (op.step m s).1 (mapOf s.partitions) (mapOf (op.step m s).2.partitions) := by
  have hmem : ∀ k p, (k, p) ∈ s.partitions ↔ mapOf s.partitions k = some p := fun k p => PMap.mem_iff_get hs
  cases op with
  | addPartition name size ty flags align fresh fresh2 =>
    rcases addPartition_any m name size ty flags align fresh fresh2 s with ⟨h, hr⟩ | ⟨id, first, last, -, hi⟩
    · show LaxStep _ ((addPartition m name size ty flags align fresh fresh2).mapOk OpVal.id s).1 _
        (mapOf (addPartition m name size ty flags align fresh fresh2 s).2.partitions)
      rw [h]
      unfold M.mapOk
      rcases hr with hr | hr <;> rw [hr]
      · exact .inl .panicked
      · exact .inl .failed
    · exact inserted_lax hi (.added id first last)
  | addPartitionAt name id first length ty flags fresh fresh2 =>
    rcases addPartitionAt_any m name id first length ty flags fresh fresh2 s with ⟨h, hr⟩ | ⟨-, -, -, -, hi⟩
    · show LaxStep _ ((addPartitionAt m name id first length ty flags fresh fresh2).mapOk OpVal.id s).1 _
        (mapOf (addPartitionAt m name id first length ty flags fresh fresh2 s).2.partitions)
      rw [h]
      unfold M.mapOk
      rcases hr with hr | hr | hr <;> rw [hr]
      · exact .inl .panicked
      · exact .inl .failed
      · exact .inl .failed
    · exact inserted_lax hi .addedAt
  | removePartition id =>
    refine .inl ?_
    show MapStep _ ((removePartition (ε := GptError) id).mapOk OpVal.optId s).1 _ (mapOf (removePartition (ε := GptError) id s).2.partitions)
    unfold M.mapOk removePartition
    cases h : PMap.get s.partitions id with
    | some p =>
      simp only
      rw [mapOf_remove]
      exact .removed (by show PMap.get s.partitions id ≠ none; rw [h]; simp)
    | none => exact .notRemoved h
  | removePartitionByGuid g =>
    refine .inl ?_
    obtain ⟨r, s', e, h⟩ := c25_remove_by_guid g s hs
    show MapStep _ ((removePartitionByGuid (ε := GptError) g).mapOk OpVal.optId s).1 _
      (mapOf (removePartitionByGuid (ε := GptError) g s).2.partitions)
    unfold M.mapOk
    rw [e]
    rcases h with ⟨id, p, h1, h2, rfl, h3, h4, -⟩ | ⟨h1, rfl, rfl⟩
    · have hs' : s'.partitions = PMap.remove s.partitions id := by
        unfold removePartitionByGuid at e
        split at e
        · simp only [Prod.mk.injEq, Res.ok.injEq, Option.some.injEq] at e
          rw [← e.2, e.1]
        · simp at e
      simp only
      rw [hs', mapOf_remove]
      exact .removedGuid ((hmem id p).mp h1) h2 fun j q hj => h3 j q ((hmem j q).mpr hj)
    · exact .notRemovedGuid fun j q hj => h1 j q ((hmem j q).mpr hj)
  | takePartitions => exact .inl (.taken rfl)
  | updateGuid u r => exact .inl (.other trivial)
  | updatePartitions pp r =>
    show LaxStep _ ((updatePartitions m pp r).mapOk (fun _ => OpVal.unit) s).1 _ (mapOf (updatePartitions m pp r s).2.partitions)
    unfold M.mapOk
    rcases updatePartitions_any m pp r s with ⟨h, hr⟩ | ⟨h0, h, -, -, e⟩
    · rw [h]
      rcases hr with hr | ⟨hr, -⟩ <;> rw [hr]
      · exact .inl .panicked
      · exact .inl .failed
    · rcases hx : initHeaders m r (s.withParts pp) with ⟨q, s'⟩
      rw [e, hx]
      simp only
      rw [show s'.partitions = pp from (initHeaders_same hx).partitions]
      cases q with
      | ok u => exact .inl .replaced
      | err e =>
        obtain ⟨e', rfl⟩ := initHeaders_err hx
        exact .inr ⟨.inr ⟨e', rfl⟩, _, .replaced⟩
      | panic => exact .inr ⟨.inl rfl, _, .replaced⟩
  | updateDiskDevice d w => exact .inl (.other trivial)
  | deviceMut d => exact .inl (.other trivial)
  | writeInplace =>
    refine .inl ?_
    show MapStep _ ((writeInplace m).mapOk (fun _ => OpVal.unit) s).1 _ (mapOf (writeInplace m s).2.partitions)
    rw [(writeInplace_mem m s).partitions]
    unfold M.mapOk
    cases (writeInplace m s).1 with
    | ok u => exact .other trivial
    | err e => exact .failed
    | panic => exact .panicked

theorem step_sorted (m : Mode) (op : Op) (s : GptDisk) (hs : PMap.Sorted s.partitions) (hw : op.Wf) :
    PMap.Sorted (op.step m s).2.partitions := by
  have hst := step_table m op s
  generalize (op.step m s).2.partitions = t at hst
  cases hst with
  | same => exact hs
  | removed _ id => exact PMap.remove_sorted hs id
  | emptied => exact List.Pairwise.nil
  | added id first last hp => exact PMap.insert_sorted hs _ _
  | addedAt h0 hu => exact PMap.insert_sorted hs _ _
  | replaced h0 => exact hw

/-- **C59**, without restriction: the table is what a plain map gives, where a call that panicked or returned a header error may
have been carried out or not. -/
theorem c59_lax_partial (m : Mode) (ops : List Op) (s : GptDisk) (hs : s.partitions.Pairwise (fun a b => a.1 < b.1))
    (hw : ∀ op ∈ ops, op.Wf) :
    MapRun LaxStep (trace m ops s) (mapOf s.partitions) (mapOf (runOps m ops s).partitions) := by
  induction ops generalizing s with
  | nil => exact .nil
  | cons op ops ih =>
    exact .cons (step_lax m op s hs)
      (ih _ (step_sorted m op s hs (hw op List.mem_cons_self)) fun o ho => hw o (List.mem_cons_of_mem _ ho))

/-- **C59**, partial (missing: calls other than `write_inplace` that panic or return a header error, for which it is false, see
`c59_fails`): the table is what a plain map gives when the successful calls are applied in order and the failed ones ignored. -/
theorem c59_partial (m : Mode) (ops : List Op) (s : GptDisk) (hs : s.partitions.Pairwise (fun a b => a.1 < b.1))
    (hw : ∀ op ∈ ops, op.Wf)
    (hclean : ∀ op r, (op, r) ∈ trace m ops s → op ≠ .writeInplace → r ≠ .panic ∧ ∀ e, r ≠ .err (.header e)) :
    MapRun MapStep (trace m ops s) (mapOf s.partitions) (mapOf (runOps m ops s).partitions) := by
  have hrun := c59_lax_partial m ops s hs hw
  generalize mapOf (runOps m ops s).partitions = t' at hrun
  generalize mapOf s.partitions = t at hrun
  generalize trace m ops s = l at hrun hclean
  induction hrun with
  | nil => exact .nil
  | @cons op r rest t t1 t2 hst _ ih =>
    refine .cons ?_ (ih fun o q h => hclean o q (List.mem_cons_of_mem _ h))
    rcases hst with hst | ⟨hr, v, hst⟩
    · exact hst
    · by_cases hop : op = .writeInplace
      · subst hop
        cases hst with
        | other _ =>
          rcases hr with rfl | ⟨e, rfl⟩
          · exact .panicked
          · exact .failed
      · obtain ⟨h1, h2⟩ := hclean op r List.mem_cons_self hop
        rcases hr with hr | ⟨e, hr⟩
        · exact absurd hr h1
        · exact absurd hr (h2 e)

/-- The claim is false: an `add_partition_at` that fails because the headers cannot be rebuilt leaves the entry behind. -/
theorem c59_fails : ¬ C59 := by
  intro hc
  obtain ⟨op, hop⟩ : ∃ op : Op, op = .addPartitionAt "x" 200 80 5 (exPart 0 0).partType 0 Uuid.nil Uuid.nil := ⟨_, rfl⟩
  have h := hc .debug [op] exDiskChange (by decide) (by intro o ho; rw [List.mem_singleton] at ho; rw [ho, hop]; trivial)
  have he : (op.step .debug exDiskChange).1 = .err (.header .toSmallForBackup) := by rw [hop]; decide +kernel
  have hp : mapOf (op.step .debug exDiskChange).2.partitions 200 ≠ none := by rw [hop]; decide +kernel
  have hn : mapOf exDiskChange.partitions 200 = none := by decide
  unfold trace trace at h
  rw [he] at h
  cases h with
  | cons hst hrest =>
    generalize ht1 : mapOf (runOps .debug [op] exDiskChange).partitions = t1 at hrest
    cases hrest with
    | nil =>
      generalize ht0 : mapOf exDiskChange.partitions = t0 at hst
      cases hst with
      | failed =>
        have : mapOf (op.step .debug exDiskChange).2.partitions = mapOf exDiskChange.partitions := ht1.trans ht0.symm
        rw [this] at hp
        exact hp hn

/-- A history without such failures: an addition, a refused addition, a removal. -/
example : let ops : List Op := [.addPartition "a" 512 (exPart 0 0).partType 0 none ⟨0, 0, 0, 9⟩ Uuid.nil,
      .addPartitionAt "b" 200 80 5 (exPart 0 0).partType 0 Uuid.nil Uuid.nil, .removePartition 1]
    (∀ op r, (op, r) ∈ trace .debug ops exDisk → op ≠ .writeInplace → r ≠ .panic ∧ ∀ e, r ≠ .err (.header e)) ∧
    (runOps .debug ops exDisk).partitions.map Prod.fst = [2, 3, 4] := by
  intro ops
  have h : (trace .debug ops exDisk).map Prod.snd = [.ok (.id 3), .err .partitionCountWouldChange, .ok (.optId (some 1))] := by
    decide +kernel
  refine ⟨?_, by decide +kernel⟩
  intro op r hr _
  have : r ∈ (trace .debug ops exDisk).map Prod.snd := List.mem_map.mpr ⟨_, hr, rfl⟩
  rw [h] at this
  simp only [List.mem_cons, List.not_mem_nil, or_false] at this
  rcases this with rfl | rfl | rfl <;> exact ⟨by simp, by simp⟩

end Gpt
