import Verif.Props.Alloc
import Verif.Lemmas.WriteMem
/-!
# Properties: removal, partition count, failed calls, swapping the device (C25, C28, C29, C48)
-/

namespace Gpt
open GptDisk

/-! ## C25: removal -/

/-- **C25.** `remove_partition` returns `Some(id)` exactly when the entry existed, and deletes that entry and nothing
else; otherwise it changes nothing. -/
theorem c25_remove (id : UInt32) (s : GptDisk) :
    ∃ r s', (removePartition id : M GptDisk GptError _) s = (.ok r, s') ∧
      ((∃ p, (id, p) ∈ s.partitions) ∧ r = some id ∧ (∀ e, e ∈ s'.partitions ↔ e ∈ s.partitions ∧ e.1 ≠ id) ∧
          s' = { s with partitions := s'.partitions } ∨
       (∀ p, (id, p) ∉ s.partitions) ∧ r = none ∧ s' = s) := by
  unfold removePartition
  cases h : PMap.get s.partitions id with
  | some p => exact ⟨_, _, rfl, .inl ⟨⟨p, PMap.mem_of_get h⟩, rfl, fun e => PMap.mem_remove, rfl⟩⟩
  | none => exact ⟨_, _, rfl, .inr ⟨PMap.get_none_iff.mp h, rfl, rfl⟩⟩

/-- **C25.** The order of the remaining entries does not change. -/
theorem c25_remove_order (id : UInt32) (s : GptDisk) :
    ((removePartition id : M GptDisk GptError _) s).2.partitions.Sublist s.partitions := by
  unfold removePartition
  split
  · exact List.filter_sublist
  · exact List.Sublist.refl _

/-- **C25.** `remove_partition_by_guid` removes the lowest-numbered entry with that GUID and nothing else, and returns
its id; without such an entry it changes nothing. -/
theorem c25_remove_by_guid (g : Uuid) (s : GptDisk) (hk : s.partitions.Pairwise (fun a b => a.1 < b.1)) :
    ∃ r s', (removePartitionByGuid g : M GptDisk GptError _) s = (.ok r, s') ∧
      ((∃ id p, (id, p) ∈ s.partitions ∧ p.partGuid = g ∧ r = some id ∧
          (∀ j q, (j, q) ∈ s.partitions → q.partGuid = g → id ≤ j) ∧
          (∀ e, e ∈ s'.partitions ↔ e ∈ s.partitions ∧ e.1 ≠ id) ∧ s' = { s with partitions := s'.partitions }) ∨
       (∀ j q, (j, q) ∈ s.partitions → q.partGuid ≠ g) ∧ r = none ∧ s' = s) := by
  unfold removePartitionByGuid
  cases h : s.partitions.find? (fun e => e.2.partGuid == g) with
  | none =>
    refine ⟨_, _, rfl, .inr ⟨?_, rfl, rfl⟩⟩
    intro j q hm hg
    have := List.find?_eq_none.mp h (j, q) hm
    simp [hg] at this
  | some e =>
    obtain ⟨id, p⟩ := e
    refine ⟨_, _, rfl, .inl ⟨id, p, List.mem_of_find?_eq_some h, ?_, rfl, ?_, fun e => PMap.mem_remove, rfl⟩⟩
    · simpa using List.find?_some h
    · intro j q hm hg
      obtain ⟨_, as, bs, heq, has⟩ := List.find?_eq_some_iff_append.mp h
      rw [heq] at hm hk
      rcases List.mem_append.mp hm with hm | hm
      · have := has _ hm
        simp [hg] at this
      · rcases List.mem_cons.mp hm with hm | hm
        · simp only [Prod.mk.injEq] at hm
          rw [hm.1, UInt32.le_iff_toNat_le]
        · have := (List.pairwise_cons.mp (List.pairwise_append.mp hk).2.1).1 _ hm
          rw [UInt32.lt_iff_toNat_lt] at this
          rw [UInt32.le_iff_toNat_le]
          exact Nat.le_of_lt this

/-- Three entries with the same GUID: the lowest-numbered one goes. -/
example : ((removePartitionByGuid ⟨0, 0, 0, 7⟩ : M GptDisk GptError _) exDisk).1 = .ok (some 1) := by decide +kernel

/-! ## C28: the partition count -/

theorem step_updatePartitions {m : Mode} {pp : PMap} {fresh : Uuid} {s : GptDisk} :
    ((Op.updatePartitions pp fresh).step m s).2 = (updatePartitions m pp fresh s).2 := rfl

/-- `update_partitions` when it gets as far as rebuilding the headers. -/
theorem updatePartitions_eq {m : Mode} {pp : PMap} {fresh : Uuid} {s : GptDisk} {h : Header} (h0 : PMap.get pp 0 = none)
    (hh : s.tryHeader = .ok h)
    (hp : h.numPartsWouldChange (UInt32.ofNat pp.length) = true → s.config.changePartitionCount = true) :
    updatePartitions m pp fresh s = initHeaders m fresh (s.withParts pp) := by
  unfold updatePartitions
  simp only [h0, Option.isSome_none, Bool.false_eq_true, if_false, M.bind_apply, M.get_apply, M.lift_apply]
  rw [header_ok_iff.mpr hh]
  cases hw : h.numPartsWouldChange (UInt32.ofNat pp.length) with
  | false => simp [hw, M.bind_apply, withParts]
  | true => simp [hw, M.bind_apply, withParts, hp hw]

/-- When an index does not fit the table, or the table is below the minimum. -/
theorem wouldChange_iff (h : Header) (n : UInt32) :
    h.numPartsWouldChange n = true ↔ h.numParts.toNat < max n.toNat 128 := by
  unfold Header.numPartsWouldChange
  have hm : minNumParts.toNat = 128 := rfl
  rw [bne_iff_ne, ne_eq, ← UInt32.toNat_inj, max32_toNat, max32_toNat, hm]
  omega

theorem wouldChange_false (h : Header) (n : UInt32) :
    h.numPartsWouldChange n = false ↔ max n.toNat 128 ≤ h.numParts.toNat := by
  rw [← Bool.not_eq_true, wouldChange_iff, Nat.not_lt]

/-- `UInt32.ofNat` of a length that fits. -/
theorem u32_ofNat_toNat {n : Nat} (h : n < 2 ^ 32) : (UInt32.ofNat n).toNat = n := by
  rw [UInt32.toNat_ofNat', Nat.mod_eq_of_lt h]

theorem tryHeader_of_primary {s : GptDisk} {h : Header} (hp : s.primaryHeader = .ok h) : s.tryHeader = .ok h := by
  unfold tryHeader; rw [hp]

/-- A well-formed call: the map given to `update_partitions` is a `BTreeMap`, so its ids are increasing. -/
def Op.Wf : Op → Prop
  | .updatePartitions pp _ => pp.Pairwise (fun a b => a.1 < b.1)
  | _ => True

/-- **C28**, the claim: without permission no call changes the number of entries of the header. -/
def C28 : Prop := ∀ (m : Mode) (op : Op) (s : GptDisk) (h : Header), op.Wf → s.config.changePartitionCount = false →
  s.tryHeader = .ok h → ∃ h', (op.step m s).2.tryHeader = .ok h' ∧ h'.numParts = h.numParts

theorem build_numParts {m : Mode} {b : HeaderBuilder} {lb : LbSize} {h : Header} (hb : b.build m lb = .ok h) :
    h.numParts = b.numParts ∧ h.partSize = b.partSize := by
  unfold HeaderBuilder.build at hb
  split at hb
  · simp at hb
  · simp only [Res.bind_eq_ok] at hb
    obtain ⟨_, _, _, _, _, _, _, _, _, _, hb⟩ := hb
    split at hb
    · simp at hb
    · split at hb
      all_goals
        rw [Res.bind_eq_ok] at hb
        obtain ⟨_, _, hb⟩ := hb
        simp only [Res.pure_eq, Res.ok.injEq] at hb
        rw [← hb]
        exact ⟨rfl, rfl⟩

/-- What `init_headers` does to the number of entries. -/
theorem initHeaders_numParts {m : Mode} {fresh : Uuid} {s s' : GptDisk} {r : Res GptError Unit}
    (hi : initHeaders m fresh s = (r, s')) :
    s'.tryHeader = s.tryHeader ∧ r ≠ .ok () ∨
    ∃ h', s'.tryHeader = .ok h' ∧ h'.numParts.toNat = max (UInt32.ofNat s.partitions.length).toNat 128 := by
  rcases initHeaders_any hi with ⟨h1, h2, h3⟩ | ⟨bak, h1, _, hb, hp, _⟩
  · left
    refine ⟨?_, h3⟩
    unfold tryHeader
    rw [h1, h2]
  · right
    refine ⟨h1, tryHeader_of_primary hp, ?_⟩
    rw [(build_numParts hb).1]
    unfold initBuilder HeaderBuilder.setPrimary HeaderBuilder.setDiskGuid HeaderBuilder.setBackupLba HeaderBuilder.setNumParts
    simp only [max32_toNat]
    rfl

/-- Inserting without permission leaves the headers alone. -/
theorem inserted_header {m : Mode} {id : UInt32} {p : Partition} {fresh2 : Uuid} {s s' : GptDisk} {r : Res GptError UInt32}
    (hi : Inserted m id p fresh2 s r s') (hc : s.config.changePartitionCount = false) :
    s'.primaryHeader = s.primaryHeader ∧ s'.backupHeader = s.backupHeader ∧ s'.config = s.config := by
  cases hi with
  | panic => exact ⟨rfl, rfl, rfl⟩
  | refused => exact ⟨rfl, rfl, rfl⟩
  | plain => exact ⟨rfl, rfl, rfl⟩
  | rebuilt h r s' _ _ h3 _ => rw [hc] at h3; simp at h3

theorem tryHeader_congr {s s' : GptDisk} (h1 : s'.primaryHeader = s.primaryHeader) (h2 : s'.backupHeader = s.backupHeader) :
    s'.tryHeader = s.tryHeader := by
  unfold tryHeader; rw [h1, h2]

theorem sameBut_fields {h h' : Header} (hs : h.SameBut h') : h'.numParts = h.numParts ∧ h'.partSize = h.partSize ∧
    h'.firstUsable = h.firstUsable ∧ h'.lastUsable = h.lastUsable ∧ h'.currentLba = h.currentLba ∧
    h'.backupLba = h.backupLba ∧ h'.partStart = h.partStart ∧ h'.diskGuid = h.diskGuid ∧ h'.signature = h.signature := by
  unfold Header.SameBut at hs
  rw [hs]
  exact ⟨rfl, rfl, rfl, rfl, rfl, rfl, rfl, rfl, rfl⟩

/-- A blank device of 400 blocks of 512 bytes. -/
def bigDev : Dev := ⟨zeros 204800, 0, 204800, [], []⟩

theorem bigDev_find : findBackupLba .lb512 bigDev = (.ok 399, bigDev) := by
  have hlen : bigDev.data.length = 204800 := zeros_length 204800
  rw [findBackupLba_nil rfl (by show (0 : Nat) < _; decide) (by rw [hlen]; decide), hlen]
  rfl

/-- 256 slots. -/
def exWideHeader : Header := { exHeader with numParts := 256, firstUsable := 66, lastUsable := 300, backupLba := 399 }
def exWide : GptDisk := { exDisk with device := bigDev, primaryHeader := .ok exWideHeader }

/-- The claim is false: `update_partitions` lowers the number of entries to 128 without permission. -/
theorem c28_fails : ¬ C28 := by
  intro hC
  obtain ⟨h', h1, h2⟩ := hC .debug (.updatePartitions [] Uuid.nil) exWide exWideHeader (by simp [Op.Wf]) rfl rfl
  have heq : updatePartitions .debug [] Uuid.nil exWide = initHeaders .debug Uuid.nil (exWide.withParts []) :=
    updatePartitions_eq rfl rfl (by decide)
  have hb : ∃ h, ((exWide.withParts []).initBuilder 399 Uuid.nil).build .debug .lb512 = .ok h ∧
      (∃ h2, backupOf .debug h .lb512 = .ok h2) := ⟨_, rfl, _, rfl⟩
  obtain ⟨h, hb, hbk, hb2⟩ := hb
  have hi := initHeaders_eq (s := exWide.withParts []) (fresh := Uuid.nil) bigDev_find hb (fun _ => hb2)
  rw [step_updatePartitions, heq, hi] at h1
  obtain rfl : h = h' := Except.ok.inj h1
  rw [(build_numParts hb).1] at h2
  exact absurd h2 (by decide)

/-- **C28**, what holds: without permission every call except `update_partitions` keeps the number of entries, and
`update_partitions` never raises it: it keeps it or sets it to the larger of the new table size and 128. Missing: an
`update_partitions` that lowers the count is allowed without permission (`c28_fails`). -/
theorem c28_partial (m : Mode) (op : Op) (s : GptDisk) (h : Header) (hc : s.config.changePartitionCount = false)
    (hh : s.tryHeader = .ok h) : ∃ h', (op.step m s).2.tryHeader = .ok h' ∧
      (h'.numParts = h.numParts ∨
       ∃ pp fresh, op = .updatePartitions pp fresh ∧ h'.numParts.toNat = max (UInt32.ofNat pp.length).toNat 128 ∧
         h'.numParts.toNat ≤ h.numParts.toNat) := by
  cases op with
  | addPartition n sz t f a r r2 =>
    refine ⟨h, ?_, .inl rfl⟩
    rw [← hh]
    rcases addPartition_any m n sz t f a r r2 s with ⟨h1, _⟩ | ⟨_, _, _, _, hi⟩
    · exact congrArg tryHeader h1
    · have := inserted_header hi hc
      exact tryHeader_congr this.1 this.2.1
  | addPartitionAt n i fl l t f r r2 =>
    refine ⟨h, ?_, .inl rfl⟩
    rw [← hh]
    rcases addPartitionAt_any m n i fl l t f r r2 s with ⟨h1, _⟩ | ⟨_, _, _, _, hi⟩
    · exact congrArg tryHeader h1
    · have := inserted_header hi hc
      exact tryHeader_congr this.1 this.2.1
  | removePartition i =>
    refine ⟨h, ?_, .inl rfl⟩
    rw [← hh]
    show ((removePartition i : M GptDisk GptError _) s).2.tryHeader = _
    unfold removePartition; split <;> rfl
  | removePartitionByGuid g =>
    refine ⟨h, ?_, .inl rfl⟩
    rw [← hh]
    show ((removePartitionByGuid g : M GptDisk GptError _) s).2.tryHeader = _
    unfold removePartitionByGuid; split <;> rfl
  | takePartitions => exact ⟨h, hh, .inl rfl⟩
  | updateGuid u r => exact ⟨h, hh, .inl rfl⟩
  | updateDiskDevice d w => exact ⟨h, hh, .inl rfl⟩
  | deviceMut d => exact ⟨h, hh, .inl rfl⟩
  | updatePartitions pp fresh =>
    rcases updatePartitions_any m pp fresh s with ⟨h1, _⟩ | ⟨_, h0, hh0, hperm, heq⟩
    · exact ⟨h, (congrArg tryHeader h1).trans hh, .inl rfl⟩
    · rw [hh] at hh0
      obtain rfl := Except.ok.inj hh0
      have hle : max (UInt32.ofNat pp.length).toNat 128 ≤ h.numParts.toNat := by
        rw [← wouldChange_false]
        cases hw : h.numPartsWouldChange (UInt32.ofNat pp.length) with
        | false => rfl
        | true => rw [hperm hw] at hc; simp at hc
      show ∃ h', (updatePartitions m pp fresh s).2.tryHeader = .ok h' ∧ _
      rcases hi : initHeaders m fresh (s.withParts pp) with ⟨r, s'⟩
      rw [heq, hi]
      rcases initHeaders_numParts hi with ⟨h1, _⟩ | ⟨h', h1, h2⟩
      · exact ⟨h, h1.trans hh, .inl rfl⟩
      · exact ⟨h', h1, .inr ⟨pp, fresh, rfl, h2, by rw [h2]; exact hle⟩⟩
  | writeInplace =>
    have hw := (writeInplace_mem m s).headers
    show ∃ h', (writeInplace m s).2.tryHeader = .ok h' ∧ _
    rcases hw with ⟨h1, h2⟩ | ⟨h0, ph, ph', hh0, hp, hsb, hpr, _⟩
    · exact ⟨h, (tryHeader_congr h1 h2).trans hh, .inl rfl⟩
    · rw [hh] at hh0
      obtain rfl := Except.ok.inj hh0
      refine ⟨ph', tryHeader_of_primary hpr, .inl ?_⟩
      rw [(sameBut_fields hsb).1]
      exact (build_numParts hp).1

/-- **C28.** Without permission an id that does not fit is refused and nothing changes: the only successful inserts are
at ids up to the number of entries. -/
theorem c28_refused (m : Mode) (name : String) (id : UInt32) (first length : UInt64) (ty : PType) (flags : UInt64)
    (fresh fresh2 : Uuid) (s : GptDisk) (h : Header) (hc : s.config.changePartitionCount = false)
    (hh : s.tryHeader = .ok h) :
    (∀ i s', addPartitionAt m name id first length ty flags fresh fresh2 s = (.ok i, s') → id.toNat ≤ h.numParts.toNat) ∧
    (∀ e s', addPartitionAt m name id first length ty flags fresh fresh2 s = (.err e, s') → s' = s) ∧
    (∀ i s' size align, addPartition m name size ty flags align fresh fresh2 s = (.ok i, s') → i.toNat ≤ h.numParts.toNat) ∧
    (∀ e s' size align, addPartition m name size ty flags align fresh fresh2 s = (.err e, s') → s' = s) := by
  have key : ∀ {id p r s'}, Inserted m id p fresh2 s r s' →
      (∀ i, r = .ok i → i = id ∧ i.toNat ≤ h.numParts.toNat) ∧ (∀ e, r = .err e → s' = s) := by
    intro id p r s' hi
    cases hi with
    | panic => exact ⟨by simp, fun _ _ => rfl⟩
    | refused => exact ⟨by simp, fun _ _ => rfl⟩
    | plain h' hh' hw =>
      rw [hh] at hh'
      obtain rfl := Except.ok.inj hh'
      rw [wouldChange_false] at hw
      exact ⟨fun i hi => by obtain rfl := Res.ok.inj hi; exact ⟨rfl, by omega⟩, by simp⟩
    | rebuilt h r s' _ _ h3 _ => rw [hc] at h3; simp at h3
  refine ⟨?_, ?_, ?_, ?_⟩
  · intro i s' hok
    rcases addPartitionAt_any m name id first length ty flags fresh fresh2 s with ⟨_, h2⟩ | ⟨_, _, _, _, hi⟩
    · rw [hok] at h2; simp at h2
    · rw [hok] at hi
      have := (key hi).1 i rfl
      rw [← this.1]; exact this.2
  · intro e s' herr
    rcases addPartitionAt_any m name id first length ty flags fresh fresh2 s with ⟨h1, _⟩ | ⟨_, _, _, _, hi⟩
    · rw [herr] at h1; exact h1
    · rw [herr] at hi; exact (key hi).2 e rfl
  · intro i s' size align hok
    rcases addPartition_any m name size ty flags align fresh fresh2 s with ⟨_, h2⟩ | ⟨_, _, _, _, hi⟩
    · rw [hok] at h2; simp at h2
    · rw [hok] at hi; exact ((key hi).1 i rfl).2
  · intro e s' size align herr
    rcases addPartition_any m name size ty flags align fresh fresh2 s with ⟨h1, _⟩ | ⟨_, _, _, _, hi⟩
    · rw [herr] at h1; exact h1
    · rw [herr] at hi; exact (key hi).2 e rfl

example : exDisk.config.changePartitionCount = false ∧ exDisk.tryHeader = .ok exHeader := ⟨rfl, rfl⟩

/-- **C28.** Without permission a table with more entries than slots is refused with the documented error and nothing
changes. -/
theorem c28_update_refused (m : Mode) (pp : PMap) (fresh : Uuid) (s : GptDisk) (h : Header)
    (hc : s.config.changePartitionCount = false) (hh : s.tryHeader = .ok h) (hlen : pp.length < 2 ^ 32)
    (h0 : PMap.get pp 0 = none) (hbig : h.numParts.toNat < pp.length) :
    updatePartitions m pp fresh s = (.err .partitionCountWouldChange, s) := by
  have hw : h.numPartsWouldChange (UInt32.ofNat pp.length) = true := by
    rw [wouldChange_iff, u32_ofNat_toNat hlen]; omega
  unfold updatePartitions
  simp only [h0, Option.isSome_none, Bool.false_eq_true, if_false, M.bind_apply, M.get_apply, M.lift_apply]
  rw [header_ok_iff.mpr hh]
  simp [hw, hc]

/-! ## C29: failed calls -/

theorem M.mapOk_err {σ ε α β : Type} {f : α → β} {x : M σ ε α} {s : σ} {e : ε} :
    (x.mapOk f s).1 = .err e ↔ (x s).1 = .err e := by
  unfold M.mapOk
  cases (x s).1 <;> simp

theorem M.mapOk_ok {σ ε α β : Type} {f : α → β} {x : M σ ε α} {s : σ} {b : β} :
    (x.mapOk f s).1 = .ok b ↔ ∃ a, (x s).1 = .ok a ∧ f a = b := by
  unfold M.mapOk
  cases (x s).1 <;> simp

theorem M.mapOk_panic {σ ε α β : Type} {f : α → β} {x : M σ ε α} {s : σ} :
    (x.mapOk f s).1 = .panic ↔ (x s).1 = .panic := by
  unfold M.mapOk
  cases (x s).1 <;> simp

/-- **C29**, the claim: a call that returns `Err` leaves the entries and the headers as they were. -/
def C29 : Prop := ∀ (m : Mode) (op : Op) (s : GptDisk) (e : GptError), op.Wf → op ≠ .writeInplace →
  (op.step m s).1 = .err e →
    (op.step m s).2.partitions = s.partitions ∧ (op.step m s).2.primaryHeader = s.primaryHeader ∧
    (op.step m s).2.backupHeader = s.backupHeader

/-- The disk of the examples, allowed to change the number of entries. -/
def exDiskChange : GptDisk := { exDisk with config := { GptConfig.new with changePartitionCount := true } }

/-- The claim is false: when the headers cannot be rebuilt (here because the device is too small), the error is returned
after the entry was inserted. -/
theorem c29_fails : ¬ C29 := by
  intro hC
  have h1 := (hC .debug (.addPartitionAt "x" 200 80 5 (exPart 0 0).partType 0 Uuid.nil Uuid.nil) exDiskChange
    (.header .toSmallForBackup) trivial (by simp) (by decide +kernel)).1
  have h2 : (((Op.addPartitionAt "x" 200 80 5 (exPart 0 0).partType 0 Uuid.nil Uuid.nil).step .debug exDiskChange).2.partitions).length
      = 4 := by decide +kernel
  rw [h1] at h2
  exact absurd h2 (by decide)

/-- `update_partitions` needs no change of the count for that. -/
theorem c29_fails_update : ∃ s' pp, pp ≠ exDisk.partitions ∧
    updatePartitions .debug pp Uuid.nil exDisk = (.err (.header .toSmallForBackup), s') ∧ s'.partitions = pp :=
  ⟨(updatePartitions .debug [] Uuid.nil exDisk).2, [], by decide, Prod.ext (by decide +kernel) rfl, by decide +kernel⟩

/-- **C29**, what holds: a call whose error is not a header error changed nothing at all, not even the device position.
Missing: header errors, which `init_headers` reports after the entries were changed (`c29_fails`). -/
theorem c29_partial (m : Mode) (op : Op) (s : GptDisk) (e : GptError) (hw : op ≠ .writeInplace)
    (he : ∀ e', e ≠ .header e') (h : (op.step m s).1 = .err e) : (op.step m s).2 = s := by
  have hmap := fun {α : Type} {f : α → OpVal} {x : M GptDisk GptError α} => (M.mapOk_err (s := s) (e := e) (f := f) (x := x)).mp
  have key : ∀ {id p fresh2 r s'}, Inserted m id p fresh2 s r s' → r = .err e → s' = s := by
    intro id p fresh2 r s' hi hr
    cases hi with
    | panic => rfl
    | refused => rfl
    | plain => simp at hr
    | rebuilt h r s' _ _ _ hinit =>
      rw [Res.as_eq_err] at hr
      subst hr
      obtain ⟨e', he'⟩ := initHeaders_err hinit
      exact absurd he' (he e')
  cases op with
  | addPartition n sz t f a r r2 =>
    have h' := hmap h
    show (addPartition m n sz t f a r r2 s).2 = s
    rcases addPartition_any m n sz t f a r r2 s with ⟨h1, _⟩ | ⟨_, _, _, _, hi⟩
    · exact h1
    · exact key hi h'
  | addPartitionAt n i fl l t f r r2 =>
    have h' := hmap h
    show (addPartitionAt m n i fl l t f r r2 s).2 = s
    rcases addPartitionAt_any m n i fl l t f r r2 s with ⟨h1, _⟩ | ⟨_, _, _, _, hi⟩
    · exact h1
    · exact key hi h'
  | removePartition i =>
    have h' := hmap h
    unfold removePartition at h'; split at h' <;> simp at h'
  | removePartitionByGuid g =>
    have h' := hmap h
    unfold removePartitionByGuid at h'; split at h' <;> simp at h'
  | takePartitions => have h' := hmap h; simp [takePartitions] at h'
  | updateGuid u r => have h' := hmap h; simp [updateGuid] at h'
  | updateDiskDevice d w => have h' := hmap h; simp [updateDiskDevice] at h'
  | deviceMut d => have h' := hmap h; simp [deviceMut] at h'
  | updatePartitions pp fresh =>
    have h' := hmap h
    show (updatePartitions m pp fresh s).2 = s
    rcases updatePartitions_any m pp fresh s with ⟨h1, _⟩ | ⟨_, h0, _, _, heq⟩
    · exact h1
    · rw [heq] at h'
      obtain ⟨e', he'⟩ := initHeaders_err (Prod.ext h' rfl)
      exact absurd he' (he e')
  | writeInplace => exact absurd rfl hw

/-- The hypotheses of `c29_partial` are met: no room, a used id, a count that may not change. -/
example : ((Op.addPartition "x" 0x100000 (exPart 0 0).partType 0 none Uuid.nil Uuid.nil).step .debug exDisk).1 = .err .notEnoughSpace := by
  decide +kernel
example : ((Op.addPartitionAt "x" 1 90 1 (exPart 0 0).partType 0 Uuid.nil Uuid.nil).step .debug exDisk).1 = .err .partitionIdAlreadyUsed := by
  decide +kernel
example : ((Op.addPartitionAt "x" 129 90 1 (exPart 0 0).partType 0 Uuid.nil Uuid.nil).step .debug exDisk).1 = .err .partitionCountWouldChange := by
  decide +kernel

/-- **C29.** Without permission to change the count, a failed `add_partition` or `add_partition_at` changes nothing,
whatever the error and whatever the device does. -/
theorem c29_add_partial (m : Mode) (op : Op) (s : GptDisk) (e : GptError) (hc : s.config.changePartitionCount = false)
    (hop : (∃ n sz t f a r r2, op = .addPartition n sz t f a r r2) ∨ ∃ n i fl l t f r r2, op = .addPartitionAt n i fl l t f r r2)
    (h : (op.step m s).1 = .err e) : (op.step m s).2 = s := by
  have hmap := fun {α : Type} {f : α → OpVal} {x : M GptDisk GptError α} => (M.mapOk_err (s := s) (e := e) (f := f) (x := x)).mp
  have key : ∀ {id p fresh2 r s'}, Inserted m id p fresh2 s r s' → r = .err e → s' = s := by
    intro id p fresh2 r s' hi hr
    cases hi with
    | panic => rfl
    | refused => rfl
    | plain => simp at hr
    | rebuilt h r s' _ _ h3 _ => rw [hc] at h3; simp at h3
  rcases hop with ⟨n, sz, t, f, a, r, r2, rfl⟩ | ⟨n, i, fl, l, t, f, r, r2, rfl⟩
  · have h' := hmap h
    show (addPartition m n sz t f a r r2 s).2 = s
    rcases addPartition_any m n sz t f a r r2 s with ⟨h1, _⟩ | ⟨_, _, _, _, hi⟩
    · exact h1
    · exact key hi h'
  · have h' := hmap h
    show (addPartitionAt m n i fl l t f r r2 s).2 = s
    rcases addPartitionAt_any m n i fl l t f r r2 s with ⟨h1, _⟩ | ⟨_, _, _, _, hi⟩
    · exact h1
    · exact key hi h'

/-! ## C48: swapping the device -/

theorem lossy_idem (e : HeaderError) : e.lossyClone.lossyClone = e.lossyClone := by
  cases e with
  | io e => cases e <;> rfl
  | _ => rfl

theorem lossyHeader_idem (h : Except HeaderError Header) : lossyHeader (lossyHeader h) = lossyHeader h := by
  cases h with
  | ok h => rfl
  | error e => simp [lossyHeader, lossy_idem]

/-- What the accessors of a disk report. -/
structure Observe where
  primary : Except HeaderError Header
  backup : Except HeaderError Header
  header : Except HeaderError Header
  blockSize : LbSize
  guid : Uuid
  parts : PMap
  deriving DecidableEq

def GptDisk.observe (s : GptDisk) : Observe :=
  ⟨s.primaryHeader?, s.backupHeader?, s.tryHeader, s.config.lbSize, s.guid, s.partitions⟩

theorem tryHeader_lossy {s s' : GptDisk} (h1 : s'.primaryHeader = lossyHeader s.primaryHeader)
    (h2 : s'.backupHeader = lossyHeader s.backupHeader) : s'.tryHeader = s.tryHeader := by
  unfold tryHeader
  rw [h1, h2]
  cases s.primaryHeader with
  | ok h => rfl
  | error e =>
    simp only [lossyHeader]
    cases s.backupHeader with
    | ok h => rfl
    | error e => simp [lossy_idem]

/-- **C48.** `with_disk_device` keeps everything the accessors report; the configuration changes only in `writable`. -/
theorem c48_with_disk_device (s : GptDisk) (d : Dev) (w : Bool) :
    (s.withDiskDevice d w).observe = s.observe ∧ (s.withDiskDevice d w).device = d ∧
    (s.withDiskDevice d w).config = { s.config with writable := w } ∧ (s.withDiskDevice d w).syncAll = false := by
  refine ⟨?_, rfl, rfl, rfl⟩
  unfold observe primaryHeader? backupHeader?
  rw [tryHeader_lossy (s := s) (s' := s.withDiskDevice d w) rfl rfl]
  simp only [withDiskDevice, lossyHeader_idem]

/-- **C48.** `update_disk_device` returns the old device, installs the new one and changes nothing else but
`writable`. -/
theorem c48_update_disk_device (s : GptDisk) (d : Dev) (w : Bool) :
    ∃ s', (updateDiskDevice d w : M GptDisk GptError Dev) s = (.ok s.device, s') ∧ s'.observe = s.observe ∧ s'.device = d ∧
      s'.config = { s.config with writable := w } ∧ s'.syncAll = s.syncAll :=
  ⟨_, rfl, rfl, rfl, rfl, rfl⟩

/-- **C48.** A clone reports the same, on the same device and with the same configuration. -/
theorem c48_clone (s : GptDisk) : s.clone.observe = s.observe ∧ s.clone.device = s.device ∧ s.clone.config = s.config ∧
    s.clone.syncAll = s.syncAll := by
  refine ⟨?_, rfl, rfl, rfl⟩
  unfold observe primaryHeader? backupHeader?
  rw [tryHeader_lossy (s := s) (s' := s.clone) rfl rfl]
  simp only [clone, lossyHeader_idem]

/-- How an error of a header is handed out: the kind is kept, and only the words of an error the library made itself are lost. -/
def Spec.HandedOut (stored given : HeaderError) : Prop :=
  (∃ msg, stored = .io (.other msg) ∧ given = .io (.other "")) ∨ ((∀ msg, stored ≠ .io (.other msg)) ∧ given = stored)

/-- How a header, or the error in its place, is handed out. -/
inductive Spec.HeaderGiven : Except HeaderError Header → Except HeaderError Header → Prop
  | header (h : Header) : Spec.HeaderGiven (.ok h) (.ok h)
  | error {e e' : HeaderError} : Spec.HandedOut e e' → Spec.HeaderGiven (.error e) (.error e')

theorem handedOut_lossyClone (e : HeaderError) : Spec.HandedOut e e.lossyClone := by
  cases e with
  | io e =>
    cases e with
    | other msg => exact .inl ⟨msg, rfl, rfl⟩
    | _ => exact .inr ⟨(fun _ h => nomatch h), rfl⟩
  | _ => exact .inr ⟨(fun _ h => nomatch h), rfl⟩

theorem headerGiven_lossyHeader (h : Except HeaderError Header) : Spec.HeaderGiven h (lossyHeader h) := by
  cases h with
  | ok h => exact .header h
  | error e => exact .error (handedOut_lossyClone e)

/-- **C48.** What is kept of an error in the place of a header: `clone` and `with_disk_device` store it, and `primary_header` and
`backup_header` report it, with its kind and without the words of the library; a header itself is the same header. -/
theorem c48_errors (s : GptDisk) (d : Dev) (w : Bool) :
    (Spec.HeaderGiven s.primaryHeader s.clone.primaryHeader ∧ Spec.HeaderGiven s.backupHeader s.clone.backupHeader) ∧
    (Spec.HeaderGiven s.primaryHeader (s.withDiskDevice d w).primaryHeader ∧
      Spec.HeaderGiven s.backupHeader (s.withDiskDevice d w).backupHeader) ∧
    Spec.HeaderGiven s.primaryHeader s.primaryHeader? ∧ Spec.HeaderGiven s.backupHeader s.backupHeader? :=
  ⟨⟨headerGiven_lossyHeader _, headerGiven_lossyHeader _⟩, ⟨headerGiven_lossyHeader _, headerGiven_lossyHeader _⟩,
    headerGiven_lossyHeader _, headerGiven_lossyHeader _⟩

/-- **C48.** `header` reports the primary header if there is one, else what `backup_header` reports. -/
theorem c48_header (s : GptDisk) :
    (∀ h, s.primaryHeader = .ok h → s.tryHeader = .ok h) ∧
    (∀ e, s.primaryHeader = .error e → Spec.HeaderGiven s.backupHeader s.tryHeader) := by
  constructor
  · intro h hh
    simp only [tryHeader, hh]
  · intro e he
    cases hb : s.backupHeader with
    | ok h => simp only [tryHeader, he, hb]; exact .header h
    | error e => simp only [tryHeader, he, hb]; exact .error (handedOut_lossyClone e)

/-- A disk with a readable primary and an I/O error for the backup. -/
example : ({ exDisk with backupHeader := .error (.io (.other "boom")) } : GptDisk).clone.observe.backup =
    .error (.io (.other "")) := by decide

end Gpt
