import Verif.Props.Write
import Verif.Props.Table
import Verif.Props.Create
/-!
# Partition GUIDs: C121
-/

namespace Gpt

open Spec GptDisk

/-- No two entries have the same GUID. -/
def Spec.Distinct (t : PMap) : Prop := (t.map (·.2.partGuid)).Nodup

/-- What a call brings in is new: the random GUID of an added partition is not in the table, and a table given by the caller has no GUID
twice. -/
def Spec.BringsNew (t : PMap) : Op → Prop
  | .addPartition _ _ _ _ _ fresh _ => ∀ e ∈ t, e.2.partGuid ≠ fresh
  | .addPartitionAt _ _ _ _ _ _ fresh _ => ∀ e ∈ t, e.2.partGuid ≠ fresh
  | .updatePartitions pp _ => Distinct pp
  | _ => True

theorem insert_perm (k : UInt32) (p : Partition) (t : PMap) : ∃ t', t'.Sublist t ∧ (PMap.insert k p t).Perm ((k, p) :: t') := by
  induction t with
  | nil => exact ⟨[], List.Sublist.refl _, List.Perm.refl _⟩
  | cons a t ih =>
    unfold PMap.insert
    split
    · exact ⟨a :: t, List.Sublist.refl _, List.Perm.refl _⟩
    · split
      · exact ⟨t, List.sublist_cons_self a t, List.Perm.refl _⟩
      · obtain ⟨t', h1, h2⟩ := ih
        exact ⟨a :: t', h1.cons_cons a, (h2.cons a).trans (List.Perm.swap _ _ _)⟩

theorem distinct_insert {k : UInt32} {p : Partition} {t : PMap} (hd : Distinct t) (hn : ∀ e ∈ t, e.2.partGuid ≠ p.partGuid) :
    Distinct (PMap.insert k p t) := by
  obtain ⟨t', h1, h2⟩ := insert_perm k p t
  unfold Distinct
  refine (h2.map _).nodup_iff.mpr (List.nodup_cons.mpr ⟨fun hm => ?_, hd.sublist (h1.map _)⟩)
  obtain ⟨e, he, hg⟩ := List.mem_map.mp hm
  exact hn e (h1.subset he) hg

/-- **C121**, one call. -/
theorem c121_call (m : Mode) (op : Op) (s : GptDisk) (hd : Distinct s.partitions) (hn : BringsNew s.partitions op) :
    Distinct (op.step m s).2.partitions := by
  have hins : ∀ {id p fresh2 r s'}, Inserted m id p fresh2 s r s' → (∀ e ∈ s.partitions, e.2.partGuid ≠ p.partGuid) → Distinct s'.partitions := by
    intro id p fresh2 r s' hi hn
    cases hi with
    | panic => exact hd
    | refused => exact hd
    | plain => exact distinct_insert hd hn
    | rebuilt h0 r s' _ _ _ hi =>
      rw [(initHeaders_same hi).partitions]
      exact distinct_insert hd hn
  cases op with
  | addPartition n sz t f a r r2 =>
    rcases addPartition_any m n sz t f a r r2 s with ⟨h1, _⟩ | ⟨_, _, _, _, hi⟩
    · show Distinct (addPartition m n sz t f a r r2 s).2.partitions
      rw [h1]
      exact hd
    · exact hins hi hn
  | addPartitionAt n i fl l t f r r2 =>
    rcases addPartitionAt_any m n i fl l t f r r2 s with ⟨h1, _⟩ | ⟨_, _, _, _, hi⟩
    · show Distinct (addPartitionAt m n i fl l t f r r2 s).2.partitions
      rw [h1]
      exact hd
    · exact hins hi hn
  | removePartition i =>
    exact hd.sublist ((c25_remove_order i s).map _)
  | removePartitionByGuid g =>
    show Distinct ((removePartitionByGuid g : M GptDisk GptError _) s).2.partitions
    unfold removePartitionByGuid
    split
    · exact hd.sublist (List.filter_sublist.map _)
    · exact hd
  | takePartitions => exact List.nodup_nil
  | updateGuid u r => exact hd
  | updateDiskDevice d w => exact hd
  | deviceMut d => exact hd
  | updatePartitions pp fresh =>
    rcases updatePartitions_any m pp fresh s with ⟨h1, _⟩ | ⟨_, h0, hh0, hperm, heq⟩
    · show Distinct (updatePartitions m pp fresh s).2.partitions
      rw [h1]
      exact hd
    · show Distinct (updatePartitions m pp fresh s).2.partitions
      rcases hi : initHeaders m fresh (s.withParts pp) with ⟨r, s'⟩
      rw [heq, hi]
      show Distinct s'.partitions
      rw [(initHeaders_same hi).partitions]
      exact hn
  | writeInplace =>
    show Distinct (writeInplace m s).2.partitions
    rw [(writeInplace_mem m s).partitions]
    exact hd

/-- **C121**, histories: if no two entries have the same GUID, and no random number and no table of the caller brings a GUID that is
there already, no two entries ever have the same GUID. -/
theorem c121_history (m : Mode) (ops : List Op) (s : GptDisk) (hd : Distinct s.partitions)
    (hn : ∀ pre op post, ops = pre ++ op :: post → BringsNew (runOps m pre s).partitions op) : Distinct (runOps m ops s).partitions := by
  induction ops generalizing s with
  | nil => exact hd
  | cons op ops ih =>
    refine ih (op.step m s).2 (c121_call m op s hd (hn [] op ops rfl)) fun pre op' post e => ?_
    exact hn (op :: pre) op' post (by rw [e]; rfl)

theorem distinct_numbered {t t2 : PMap} (hd : Distinct t) (hn : Numbered (Spec.used t) t2) : Distinct t2 := by
  have e : t2.map (·.2.partGuid) = (Spec.used t).map (·.partGuid) := by
    refine List.ext_getElem? fun j => ?_
    rw [List.getElem?_map, List.getElem?_map]
    by_cases hj : j < (Spec.used t).length
    · obtain ⟨k, q, h1, -, h2⟩ := hn.entries j hj
      rw [h1, List.getElem?_eq_getElem hj]
      simp only [Option.map_some]
      rw [h2.guid]
    · rw [List.getElem?_eq_none (by rw [hn.length]; omega), List.getElem?_eq_none (by omega)]
      rfl
  unfold Distinct
  rw [e]
  unfold Spec.used
  refine List.Nodup.sublist ?_ hd
  have := (List.filter_sublist (p := fun p : Partition => p.partType.guid != Uuid.nil) (l := t.map Prod.snd)).map (·.partGuid)
  rw [List.map_map] at this
  exact this

/-- **C121**, writing and opening: so is it with the table that is found on opening what was written. -/
theorem c121_reopen (m m' : Mode) (s s' : GptDisk) (h : Header) (k B : Nat) (cfg : GptConfig) (d : Dev) (hs : SaneDisk s h k B)
    (hok : writeInplace m s = (.ok (), s')) (hd : d.data = s'.device.data) (hf : d.faults = []) (hp : d.pos < 2 ^ 64)
    (hlb : cfg.lbSize = s.config.lbSize) (hv : cfg.onlyValidHeaders = true → BackupValid cfg.lbSize d.data) (hg : Distinct s.partitions) :
    ∃ s2 d2, openFromDevice m' cfg d = (.ok s2, d2) ∧ Distinct s2.partitions ∧
      ∀ g, (∃ i p, (i, p) ∈ s2.partitions ∧ p.partGuid = g) ↔ ∃ i p, (i, p) ∈ s.partitions ∧ p.partType.guid ≠ Uuid.nil ∧ p.partGuid = g := by
  obtain ⟨s2, d2, h2, e, -, -, -, -, -, -, -, -, -, -, hn⟩ := c30_write_open m m' s s' h k B cfg d hs hok hd hf hp hlb hv
  refine ⟨s2, d2, e, distinct_numbered hg hn, fun g => ⟨?_, ?_⟩⟩
  · rintro ⟨i, p, hm, rfl⟩
    obtain ⟨j, hj, e⟩ := List.mem_iff_getElem.mp hm
    have hj2 : j < (Spec.used s.partitions).length := by rw [← hn.length]; exact hj
    obtain ⟨k, q, h1, -, h2⟩ := hn.entries j hj2
    rw [List.getElem?_eq_getElem hj, e] at h1
    obtain ⟨rfl, rfl⟩ := Prod.mk.inj (Option.some.inj h1)
    have hu : (Spec.used s.partitions)[j] ∈ Spec.used s.partitions := List.getElem_mem hj2
    unfold Spec.used at hu
    obtain ⟨hu1, hu2⟩ := List.mem_filter.mp hu
    obtain ⟨e1, he1, he2⟩ := List.mem_map.mp hu1
    refine ⟨e1.1, e1.2, he1, ?_, ?_⟩
    · rw [he2]; simpa using hu2
    · rw [he2, h2.guid]; rfl
  · rintro ⟨i, p, hm, hnil, rfl⟩
    have hu : p ∈ Spec.used s.partitions := List.mem_filter.mpr ⟨List.mem_map.mpr ⟨(i, p), hm, rfl⟩, by simpa using hnil⟩
    obtain ⟨j, hj, e⟩ := List.mem_iff_getElem.mp hu
    obtain ⟨k, q, h1, -, h2⟩ := hn.entries j hj
    refine ⟨k, q, List.mem_of_getElem? h1, ?_⟩
    rw [h2.guid, e]

/-- **C121**, use: if no two entries have the same GUID, `remove_partition_by_guid` removes the one entry with the GUID, and then there is
none with it. -/
theorem c121_remove (g : Uuid) (s : GptDisk) (hd : Distinct s.partitions) (hk : s.partitions.Pairwise (fun a b => a.1 < b.1)) (i : UInt32)
    (p : Partition) (hp : (i, p) ∈ s.partitions) (hg : p.partGuid = g) :
    ∃ s', (removePartitionByGuid g : M GptDisk GptError _) s = (.ok (some i), s') ∧
      (∀ e, e ∈ s'.partitions ↔ e ∈ s.partitions ∧ e ≠ (i, p)) ∧ ∀ e ∈ s'.partitions, e.2.partGuid ≠ g := by
  have key : ∀ {e}, e ∈ s.partitions → e.2.partGuid = g → e = (i, p) := fun {e} he hge =>
    List.inj_on_of_nodup_map hd he hp (hge.trans hg.symm)
  obtain ⟨r, s', e, h | ⟨h, -⟩⟩ := c25_remove_by_guid g s hk
  · obtain ⟨j, q, h1, h2, rfl, -, h3, -⟩ := h
    obtain ⟨rfl, rfl⟩ := Prod.mk.inj (key h1 h2)
    have hne : ∀ e, e ∈ s.partitions → (e.1 ≠ j ↔ e ≠ (j, q)) := fun e he => by
      refine ⟨fun hn h => hn (by rw [h]), fun hn h => hn ?_⟩
      obtain ⟨a, b⟩ := e
      obtain rfl : a = j := h
      have h1 := PMap.get_of_mem hk he
      rw [PMap.get_of_mem hk hp] at h1
      rw [Option.some.inj h1]
    refine ⟨s', e, fun e => ?_, fun e he hge => ?_⟩
    · rw [h3]
      exact ⟨fun hx => ⟨hx.1, (hne e hx.1).mp hx.2⟩, fun hx => ⟨hx.1, (hne e hx.1).mpr hx.2⟩⟩
    · obtain ⟨hx, hy⟩ := (h3 e).mp he
      exact hy (by rw [key hx hge])
  · exact absurd hg (h i p hp)

theorem initHeaders_parts (m : Mode) (fresh : Uuid) (s : GptDisk) (t : PMap) (hl : t.length = s.partitions.length) :
    (initHeaders m fresh (s.withParts t)).1 = (initHeaders m fresh s).1 := by
  unfold initHeaders
  simp only [M.bind_apply, M.get_apply, withParts, onDev, M.zoom, hl]
  rw [show GptDisk.tryHeader { s with partitions := t } = s.tryHeader from rfl]
  rcases M.mapErr GptError.header (findBackupLba s.config.lbSize) s.device with ⟨r, d⟩
  cases r with
  | err e => rfl
  | panic => rfl
  | ok bak =>
    simp only [M.lift_apply]
    cases Res.mapErr GptError.header (HeaderBuilder.build m (((((HeaderBuilder.fromMaybeHeader s.tryHeader fresh).setNumParts
        (UInt32.ofNat s.partitions.length)).setBackupLba bak).setDiskGuid s.guid).setPrimary true) s.config.lbSize) with
    | err e => rfl
    | panic => rfl
    | ok h1 =>
      simp only [M.modify_apply]
      split
      · rfl
      · simp only [M.bind_apply, M.lift_apply]
        cases Res.mapErr GptError.header (HeaderBuilder.build m ((HeaderBuilder.fromHeader h1).setPrimary false) s.config.lbSize) <;> rfl

/-- **C121**, what is not checked: whether `update_partitions` accepts a table depends on the ids in it only, so a table in which GUIDs are
repeated is accepted as well as any other, and then in use. -/
theorem c121_unchecked (m : Mode) (fresh : Uuid) (s : GptDisk) (t t' : PMap) (hk : t'.map Prod.fst = t.map Prod.fst) :
    (updatePartitions m t' fresh s).1 = (updatePartitions m t fresh s).1 ∧
      ((updatePartitions m t' fresh s).1 = .ok () → (updatePartitions m t' fresh s).2.partitions = t') := by
  have hl : t'.length = t.length := by simpa using congrArg List.length hk
  have hg : (PMap.get t' 0).isSome = (PMap.get t 0).isSome := by
    have key : ∀ {a b : PMap}, a.map Prod.fst = b.map Prod.fst → PMap.get a 0 = none → PMap.get b 0 = none := by
      intro a b hab ha
      rw [PMap.get_none_iff] at ha ⊢
      intro p hp
      have : (0 : UInt32) ∈ a.map Prod.fst := by rw [hab]; exact List.mem_map.mpr ⟨(0, p), hp, rfl⟩
      obtain ⟨e, he, h0⟩ := List.mem_map.mp this
      exact ha e.2 (by rw [← h0]; exact he)
    cases h1 : PMap.get t' 0 with
    | none => rw [key hk h1]
    | some p =>
      cases h2 : PMap.get t 0 with
      | none => rw [key hk.symm h2] at h1; cases h1
      | some q => rfl
  have hinit : (initHeaders m fresh (s.withParts t')).1 = (initHeaders m fresh (s.withParts t)).1 :=
    initHeaders_parts m fresh (s.withParts t) t' hl
  refine ⟨?_, fun hok => ?_⟩
  · unfold updatePartitions
    rw [hg, hl]
    split
    · rfl
    · simp only [M.bind_apply, M.get_apply, M.lift_apply]
      cases (s.header : Res GptError Header) with
      | err e => rfl
      | panic => rfl
      | ok h =>
        simp only
        split
        · rfl
        · exact hinit
  · rcases updatePartitions_any m t' fresh s with ⟨-, h1 | ⟨h1, -⟩⟩ | ⟨-, h0, hh0, hperm, heq⟩
    · rw [h1] at hok; cases hok
    · rw [h1] at hok; cases hok
    · rcases hi : initHeaders m fresh (s.withParts t') with ⟨r, s'⟩
      rw [heq, hi]
      exact (initHeaders_same hi).partitions

/-- Two partitions with different GUIDs. -/
def pairTable : PMap := [(1, smallPart), (3, { smallPart with partGuid := ⟨9, 8, 7, 6⟩ })]

theorem pairTable_distinct : Distinct pairTable := by unfold Distinct; decide

/-- C121: they are different again when the disk was written and opened. -/
example (m m' : Mode) : ∃ s' s2 d2, writeInplace m (smallDisk pairTable) = (.ok (), s') ∧
    openFromDevice m' GptConfig.new ⟨s'.device.data, 0, 5120, [], []⟩ = (.ok s2, d2) ∧ Distinct s2.partitions := by
  obtain ⟨s', hw, -, -⟩ := smallDisk_written m pairTable (by decide)
  obtain ⟨s2, d2, h1, h2, -⟩ := c121_reopen m m' (smallDisk pairTable) s' smallHeader 1 9 GptConfig.new ⟨s'.device.data, 0, 5120, [], []⟩
    (smallDisk_sane _) hw rfl rfl (by show 0 < 2 ^ 64; decide) rfl (fun h => nomatch h) pairTable_distinct
  exact ⟨s', s2, d2, hw, h1, h2⟩

/-- C121: two calls, one of them with a new random number, keep them different. -/
example (m : Mode) : Distinct (runOps m [.addPartition "x" 512 smallPart.partType 0 none ⟨1, 1, 1, 1⟩ Uuid.nil, .writeInplace] (smallDisk pairTable)).partitions := by
  refine c121_history m _ _ pairTable_distinct fun pre op post e => ?_
  match pre, e with
  | [], e =>
    obtain ⟨rfl, -⟩ := List.cons.inj e
    show ∀ e ∈ pairTable, e.2.partGuid ≠ ⟨1, 1, 1, 1⟩
    decide
  | [_], e =>
    obtain ⟨-, e⟩ := List.cons.inj e
    obtain ⟨rfl, -⟩ := List.cons.inj e
    trivial
  | _ :: _ :: _, e => exact absurd (congrArg List.length e) (by simp)

/-- C121: removing by GUID. -/
example : ∃ s', (removePartitionByGuid ⟨9, 8, 7, 6⟩ : M GptDisk GptError _) (smallDisk pairTable) = (.ok (some 3), s') :=
  (c121_remove ⟨9, 8, 7, 6⟩ (smallDisk pairTable) pairTable_distinct (by show pairTable.Pairwise _; decide) 3 { smallPart with partGuid := ⟨9, 8, 7, 6⟩ } (List.mem_cons_of_mem _ (List.mem_cons_self ..)) rfl).imp
    fun _ h => h.1

/-- C121: a table with one GUID twice is accepted, and of the two `remove_partition_by_guid` removes the first. -/
example : ∃ s', updatePartitions .debug [(1, exPart 80 99), (2, exPart 100 120)] Uuid.nil exWide = (.ok (), s') ∧
    s'.partitions = [(1, exPart 80 99), (2, exPart 100 120)] ∧ ¬ Distinct s'.partitions ∧
    ((removePartitionByGuid ⟨0, 0, 0, 7⟩ : M GptDisk GptError _) s').2.partitions = [(2, exPart 100 120)] := by
  have heq : updatePartitions .debug [(1, exPart 80 99), (2, exPart 100 120)] Uuid.nil exWide =
      initHeaders .debug Uuid.nil (exWide.withParts [(1, exPart 80 99), (2, exPart 100 120)]) :=
    updatePartitions_eq rfl rfl (by decide)
  have hb : ∃ h, ((exWide.withParts [(1, exPart 80 99), (2, exPart 100 120)]).initBuilder 399 Uuid.nil).build .debug .lb512 = .ok h ∧
      (∃ h2, backupOf .debug h .lb512 = .ok h2) := ⟨_, rfl, _, rfl⟩
  obtain ⟨h, hb, hbk, hb2⟩ := hb
  have hi := initHeaders_eq (s := exWide.withParts [(1, exPart 80 99), (2, exPart 100 120)]) (fresh := Uuid.nil) bigDev_find hb (fun _ => hb2)
  rw [heq, hi]
  exact ⟨_, rfl, rfl, by
    show ¬ Distinct [(1, exPart 80 99), (2, exPart 100 120)]
    unfold Distinct; decide, by rfl⟩

end Gpt
