import Verif.Props.Session
import Verif.Props.AnyTable
/-!
# Changes can be taken back: C134

Adding a partition and removing it again; removing one and adding it again; and what that leaves on the device. The last part rests on
`c134_bytes`: in a session the device after a write is a function of the device at the beginning, the disk GUID and the used entries, so
the way the table was reached does not matter.
-/

namespace Gpt

open Spec GptDisk

/-- `s'` is `s` without the entry under `id`. -/
structure Spec.Without (s : GptDisk) (id : UInt32) (s' : GptDisk) : Prop where
  rest : s' = { s with partitions := s'.partitions }
  entries : ∀ e, e ∈ s'.partitions ↔ e ∈ s.partitions ∧ e.1 ≠ id
  keys : s'.partitions.Pairwise (fun a b => a.1 < b.1)

/-- If there was none, `s'` is `s`. -/
theorem Spec.Without.same {s s' : GptDisk} {id : UInt32} (w : Without s id s') (hk : s.partitions.Pairwise (fun a b => a.1 < b.1))
    (hn : ∀ p, (id, p) ∉ s.partitions) : s' = s := by
  have e : s'.partitions = s.partitions := by
    refine PMap.ext w.keys hk fun j => Option.ext fun q => ?_
    rw [← PMap.mem_iff_get w.keys, ← PMap.mem_iff_get hk, w.entries]
    refine ⟨fun h => h.1, fun h => ⟨h, ?_⟩⟩
    rintro rfl
    exact hn q h
  rw [w.rest, e]

/-- If there was no used one, the used entries are the same. -/
theorem Spec.Without.used {s s' : GptDisk} {id : UInt32} (w : Without s id s') (hk : s.partitions.Pairwise (fun a b => a.1 < b.1))
    (hn : ¬ Taken s.partitions id.toNat) : Spec.used s'.partitions = Spec.used s.partitions := by
  have e : s'.partitions = PMap.remove s.partitions id := by
    refine PMap.ext w.keys (PMap.remove_sorted hk id) fun j => Option.ext fun q => ?_
    rw [← PMap.mem_iff_get w.keys, ← PMap.mem_iff_get (PMap.remove_sorted hk id), w.entries, PMap.mem_remove]
  rw [e]
  unfold Spec.used PMap.remove
  rw [List.filter_map, List.filter_map, List.filter_filter]
  congr 1
  refine List.filter_congr fun x hx => ?_
  by_cases hxi : x.1 = id
  · have hu : ¬ x.2.partType.guid ≠ Uuid.nil := fun hu => hn ⟨x.1, x.2, hx, by rw [hxi], hu⟩
    have hu : x.2.partType.guid = Uuid.nil := Classical.byContradiction hu
    simp [hu]
  · simp [hxi]

theorem put_undone {s s1 : GptDisk} {id : UInt32} {p : Partition} (hput : Put s.partitions s1.partitions id p)
    (hr : s1 = { s with partitions := s1.partitions }) :
    ∃ s2, (removePartition id : M GptDisk GptError _) s1 = (.ok (some id), s2) ∧ Without s id s2 := by
  refine ⟨{ s1 with partitions := PMap.remove s1.partitions id }, ?_, ?_, fun e => ?_, PMap.remove_sorted hput.keys id⟩
  · unfold removePartition
    rw [PMap.get_of_mem hput.keys hput.new]
  · show ({ s1 with partitions := PMap.remove s1.partitions id } : GptDisk) = { s with partitions := PMap.remove s1.partitions id }
    rw [hr]
  · show e ∈ PMap.remove s1.partitions id ↔ _
    rw [PMap.mem_remove]
    refine and_congr_left fun hne => ?_
    exact hput.others e.1 e.2 hne

theorem insert_fits {m : Mode} {h : Header} {s s1 : GptDisk} {id id' : UInt32} {p : Partition} (hi : Insert m h s id' p (.ok id) s1)
    (hc : s.config.changePartitionCount = false) :
    id' = id ∧ max id.toNat 128 ≤ h.numParts.toNat ∧ Put s.partitions s1.partitions id p ∧ s1 = { s with partitions := s1.partitions } := by
  cases hi with
  | fits t hf hp => exact ⟨rfl, hf, hp, rfl⟩
  | rebuilt _ _ _ _ e => rw [hc] at e; cases e
  | failed _ _ _ _ _ e => rw [hc] at e; cases e

section
variable (m : Mode) (name : String) (ty : PType) (flags : UInt64) (fresh fresh2 : Uuid)

/-- **C134**, adding. If the slots may not change, removing what `add_partition` added gives back the disk: only an unused entry under the
same id is lost. (Id 0 is taken only in release builds with 2^32-1 used ids.) -/
theorem c134_add (size : UInt64) (align : Option UInt64) {s s1 : GptDisk} {id : UInt32}
    (hk : s.partitions.Pairwise (fun a b => a.1 < b.1)) (hc : s.config.changePartitionCount = false) (h0 : id ≠ 0)
    (ha : addPartition m name size ty flags align fresh fresh2 s = (.ok id, s1)) :
    ∃ s2, (removePartition id : M GptDisk GptError _) s1 = (.ok (some id), s2) ∧ Without s id s2 ∧
      ((∀ p, (id, p) ∉ s.partitions) → s2 = s) ∧ Spec.used s2.partitions = Spec.used s.partitions := by
  have key : ∃ h, s.tryHeader = .ok h := by
    cases hh : s.tryHeader with
    | ok h => exact ⟨h, rfl⟩
    | error e =>
      have := (c93_headerless m name 0 0 0 size ty flags align fresh fresh2 s e hh hk).1
      rw [this] at ha
      cases ha
  obtain ⟨h, hh⟩ := key
  have run := c93_add_partition m name size ty flags align fresh fresh2 s h hh hk
  rw [ha] at run
  simp only at run
  cases run with
  | insert L n start g off id' _ _ _ _ _ _ _ _ _ _ _ hid hins =>
    obtain ⟨rfl, hf, hput, hr⟩ := insert_fits hins hc
    obtain ⟨s2, e, w⟩ := put_undone hput hr
    have hfree : ¬ Taken s.partitions id'.toNat := by
      rcases hid with ⟨-, hid⟩ | ⟨-, -, hz⟩
      · exact hid.2.2.1 (by omega)
      · exact absurd (UInt32.toNat_inj.mp hz) h0
    exact ⟨s2, e, w, w.same hk, w.used hk hfree⟩

/-- **C134**, adding at a place. The same for `add_partition_at`. -/
theorem c134_add_at (id : UInt32) (first length : UInt64) {s s1 : GptDisk} {r : UInt32}
    (hk : s.partitions.Pairwise (fun a b => a.1 < b.1)) (hc : s.config.changePartitionCount = false)
    (ha : addPartitionAt m name id first length ty flags fresh fresh2 s = (.ok r, s1)) :
    r = id ∧ ∃ s2, (removePartition id : M GptDisk GptError _) s1 = (.ok (some id), s2) ∧ Without s id s2 ∧
      ((∀ p, (id, p) ∉ s.partitions) → s2 = s) ∧ Spec.used s2.partitions = Spec.used s.partitions := by
  have key : ∃ h, s.tryHeader = .ok h := by
    cases hh : s.tryHeader with
    | ok h => exact ⟨h, rfl⟩
    | error e =>
      obtain ⟨-, h1, h2⟩ := c93_headerless m name id first length 0 ty flags none fresh fresh2 s e hh hk
      by_cases hx : length ≠ 0 ∧ id ≠ 0 ∧ Taken s.partitions id.toNat
      · rw [h1 hx.1 hx.2.1 hx.2.2] at ha
        cases ha
      · rw [h2 (by tauto)] at ha
        cases ha
  obtain ⟨h, hh⟩ := key
  have run := c93_add_partition_at m name id first length ty flags fresh fresh2 s h hh hk
  rw [ha] at run
  simp only at run
  cases run with
  | insert L _ _ _ _ hfree _ _ _ hins =>
    obtain ⟨rfl, hf, hput, hr⟩ := insert_fits hins hc
    obtain ⟨s2, e, w⟩ := put_undone hput hr
    exact ⟨rfl, s2, e, w, w.same hk, w.used hk hfree⟩

/-- **C134**, removing. In a table without overlaps, a used partition that was removed can be put back where it was: with its name, type,
flags and GUID the disk is what it was. -/
theorem c134_remove {s : GptDisk} {h : Header} {id : UInt32} {p : Partition} (hh : s.tryHeader = .ok h) (hr : Range h)
    (ht : Tidy h s.partitions) (hm : (id, p) ∈ s.partitions) (hu : p.partType.guid ≠ Uuid.nil) (h0 : id ≠ 0)
    (hf : max id.toNat 128 ≤ h.numParts.toNat) :
    ∃ s1, (removePartition id : M GptDisk GptError _) s = (.ok (some id), s1) ∧
      addPartitionAt m p.name id p.firstLba (p.lastLba - p.firstLba + 1) p.partType p.flags p.partGuid fresh2 s1 = (.ok id, s) := by
  obtain ⟨s1, e, hh1, ht1, hfree⟩ := c26_remove_frees hh ht hm hu
  have ho := ht.order p ⟨id, hm, hu⟩
  have hin := ht.inside p ⟨id, hm, hu⟩
  have hlast := hr.last
  have es1 : s1 = { s with partitions := PMap.remove s.partitions id } := by
    unfold removePartition at e
    rw [PMap.get_of_mem ht.keys hm] at e
    exact (Prod.mk.inj e).2.symm
  have hlen : (p.lastLba - p.firstLba + 1).toNat = p.lastLba.toNat - p.firstLba.toNat + 1 := by
    have e1 : (p.lastLba - p.firstLba).toNat = p.lastLba.toNat - p.firstLba.toNat := UInt64.toNat_sub_of_le _ _ (UInt64.le_iff_toNat_le.mpr ho)
    rw [UInt64.toNat_add, e1]
    exact Nat.mod_eq_of_lt (by show _ + 1 < _; omega)
  have run := c76_add_partition_at m p.name id p.firstLba (p.lastLba - p.firstLba + 1) p.partType p.flags p.partGuid fresh2 s1 h hh1 hr ht1
  suffices hadd : AddAt m h s1 p.name id p.firstLba (p.lastLba - p.firstLba + 1) p.partType p.flags p.partGuid (.ok id) s by
    obtain ⟨e1, e2⟩ := c76_determined (.inl hf) run hadd
    exact ⟨s1, e, Prod.ext e1 e2⟩
  refine .insert p.firstLba.toNat _ _ ?_ h0 ?_ (Nat.le_refl _) ?_ ?_ ?_
  · intro hz
    have := congrArg UInt64.toNat hz
    rw [hlen] at this
    exact absurd this (by simp)
  · rintro ⟨j, q, hq, hj, -⟩
    rw [es1] at hq
    exact (PMap.mem_remove.mp hq).2 (UInt32.toNat_inj.mp hj)
  · intro x hx1 hx2
    rw [hlen] at hx2
    exact (hfree x).mpr (.inr ⟨hx1, by omega⟩)
  · intro _
    rw [hlen]
    omega
  · have ep : (⟨p.partType, p.partGuid, p.firstLba, p.firstLba + (p.lastLba - p.firstLba + 1) - 1, p.flags, p.name⟩ : Partition) = p := by
      have : p.firstLba + (p.lastLba - p.firstLba + 1) - 1 = p.lastLba := by grind
      rw [this]
    rw [ep]
    have es : s = { s1 with partitions := s.partitions } := by rw [es1]
    have hput : Put s1.partitions s.partitions id p := by
      refine ⟨ht.keys, hm, fun j q hne => ?_⟩
      rw [es1]
      exact ⟨fun h => PMap.mem_remove.mpr ⟨h, hne⟩, fun h => (PMap.mem_remove.mp h).1⟩
    have := Insert.fits (m := m) (s := s1) s.partitions hf hput
    rw [← es] at this
    exact this

end

section
variable {m m' : Mode} {cfg cfg' : GptConfig} {k : Nat} {d : Dev} {s s' t t' : GptDisk}

/-- **C134**, the device. Two sessions on the same device (or two moments of one) write the same bytes if the disk GUID and the used entries
are the same, however these came about; and the same headers are in memory. -/
theorem c134_bytes (hs : InSession m cfg k d s) (hs' : InSession m' cfg' k d s') (hlb : cfg'.lbSize = cfg.lbSize)
    (hro : cfg.readonlyBackup = false) (hro' : cfg'.readonlyBackup = false) {h h' : Header} (hh : s.tryHeader = .ok h)
    (hh' : s'.tryHeader = .ok h') (hg : h'.diskGuid = h.diskGuid) (hu : Spec.used s'.partitions = Spec.used s.partitions)
    (hw : writeInplace m s = (.ok (), t)) (hw' : writeInplace m' s' = (.ok (), t')) :
    t'.device.data = t.device.data ∧ t'.primaryHeader = t.primaryHeader ∧ t'.backupHeader = t.backupHeader := by
  obtain ⟨B, h1, hB, hkB, hB51, v⟩ := hs.sound
  obtain ⟨B', h2, hB', -, -, v'⟩ := hs'.sound
  rw [hlb, hB] at hB'
  have eB : B' = B := by omega
  subst eB
  have e1 := header_try v.sane.header
  rw [hh] at e1
  cases e1
  have e2 := header_try v'.sane.header
  rw [hh'] at e2
  cases e2
  have w := write_ok v.sane hw
  have w' := write_ok v'.sane hw'
  have ec : s.config = cfg := v.config
  have ec' : s'.config = cfg' := v'.config
  have eP : rebuiltP k B' h' = rebuiltP k B' h := by
    have ef : h'.firstUsable = h.firstUsable := UInt64.toNat_inj.mp (by rw [v.first, v'.first])
    unfold rebuiltP
    rw [ef, hg, v.count, v'.count]
  have eBk : rebuiltB k B' h' = rebuiltB k B' h := by unfold rebuiltB; rw [eP]
  have eb : bakOf cfg' k B' h' = bakOf cfg k B' h := by unfold bakOf; rw [hro, hro', eBk]
  have en : h'.numParts = h.numParts := by rw [v.count, v'.count]
  refine ⟨bytes_ext ?_ fun i _ => ?_, ?_, ?_⟩
  · rw [w.length, w'.length, v.length, v'.length]
  · rw [w.bytes, w'.bytes, ec, ec', hlb, eP, eb, hu]
    by_cases hin : InPrimary cfg.lbSize 128 i ∨ InBackup cfg.lbSize 128 k B' i
    · have hn : (rebuiltP k B' h).numParts.toNat = 128 := by show h.numParts.toNat = 128; rw [v.count]; rfl
      unfold finalByte
      rw [hn]
      split
      · rfl
      · split
        · rfl
        · rename_i a1 a2
          unfold bakOf
          rw [hro]
          simp only [Bool.false_eq_true, if_false]
          split
          · rfl
          · split
            · rfl
            · rename_i a3 a4
              exfalso
              rcases hin with hin | hin
              · unfold InPrimary at hin
                unfold InP at a2
                omega
              · unfold InBackup at hin
                rw [Nat.add_mul, Nat.one_mul] at hin
                rcases hin with hin | hin
                · exact a3 hin
                · exact a4 hin
    · rw [not_or] at hin
      have h128 : h.numParts.toNat = 128 := by rw [v.count]; rfl
      rw [finalByte_outside (by rw [h128]; exact hin.1) (fun _ => by rw [h128]; exact hin.2),
        finalByte_outside (by rw [h128]; exact hin.1) (fun _ => by rw [h128]; exact hin.2), v.bytes i hin.1 hin.2,
        v'.bytes i (by rw [hlb]; exact hin.1) (by rw [hlb]; exact hin.2)]
  · rw [w.primary, w'.primary, eP, hu, en]
  · rw [w.backup, w'.backup, ec, ec', hro, hro', eBk, hu, en]
    rfl

theorem session_step (hs : InSession m cfg k d s) (op : Op) (ho : Ordinary s op) : InSession m cfg k d (op.step m s).2 := by
  obtain ⟨a1, a2, a3, a4, a5, a6, g, f, f2, s0, d0, hcr, hse⟩ := hs
  exact ⟨a1, a2, a3, a4, a5, a6, g, f, f2, s0, d0, hcr, .call op hse ho⟩

theorem session_write (hs : InSession m cfg k d s) (hw : writeInplace m s = (.ok (), t)) : InSession m cfg k d t := by
  have := session_step hs .writeInplace trivial
  simp only [Op.step, M.mapOk, hw] at this
  exact this

theorem session_remove (hs : InSession m cfg k d s) {id : UInt32} {r : Option UInt32}
    (hw : (removePartition id : M GptDisk GptError _) s = (.ok r, t)) : InSession m cfg k d t := by
  have := session_step hs (.removePartition id) trivial
  simp only [Op.step, M.mapOk, hw] at this
  exact this

theorem session_add (hs : InSession m cfg k d s) {name : String} {size : UInt64} {ty : PType} {flags : UInt64} {align : Option UInt64}
    {fresh fresh2 : Uuid} {r : UInt32} (h0 : size ≠ 0) (hal : ∀ a, align = some a → a ≠ 0 ∧ a.toNat ≤ 2 ^ 63)
    (hw : addPartition m name size ty flags align fresh fresh2 s = (.ok r, t)) : InSession m cfg k d t := by
  have := session_step hs (.addPartition name size ty flags align fresh fresh2) ⟨h0, hal⟩
  simp only [Op.step, M.mapOk, hw] at this
  exact this

/-- The GUID in the header survives a write. -/
theorem session_guid (hs : InSession m cfg k d s) (hw : writeInplace m s = (.ok (), t)) {h : Header} (hh : s.tryHeader = .ok h) :
    ∃ h', t.tryHeader = .ok h' ∧ h'.diskGuid = h.diskGuid := by
  obtain ⟨B, h1, _, _, _, v⟩ := hs.sound
  have e1 := header_try v.sane.header
  rw [hh] at e1
  cases e1
  have w := write_ok v.sane hw
  exact ⟨(rebuiltP k B h).sealed (Gpt.crc32 (tableBytes (Spec.used s.partitions) h.numParts.toNat)),
    by unfold GptDisk.tryHeader; rw [w.primary], rfl⟩

/-- **C134**, add, write, remove, write. In a session, a partition that was added and written and is then removed leaves no trace: after the
last write the device holds the bytes it held after the first. -/
theorem c134_undo (hs : InSession m cfg k d s) (hro : cfg.readonlyBackup = false) (name : String) (size : UInt64) (ty : PType)
    (flags : UInt64) (align : Option UInt64) (fresh fresh2 : Uuid) (h0 : size ≠ 0)
    (hal : ∀ a, align = some a → a ≠ 0 ∧ a.toNat ≤ 2 ^ 63) {u : GptDisk} {id : UInt32}
    (hw : writeInplace m s = (.ok (), t)) (ha : addPartition m name size ty flags align fresh fresh2 t = (.ok id, u)) :
    ∃ u1 v w, writeInplace m u = (.ok (), u1) ∧ (removePartition id : M GptDisk GptError _) u1 = (.ok (some id), v) ∧
      writeInplace m v = (.ok (), w) ∧ w.device.data = t.device.data ∧ w.primaryHeader = t.primaryHeader ∧
      w.backupHeader = t.backupHeader ∧ Spec.used w.partitions = Spec.used t.partitions := by
  have ht := session_write hs hw
  have hu := session_add ht h0 hal ha
  obtain ⟨B, h, hB, hkB, hB51, v⟩ := hs.sound
  have hh := header_try v.sane.header
  obtain ⟨ht1, hht, hgt⟩ := session_guid hs hw hh
  obtain ⟨_, _, _, _, _, vt⟩ := ht.sound
  obtain ⟨p, hput, -, -, -, -, hfree⟩ := session_added ht hal ha
  have hrest : u = { t with partitions := u.partitions } := by
    have run := c93_add_partition m name size ty flags align fresh fresh2 t ht1 hht vt.table.keys
    rw [ha] at run
    simp only at run
    cases run with
    | insert L n start g off id' _ _ _ _ _ _ _ _ _ _ _ hid hins =>
      exact (insert_fits hins (by rw [vt.config]; exact hs.count)).2.2.2
  have hhu : u.tryHeader = .ok ht1 := by
    rw [hrest]
    exact hht
  obtain ⟨u1, _, _, _, hw1, -⟩ := c67_write_open hu
  have hu1 := session_write hu hw1
  obtain ⟨hg1, hhg1, hgg1⟩ := session_guid hu hw1 hhu
  obtain ⟨_, _, _, _, _, vu⟩ := hu.sound
  have ep : u1.partitions = u.partitions := (write_ok vu.sane hw1).rest.partitions
  have hget : PMap.get u1.partitions id = some p := by rw [ep]; exact PMap.get_of_mem hput.keys hput.new
  have hrem : (removePartition id : M GptDisk GptError _) u1 = (.ok (some id), { u1 with partitions := PMap.remove u1.partitions id }) := by
    unfold removePartition
    rw [hget]
  have hv := session_remove hu1 hrem
  obtain ⟨w, _, _, _, hw2, -⟩ := c67_write_open hv
  have wo : Without t id { t with partitions := PMap.remove u1.partitions id } := by
    refine ⟨rfl, fun e => ?_, ?_⟩
    · show e ∈ PMap.remove u1.partitions id ↔ _
      rw [ep, PMap.mem_remove]
      exact and_congr_left fun hne => hput.others e.1 e.2 hne
    · show PMap.Sorted (PMap.remove u1.partitions id)
      rw [ep]
      exact PMap.remove_sorted hput.keys id
  have eu : Spec.used (PMap.remove u1.partitions id) = Spec.used t.partitions := wo.used vt.table.keys hfree
  have et : Spec.used t.partitions = Spec.used s.partitions := by rw [(write_ok v.sane hw).rest.partitions]
  obtain ⟨_, _, _, _, _, vv⟩ := hv.sound
  obtain ⟨b1, b2, b3⟩ := c134_bytes hs hv rfl hro hro hh (h' := hg1) hhg1 (hgg1.trans hgt) (eu.trans et) hw hw2
  refine ⟨u1, _, w, hw1, hrem, hw2, b1, b2, b3, ?_⟩
  rw [(write_ok vv.sane hw2).rest.partitions]
  exact eu

end

/-! ## The hypotheses are met -/

/-- `c134_add` on a table with ids 1 and 2: the new one gets id 3, which nothing had before. -/
example (m : Mode) : (addPartition m "a" 1024 (exPart 0 0).partType 0 none Uuid.nil Uuid.nil exDisk).1 = .ok 3 ∧
    exDisk.config.changePartitionCount = false ∧ exDisk.partitions.Pairwise (fun a b => a.1 < b.1) ∧ ∀ p, (3, p) ∉ exDisk.partitions := by
  refine ⟨by cases m <;> decide +kernel, rfl, exTable_tidy.keys, ?_⟩
  rw [← PMap.get_none_iff]
  decide +kernel

/-- `c134_add_at` under id 4, where an unused entry is: that entry is lost, the used ones stay. -/
example (m : Mode) : (addPartitionAt m "a" 4 50 10 (exPart 0 0).partType 0 Uuid.nil Uuid.nil exDisk).1 = .ok 4 ∧
    ((removePartition 4 : M GptDisk GptError _) (addPartitionAt m "a" 4 50 10 (exPart 0 0).partType 0 Uuid.nil Uuid.nil exDisk).2).2.partitions =
      [(1, exPart 40 49), (2, exPart 60 69)] := by
  cases m <;> decide +kernel

/-- `c134_remove` for partition 2 of that table. -/
example : exDisk.tryHeader = .ok exHeader ∧ Range exHeader ∧ Tidy exHeader exDisk.partitions ∧ (2, exPart 60 69) ∈ exDisk.partitions ∧
    (exPart 60 69).partType.guid ≠ Uuid.nil ∧ max (2 : UInt32).toNat 128 ≤ exHeader.numParts.toNat :=
  ⟨rfl, exHeader_range, exTable_tidy, by decide +kernel, by decide, by decide⟩

/-- `c134_undo` in the session of C81: there is room for a second partition. -/
example (m : Mode) {t : GptDisk} (hw : writeInplace m (sessDisk m) = (.ok (), t)) :
    ∃ u, addPartition m "b" 15872 (exPart 0 0).partType 0 none Uuid.nil Uuid.nil t = (.ok 2, u) := by
  have ht := session_write (sessDisk_session m) hw
  obtain ⟨B, h, _, _, _, v⟩ := (sessDisk_session m).sound
  have ep : t.partitions = (sessDisk m).partitions := (write_ok v.sane hw).rest.partitions
  rw [sessDisk_partitions] at ep
  have hd : dev100.data.length / (GptConfig.new.setWritable true).lbSize.usize = 100 := by rw [dev100_length]; rfl
  have hin : ∀ p, Used t.partitions p → p = ⟨(exPart 0 0).partType, Uuid.nil, 34, 35, 0, "a"⟩ := by
    rintro p ⟨i, hi, -⟩
    rw [ep] at hi
    exact (Prod.mk.inj (List.mem_singleton.mp hi)).2
  have h1 : Taken t.partitions 1 := ⟨1, _, by rw [ep]; exact List.mem_singleton_self _, rfl, by decide⟩
  obtain ⟨-, -, c⟩ := c82_add ht "b" 15872 (exPart 0 0).partType 0 none Uuid.nil Uuid.nil (by decide) (fun _ h => nomatch h) (n := 31)
    ⟨by decide, fun j hj => by
      have : (15872 : UInt64).toNat ≤ j * 512 := hj
      have e : (15872 : UInt64).toNat = 15872 := rfl
      omega⟩
  obtain ⟨id, tt, p, hid, he, -⟩ := c 36 2 (fun _ h => nomatch h)
    (by
      rw [hd]
      refine ⟨by decide, by decide, fun p hp x hx1 hx2 => ?_⟩
      rw [hin p hp]
      rintro ⟨-, hc⟩
      have : x ≤ 35 := hc
      omega)
    (by
      intro y hy _ hv
      rw [hd] at hv
      obtain ⟨v1, v2, v3⟩ := hv
      by_cases hy34 : y ≤ 35
      · refine v3 _ ⟨1, by rw [ep]; exact List.mem_singleton_self _, by decide⟩ 35 hy34 (by omega) ⟨?_, ?_⟩ <;> decide
      · omega)
    (by omega) (by omega)
    (by
      rintro ⟨i, q, hi, e, -⟩
      rw [ep] at hi
      rw [(Prod.mk.inj (List.mem_singleton.mp hi)).1] at e
      exact absurd e (by decide))
    (by
      intro j hj1 hj2
      have : j = 1 := by omega
      rw [this]
      exact h1)
  have e2 : id = 2 := UInt32.toNat_inj.mp hid
  subst e2
  exact ⟨_, he⟩

end Gpt
