import Verif.Props.Overflow
/-!
# `add_partition` over an existing partition (C19)
-/

namespace Gpt

open Spec GptDisk

/-- A device of 300 blocks of 512 bytes. -/
def devRow : Dev := ⟨zeros 153600, 0, 153600, [], []⟩

theorem devRow_length : devRow.data.length = 153600 := zeros_length _

/-- 128 used entries with the ids 2 to 129, one block each, from block 40. -/
def rowTable : PMap := (List.range' 2 128).map fun i => (UInt32.ofNat i, exPart (UInt64.ofNat (38 + i)) (UInt64.ofNat (38 + i)))

/-- Writable, and allowed to change the number of slots. -/
def rowConfig : GptConfig := (GptConfig.new.setWritable true).setChangePartitionCount true

/-- A new disk after `update_partitions` with that table. -/
def rowDisk : GptDisk := reinit (madeDisk rowConfig devRow 32 299 Uuid.nil) (createdP 32 299 Uuid.nil) 32 299 rowTable

theorem rowDisk_reach (m : Mode) : Reach m anyCall rowDisk :=
  made_reach_any m rowConfig (d := devRow) rfl (by show 0 < 2 ^ 64; decide) (by rw [devRow_length]; decide) enough512
    (by rw [devRow_length]; rfl) (by decide) (by unfold PMap.Sorted; decide +kernel) (by decide +kernel) (by decide +kernel) _ trivial

/-- The table after `gapAdd`, which uses the free id 1. -/
def rowTable1 : PMap := (1, { exPart 34 34 with partGuid := Uuid.nil, name := "x" }) :: rowTable

theorem row_add (m : Mode) : (addPartition m "x" 512 (exPart 0 0).partType 0 none Uuid.nil Uuid.nil rowDisk).1 = .ok 1 ∧
    (addPartition m "x" 512 (exPart 0 0).partType 0 none Uuid.nil Uuid.nil rowDisk).2.partitions = rowTable1 := by
  cases m <;> exact ⟨by decide +kernel, by decide +kernel⟩

/-- The header of the disk, with 128 slots. -/
def rowHeader : Header := rebuiltP 32 299 (createdP 32 299 Uuid.nil)

/-- An id within the table does not touch the headers. -/
theorem addPartition_plain {m : Mode} {name : String} {size : UInt64} {ty : PType} {flags : UInt64} {align : Option UInt64}
    {fresh fresh2 : Uuid} {s : GptDisk} {id : UInt32} {h : Header} {t : PMap} (hh : s.tryHeader = .ok h)
    (h1 : (addPartition m name size ty flags align fresh fresh2 s).1 = .ok id) (hc : h.numPartsWouldChange id = false)
    (h2 : (addPartition m name size ty flags align fresh fresh2 s).2.partitions = t) :
    (addPartition m name size ty flags align fresh fresh2 s).2 = s.withParts t := by
  rcases addPartition_any m name size ty flags align fresh fresh2 s with ⟨-, e | e⟩ | ⟨id', first, last, -, hi⟩
  · rw [e] at h1; cases h1
  · rw [e] at h1; cases h1
  · generalize (addPartition m name size ty flags align fresh fresh2 s).2 = s' at hi h2
    rw [h1] at hi
    generalize hr : (Res.ok id : Res GptError UInt32) = r at hi
    cases hi with
    | panic => cases hr
    | refused => cases hr
    | plain => subst h2; rfl
    | rebuilt h' r' s' hh' hw _ _ =>
      exfalso
      rw [hh] at hh'
      obtain rfl := Except.ok.inj hh'
      cases r' with
      | ok u =>
        have : id = id' := Res.ok.inj hr
        rw [this, hw] at hc
        cases hc
      | err e => cases hr
      | panic => cases hr

theorem step_addPartition (m : Mode) (name : String) (size : UInt64) (ty : PType) (flags : UInt64) (align : Option UInt64)
    (fresh fresh2 : Uuid) (s : GptDisk) : ((Op.addPartition name size ty flags align fresh fresh2).step m s).2 =
      (addPartition m name size ty flags align fresh fresh2 s).2 := rfl

theorem row_step (m : Mode) : (gapAdd.step m rowDisk).2 = rowDisk.withParts rowTable1 := by
  obtain ⟨h1, h2⟩ := row_add m
  exact (step_addPartition m _ _ _ _ _ _ _ _).trans (addPartition_plain (h := rowHeader) rfl h1 (by decide) h2)

def rowDisk1 : GptDisk := rowDisk.withParts rowTable1

theorem rowDisk1_reach (m : Mode) : Reach m anyCall rowDisk1 := by
  have hr := Reach.step gapAdd (rowDisk_reach m) trivial trivial
  rw [row_step] at hr
  exact hr

theorem rowDisk1_header : rowDisk1.tryHeader = .ok rowHeader := rfl

theorem rowTable1_sorted : PMap.Sorted rowTable1 := by unfold PMap.Sorted; decide +kernel

/-- Every entry of the table: one block, the block before 40 or the one given by the id. -/
theorem rowTable1_mem {i : UInt32} {p : Partition} (h : (i, p) ∈ rowTable1) :
    (i.toNat = 1 ∧ p.firstLba.toNat = 34 ∧ p.lastLba.toNat = 34) ∨
    (2 ≤ i.toNat ∧ i.toNat ≤ 129 ∧ p.firstLba.toNat = 38 + i.toNat ∧ p.lastLba.toNat = 38 + i.toNat) := by
  rcases List.mem_cons.mp h with h | h
  · cases h; exact .inl ⟨rfl, rfl, rfl⟩
  · right
    unfold rowTable at h
    obtain ⟨n, hn, he⟩ := List.mem_map.mp h
    rw [List.mem_range'_1] at hn
    cases he
    have e1 : (UInt32.ofNat n).toNat = n := u32_ofNat_toNat (by omega)
    have e2 : (UInt64.ofNat (38 + n)).toNat = 38 + n := u64_ofNat_toNat (by omega)
    rw [e1]
    exact ⟨by omega, by omega, e2, e2⟩

theorem rowTable1_tidy : Tidy rowHeader rowTable1 where
  keys := rowTable1_sorted
  order := by
    rintro p ⟨i, hm, -⟩
    rcases rowTable1_mem hm with h | h <;> omega
  inside := by
    rintro p ⟨i, hm, -⟩
    have e1 : rowHeader.firstUsable.toNat = 34 := rfl
    have e2 : rowHeader.lastUsable.toNat = 266 := rfl
    rcases rowTable1_mem hm with h | h <;> omega
  apart := by
    intro i j p q hp hq hne _ _ x hx
    have hne : i.toNat ≠ j.toNat := fun e => hne (UInt32.toNat_inj.mp e)
    unfold Covers at hx
    rcases rowTable1_mem hp with h | h <;> rcases rowTable1_mem hq with h' | h' <;> omega

theorem row_range : Range rowHeader := by
  constructor <;> decide

theorem row_free (m : Mode) : (rowDisk1.findFreeSectors m : Res GptError _) = .ok [(35, 5), (168, 99)] := by
  cases m <;> decide +kernel

theorem row_next : (rowDisk1.findNextPartitionId : Res GptError _) = .ok none := by decide +kernel

/-- The entry the second call makes, and the table it leaves: the entry with the id 129 is replaced. -/
def rowNew : Partition := { exPart 35 35 with partGuid := Uuid.nil, name := "x" }

def rowTable2 : PMap := PMap.insert 129 rowNew rowTable1

/-- The headers with 129 slots. -/
def rowHeader2 : Header := { rowHeader with firstUsable := 35, numParts := 129 }

def rowBackup2 : Header := { rowHeader2 with currentLba := 299, backupLba := 1, partStart := 267 }

theorem row_build (m : Mode) : ((rowDisk1.withParts rowTable2).initBuilder 299 Uuid.nil).build m .lb512 = .ok rowHeader2 := by
  cases m <;> decide +kernel

theorem row_backup (m : Mode) : backupOf m rowHeader2 .lb512 = .ok rowBackup2 := by
  cases m <;> decide +kernel

theorem row_init (m : Mode) : initHeaders m Uuid.nil (rowDisk1.withParts rowTable2) = (.ok (),
    { rowDisk1.withParts rowTable2 with primaryHeader := .ok rowHeader2, backupHeader := .ok rowBackup2 }) := by
  have hf : findBackupLba (rowDisk1.withParts rowTable2).config.lbSize (rowDisk1.withParts rowTable2).device = (.ok 299, devRow) := by
    have := findBackupLba_nil (lb := .lb512) (d := devRow) rfl (by show 0 < 2 ^ 64; decide) (by rw [devRow_length]; decide)
    rw [devRow_length] at this
    exact this
  exact initHeaders_eq hf (row_build m) (fun _ => row_backup m)

/-- `insert_partition` with an id that changes the count, with permission. -/
theorem insertPartition_row {m : Mode} {name : String} {id : UInt32} {first length : UInt64} {ty : PType} {flags : UInt64}
    {fresh fresh2 : Uuid} {s s' : GptDisk} {h : Header} (hh : s.tryHeader = .ok h) (hc : h.numPartsWouldChange id = true)
    (hp : s.config.changePartitionCount = true) (h1 : 1 ≤ first.toNat) (h2 : first.toNat + length.toNat < 2 ^ 64)
    (hi : initHeaders m fresh2 (s.withParts (PMap.insert id ⟨ty, fresh, first, first + length - 1, flags, name⟩ s.partitions)) =
      (.ok (), s')) : insertPartition m name id first length ty flags fresh fresh2 s = (.ok id, s') := by
  have e1 : (1 : UInt64).toNat = 1 := rfl
  unfold insertPartition GptDisk.header
  simp only [M.bind_apply, M.lift_apply, M.get_apply]
  rw [add64_eq m (by omega)]
  simp only
  rw [sub64_eq m (by rw [u64_add_toNat h2]; omega)]
  simp only [hh, hc, hp, Bool.true_and, Bool.not_true, Bool.false_eq_true, if_false, if_true, M.bind_apply, M.modify_apply]
  unfold withParts at hi
  rw [hi]
  rfl

theorem row_add2 (m : Mode) : addPartition m "x" 512 (exPart 0 0).partType 0 none Uuid.nil Uuid.nil rowDisk1 = (.ok 129,
    { rowDisk1.withParts rowTable2 with primaryHeader := .ok rowHeader2, backupHeader := .ok rowBackup2 }) := by
  obtain ⟨n, hn, heq⟩ := addPartition_eq m "x" (size := 512) (by decide) (exPart 0 0).partType 0 none Uuid.nil Uuid.nil rowDisk1
  have hn : n = 1 := UInt64.toNat_inj.mp hn
  subst hn
  rw [heq _ (row_free m)]
  unfold addPartitionLoop
  simp only [M.bind_apply, M.lift_apply, M.get_apply, alignmentOffset]
  rw [add64_eq m (by decide)]
  simp only
  rw [if_pos (by decide)]
  simp only [M.bind_apply, M.lift_apply, M.get_apply]
  rw [add64_eq m (by decide)]
  simp only [row_next]
  have hh : (rowDisk1.header : Res GptError _) = .ok rowHeader := rfl
  simp only [M.bind_apply, M.lift_apply, hh]
  rw [add32_eq m (by decide)]
  simp only
  exact insertPartition_row (h := rowHeader) rfl (by decide) rfl (by decide) (by decide) (row_init m)

/-- C19 is false for another reason, in both builds: a reachable disk with a tidy table, on which `add_partition` returns the id of
a used partition, which is gone afterwards. `init_headers` counts the entries instead of looking at the ids (see C55), so ids beyond
the slots can be in use, and when all slots are taken `add_partition` takes the id after the last slot without looking. -/
theorem c19_overwrites (m : Mode) : ∃ s s' h id p name size ty flags align fresh fresh2, Reach m anyCall s ∧
    s.tryHeader = .ok h ∧ Range h ∧ Tidy h s.partitions ∧
    addPartition m name size ty flags align fresh fresh2 s = (.ok id, s') ∧
    (id, p) ∈ s.partitions ∧ p.partType.guid ≠ Uuid.nil ∧ ∀ j, (j, p) ∉ s'.partitions := by
  refine ⟨rowDisk1, _, rowHeader, 129, exPart 167 167, _, _, _, _, _, _, _, rowDisk1_reach m, rfl, row_range, rowTable1_tidy, row_add2 m,
    by decide +kernel, by decide, ?_⟩
  intro j hj
  have hj : (j, exPart 167 167) ∈ rowTable2 := hj
  have : ∀ e ∈ rowTable2, e.2 ≠ exPart 167 167 := by decide +kernel
  exact this _ hj rfl

end Gpt
