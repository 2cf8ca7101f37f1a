import Verif.Props.Less
/-!
# Adding with the calculated alignment: C139
-/

namespace Gpt

open Spec GptDisk

section
variable {m : Mode} {s : GptDisk} {h : Header} {name : String} {size : UInt64} {ty : PType} {flags : UInt64} {align : Option UInt64}
  {fresh fresh2 : Uuid}

theorem Spec.Insert.put {id : UInt32} {p : Partition} {r : Res GptError UInt32} {t : GptDisk} (hi : Insert m h s id p r t)
    {i : UInt32} (hr : r = .ok i) : i = id ∧ Put s.partitions t.partitions id p := by
  cases hi with
  | refused => cases hr
  | fits t _ hp =>
    cases hr
    exact ⟨rfl, hp⟩
  | rebuilt t _ _ _ _ hp e =>
    cases hr
    exact ⟨rfl, by rw [e]; exact hp⟩
  | failed _ _ _ _ _ _ _ _ _ _ _ _ e =>
    rcases e with ⟨e, -⟩ | ⟨x, e, -⟩ <;> (rw [e] at hr; cases hr)

/-- **C139**, kept. On a table with entries, a partition added with the calculated alignment `a` begins at a multiple of `a`, and the alignment
calculated afterwards is a multiple of `a`; it is `a` again unless the entry replaced a used one (which takes an id above the slots). -/
theorem c139_kept (hs : Ready h s) (hne : s.partitions ≠ []) {a : UInt64} (hc : (s.calculateAlignment : Res GptError _) = .ok a)
    {id : UInt32} {t : GptDisk} (hx : addPartition m name size ty flags (some a) fresh fresh2 s = (.ok id, t)) :
    ∃ p a', PMap.get t.partitions id = some p ∧ a.toNat ∣ p.firstLba.toNat ∧ (t.calculateAlignment : Res GptError _) = .ok a' ∧
      a.toNat ∣ a'.toNat ∧ (¬ Taken s.partitions id.toNat → a' = a) := by
  obtain ⟨a0, e0, -, f0⟩ := c27_alignment s
  rw [hc] at e0
  cases e0
  obtain ⟨⟨e, he⟩, hle, hdiv, hmax⟩ := f0 hne
  have run := c77_add_partition m name size ty flags (some a) fresh fresh2 s h hs.header hs.range hs.table
    (fun b eb => by cases eb; omega) hs.count
  rw [hx] at run
  cases run with
  | insert start n _ _ _ _ _ _ hal _ _ _ hi =>
    obtain ⟨rfl, hp⟩ := hi.put rfl
    have hst := hal a rfl
    have htne : t.partitions ≠ [] := fun e => by
      have := hp.new
      rw [e] at this
      cases this
    obtain ⟨a', e', -, f'⟩ := c27_alignment t
    obtain ⟨⟨k, hk⟩, hle', hdiv', hmax'⟩ := f' htne
    have all : ∀ q, Used t.partitions q → a.toNat ∣ q.firstLba.toNat := by
      rintro q ⟨i, hm, hu⟩
      by_cases hi : i = id
      · subst hi
        have := (PMap.get_of_mem hp.keys hm).symm.trans (PMap.get_of_mem hp.keys hp.new)
        cases this
        exact hst
      · exact hdiv q ⟨i, (hp.others i q hi).mp hm, hu⟩
    have ge : a.toNat ≤ a'.toNat := by
      rw [he] at hle all ⊢
      exact hmax' e hle all
    have dvd : a.toNat ∣ a'.toNat := by
      rw [he, hk] at ge ⊢
      exact Nat.pow_dvd_pow 2 ((Nat.pow_le_pow_iff_right (by omega)).mp ge)
    refine ⟨_, a', PMap.get_of_mem hp.keys hp.new, hst, e', dvd, fun hnt => ?_⟩
    have le : a'.toNat ≤ a.toNat := by
      rw [hk] at hle' hdiv' ⊢
      refine hmax k hle' ?_
      rintro q ⟨i, hm, hu⟩
      refine hdiv' q ⟨i, (hp.others i q ?_).mpr hm, hu⟩
      rintro rfl
      exact hnt ⟨i, q, hm, rfl, hu⟩
    exact UInt64.toNat_inj.mp (by omega)

/-- **C139**, no panic. On a table with entries, adding with the calculated alignment fails for lack of space or goes on to put the entry; it
panics only if no bytes are asked for or the headers are to be rebuilt for another number of slots. -/
theorem c139_no_panic (hs : Ready h s) (hne : s.partitions ≠ []) {a : UInt64} (hc : (s.calculateAlignment : Res GptError _) = .ok a)
    (h0 : size ≠ 0) (hcc : s.config.changePartitionCount = false) :
    (addPartition m name size ty flags (some a) fresh fresh2 s).1 ≠ .panic := by
  obtain ⟨a0, e0, -, f0⟩ := c27_alignment s
  rw [hc] at e0
  cases e0
  obtain ⟨⟨e, he⟩, hle, -, -⟩ := f0 hne
  have run := c77_add_partition m name size ty flags (some a) fresh fresh2 s h hs.header hs.range hs.table
    (fun b eb => by cases eb; omega) hs.count
  intro hp
  rw [hp] at run
  generalize (addPartition m name size ty flags (some a) fresh fresh2 s).2 = t at run
  cases run with
  | zero e => exact h0 e
  | zeroAlign _ _ ea =>
    cases ea
    have : (0 : UInt64).toNat = 0 := rfl
    have := Nat.pow_pos (n := e) (show 0 < 2 by omega)
    omega
  | insert _ _ _ _ _ _ _ _ _ _ _ _ hi =>
    cases hi with
    | failed _ _ _ _ _ hc' => rw [hcc] at hc'; cases hc'

/-- **C139**, the empty table. There the calculated alignment is 0, and adding with it panics, in every build, as soon as a block is free. -/
theorem c139_empty (hs : Ready h s) (he : s.partitions = []) (h0 : size ≠ 0) :
    (s.calculateAlignment : Res GptError _) = .ok 0 ∧
    (h.firstUsable ≤ h.lastUsable → addPartition m name size ty flags (some 0) fresh fresh2 s = (.panic, s)) := by
  refine ⟨by unfold calculateAlignment; rw [if_pos he], fun hfl => ?_⟩
  have run := c77_add_partition m name size ty flags (some 0) fresh fresh2 s h hs.header hs.range hs.table
    (fun b eb => by cases eb; decide) hs.count
  have free : Free h s.partitions h.firstUsable.toNat :=
    ⟨Nat.le_refl _, UInt64.le_iff_toNat_le.mp hfl, fun p ⟨i, hm, _⟩ => by rw [he] at hm; cases hm⟩
  generalize addPartition m name size ty flags (some 0) fresh fresh2 s = xx at run ⊢
  rcases xx with ⟨r, t⟩
  simp only at run
  cases run with
  | zero => rfl
  | zeroAlign => rfl
  | noSpace _ _ _ _ hno => exact absurd free (hno rfl _)
  | insert _ _ _ _ _ _ ha => exact absurd rfl ha

end

/-! ## The hypotheses are met -/

/-- `sessDisk` has one partition at block 34: alignment 2, kept. -/
example (m : Mode) : ((sessDisk m).calculateAlignment : Res GptError _) = .ok 2 ∧
    ∃ t, addPartition m "b" 512 (exPart 0 0).partType 0 (some 2) Uuid.nil Uuid.nil (sessDisk m) = (.ok 2, t) ∧
      (t.calculateAlignment : Res GptError _) = .ok 2 := by
  obtain ⟨h, hs⟩ := sessDisk_ready m
  have hc : ((sessDisk m).calculateAlignment : Res GptError _) = .ok 2 := by cases m <;> decide +kernel
  have f1 : (addPartition m "b" 512 (exPart 0 0).partType 0 (some 2) Uuid.nil Uuid.nil (sessDisk m)).1 = .ok 2 := by cases m <;> decide +kernel
  refine ⟨hc, _, Prod.ext f1 rfl, ?_⟩
  obtain ⟨p, a', -, -, e, -, same⟩ := c139_kept hs (by rw [sessDisk_partitions]; exact fun e => by cases e) hc (Prod.ext f1 rfl)
  rw [e, same]
  rintro ⟨i, q, hm, hi, -⟩
  rw [sessDisk_partitions] at hm
  cases List.mem_singleton.mp hm
  exact absurd hi (by decide)

/-- After removing its only partition the table is empty: the calculated alignment makes `add_partition` panic. -/
example (m : Mode) : ∃ s : GptDisk, (s.calculateAlignment : Res GptError _) = .ok 0 ∧
    addPartition m "b" 512 (exPart 0 0).partType 0 (some 0) Uuid.nil Uuid.nil s = (.panic, s) := by
  obtain ⟨h, hs⟩ := sessDisk_ready m
  obtain ⟨hs', -⟩ := c138_remove hs 1
  have he : ((removePartition 1 : M GptDisk GptError _) (sessDisk m)).2.partitions = [] := by cases m <;> decide +kernel
  obtain ⟨a, b⟩ := c139_empty (m := m) (name := "b") (ty := (exPart 0 0).partType) (flags := 0) (fresh := Uuid.nil) (fresh2 := Uuid.nil) hs' he
    (size := 512) (by decide)
  refine ⟨_, a, b ?_⟩
  obtain ⟨h', e1, -, -, e4, e5, -⟩ := c67_table (sessDisk_session m)
  have hN : dev100.data.length / (GptConfig.new.setWritable true).lbSize.usize = 100 := by rw [dev100_length]; rfl
  rw [hN] at e5
  have := hs.header
  rw [e1] at this
  cases this
  exact UInt64.le_iff_toNat_le.mpr (by omega)

end Gpt
