import Verif.Props.Sector
/-!
# What a removal does to the list of free sections: C141
-/

namespace Gpt

open Spec GptDisk

/-- **C141**. Removing a used partition joins its blocks with the sections next to it: the list before is the list after with the blocks of the
partition cut out of one section. -/
theorem c141_remove (m : Mode) {s : GptDisk} {h : Header} (hs : Ready h s) {id : UInt32} {p : Partition} (hp : (id, p) ∈ s.partitions)
    (hu : p.partType.guid ≠ Uuid.nil) {n : UInt64} (hn : p.lastLba.toNat + 1 = p.firstLba.toNat + n.toNat) :
    ∃ A B st len, (s.findFreeSectors m : Res GptError _) = .ok (A ++ (cutOut st len p.firstLba n ++ B)) ∧
      st.toNat ≤ p.firstLba.toNat ∧ p.lastLba.toNat + 1 ≤ st.toNat + len.toNat ∧
      ∃ s', (removePartition id s : Res GptError _ × _) = (.ok (some id), s') ∧ Ready h s' ∧
        (s'.findFreeSectors m : Res GptError _) = .ok (A ++ (st, len) :: B) := by
  have hord := hs.table.order p ⟨id, hp, hu⟩
  obtain ⟨s', e, hh', ht', hfree⟩ := c26_remove_frees hs.header hs.table hp hu
  have hr' : Ready h s' := ⟨hh', hs.range, ht', hs.count⟩
  obtain ⟨L, hL, hsec⟩ := findFreeSectors_sections (ε := GptError) m s hs.header hs.range hs.table
  obtain ⟨L', hL', hsec'⟩ := findFreeSectors_sections (ε := GptError) m s' hh' hs.range ht'
  have hn1 : 1 ≤ n.toNat := by omega
  obtain ⟨⟨st, len⟩, hmem, h1, h2⟩ := hsec'.extent (y := p.firstLba.toNat) hn1 fun x hx1 hx2 => (hfree x).mpr (.inr ⟨hx1, by omega⟩)
  have hb := hsec'.bound _ hmem
  have hlast := hs.range.last
  simp only at h1 h2 hb
  obtain ⟨A, B, rfl⟩ := List.append_of_mem hmem
  have cut := runs_cut (n := n) (sections_runs hsec') h1 h2 (by omega) hn1
  have same : L = A ++ (cutOut st len p.firstLba n ++ B) := by
    refine runs_unique (sections_runs hsec) ⟨fun x => (cut.covers x).trans ?_, cut.apart, cut.nonempty⟩
    show _ ↔ Free h s.partitions x
    constructor
    · rintro ⟨hf, hx⟩
      rcases (hfree x).mp hf with hf | ⟨c1, c2⟩
      · exact hf
      · exact absurd ⟨c1, by omega⟩ hx
    · intro hf
      refine ⟨(hfree x).mpr (.inl hf), fun ⟨c1, c2⟩ => hf.2.2 p ⟨id, hp, hu⟩ ⟨c1, by omega⟩⟩
  exact ⟨A, B, st, len, by rw [hL, same], h1, by omega, s', e, hr', hL'⟩

/-- **C141**, an entry of unused type, or none: the list stays. -/
theorem c141_unused (m : Mode) {s : GptDisk} {h : Header} (hs : Ready h s) {id : UInt32} (hid : ¬ Taken s.partitions id.toNat) :
    (((removePartition id s : Res GptError _ × _).2).findFreeSectors m : Res GptError _) = s.findFreeSectors m := by
  unfold removePartition
  cases hg : PMap.get s.partitions id with
  | none => rfl
  | some p =>
    have ht' := tidy_remove hs.table id
    obtain ⟨L, hL, hsec⟩ := findFreeSectors_sections (ε := GptError) m s hs.header hs.range hs.table
    obtain ⟨L', hL', hsec'⟩ := findFreeSectors_sections (ε := GptError) m { s with partitions := PMap.remove s.partitions id } (h := h)
      hs.header hs.range ht'
    show (({ s with partitions := PMap.remove s.partitions id } : GptDisk).findFreeSectors m : Res GptError _) = _
    rw [hL, hL']
    refine congrArg Res.ok (runs_unique (sections_runs hsec') ⟨fun x => (hsec.covers x).trans ?_, (sections_runs hsec).apart, hsec.nonempty⟩)
    constructor
    · rintro ⟨g1, g2, g3⟩
      exact ⟨g1, g2, fun q ⟨i, hm, hu⟩ hc => g3 q ⟨i, (PMap.mem_remove.mp hm).1, hu⟩ hc⟩
    · rintro ⟨g1, g2, g3⟩
      exact ⟨g1, g2, fun q ⟨i, hm, hu⟩ hc => g3 q ⟨i, PMap.mem_remove.mpr ⟨hm, fun e => hid ⟨i, q, hm, congrArg UInt32.toNat e, hu⟩⟩, hu⟩ hc⟩

/-- **C141**, by GUID: the same as the removal of the id it returns. -/
theorem c141_guid {s s' : GptDisk} {g : Uuid} {id : UInt32} (hk : s.partitions.Pairwise fun a b => a.1 < b.1)
    (hr : (removePartitionByGuid g s : Res GptError _ × _) = (.ok (some id), s')) :
    (removePartition id s : Res GptError _ × _) = (.ok (some id), s') ∧ ∃ p, (id, p) ∈ s.partitions ∧ p.partGuid = g := by
  unfold removePartitionByGuid at hr
  cases hf : s.partitions.find? (fun e => e.2.partGuid == g) with
  | none =>
    rw [hf] at hr
    exact absurd (congrArg Prod.fst hr) (by simp)
  | some e =>
    rw [hf] at hr
    simp only [Prod.mk.injEq, Res.ok.injEq, Option.some.injEq] at hr
    obtain ⟨rfl, rfl⟩ := hr
    have hm := List.mem_of_find?_eq_some hf
    have hg := List.find?_some hf
    refine ⟨?_, e.2, hm, by simpa using hg⟩
    unfold removePartition
    rw [PMap.get_of_mem hk (p := e.2) hm]

/-! ## The hypotheses are met -/

/-- `sessDisk` with a second partition in the middle of its free section: the section comes back when that partition is removed. -/
example (m : Mode) : ∃ h t, Ready h { sessDisk m with partitions := t } ∧
    (5, (⟨(exPart 0 0).partType, Uuid.nil, 40, 43, 0, "b"⟩ : Partition)) ∈ t ∧
    (({ sessDisk m with partitions := t } : GptDisk).findFreeSectors m : Res GptError _) = .ok ([] ++ (cutOut 36 31 40 4 ++ [])) ∧
    ((43 : UInt64).toNat + 1 = (40 : UInt64).toNat + (4 : UInt64).toNat) ∧ cutOut 36 31 40 4 = [(36, 4), (44, 23)] := by
  obtain ⟨h, hs⟩ := sessDisk_ready m
  have hL : ((sessDisk m).findFreeSectors m : Res GptError _) = .ok ([] ++ (36, 31) :: []) := by cases m <;> decide +kernel
  obtain ⟨h', e1, -, e3, -⟩ := c67_table (sessDisk_session m)
  have := hs.header
  rw [e1] at this
  cases this
  obtain ⟨t, -, a, r, b⟩ := c140_cut m "b" 5 40 4 (exPart 0 0).partType 0 Uuid.nil Uuid.nil hs hL (by decide) (by decide) (by decide) (by decide)
    (by
      rintro ⟨i, q, hm, hi, -⟩
      rw [sessDisk_partitions] at hm
      cases List.mem_singleton.mp hm
      exact absurd hi (by decide))
    (by rw [e3]; decide) (by decide)
  exact ⟨h, t, r, (PMap.mem_iff_get r.table.keys).mpr a, b, by decide, by decide⟩

end Gpt
