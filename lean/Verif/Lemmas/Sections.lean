import Verif.Lemmas.Add
import Verif.Spec.Layout
import Verif.Props.Builder
import Mathlib.Data.List.Pairwise
/-!
# The free sections, and the extents that fit them
-/

namespace Gpt
open GptDisk

/-- What `find_free_sectors` returns on a tidy table. -/
structure Sections (h : Header) (t : PMap) (L : List (UInt64 × UInt64)) : Prop where
  covers : ∀ x, (∃ sec ∈ L, InSect sec x) ↔ Spec.Free h t x
  apart : L.Pairwise (fun a b => ∃ p, Spec.Used t p ∧ a.1.toNat + a.2.toNat ≤ p.firstLba.toNat ∧
    p.firstLba.toNat ≤ p.lastLba.toNat ∧ p.lastLba.toNat < b.1.toNat)
  nonempty : ∀ sec ∈ L, 1 ≤ sec.2.toNat
  bound : ∀ sec ∈ L, h.firstUsable.toNat ≤ sec.1.toNat ∧ sec.1.toNat + sec.2.toNat ≤ h.lastUsable.toNat + 1

theorem findFreeSectors_sections {ε : Type} (m : Mode) (s : GptDisk) {h : Header} (hh : s.tryHeader = .ok h)
    (hr : Spec.Range h) (ht : Spec.Tidy h s.partitions) :
    ∃ L, (s.findFreeSectors m : Res ε _) = .ok L ∧ Sections h s.partitions L := by
  obtain ⟨l, lo, hi, hperm, hchain, hlo, hhi, heq⟩ := findFreeSectors_eq (ε := ε) m s hh hr ht
  have hfirst := hr.first
  have hmem : ∀ iv, iv ∈ l ↔ ∃ p, Spec.Used s.partitions p ∧ iv = (p.firstLba, p.lastLba) := by
    intro iv
    rw [hperm.mem_iff]
    unfold extents
    rw [List.mem_map]
    constructor
    · rintro ⟨p, hp, rfl⟩; exact ⟨p, mem_usedParts.mp hp, rfl⟩
    · rintro ⟨p, hp, rfl⟩; exact ⟨p, mem_usedParts.mpr hp, rfl⟩
  refine ⟨_, heq, ?_, ?_, ?_, ?_⟩
  · intro x
    rw [mem_gaps hchain]
    unfold Spec.Free
    constructor
    · rintro ⟨h1, h2, h3⟩
      refine ⟨by omega, by omega, ?_⟩
      intro p hp hc
      exact h3 _ ((hmem _).mpr ⟨p, hp, rfl⟩) hc
    · rintro ⟨h1, h2, h3⟩
      refine ⟨by omega, by omega, ?_⟩
      intro iv hiv hc
      obtain ⟨p, hp, rfl⟩ := (hmem iv).mp hiv
      exact h3 p hp hc
  · refine (gaps_pairwise hchain).imp ?_
    rintro a b ⟨iv, hiv, h1⟩
    obtain ⟨p, hp, rfl⟩ := (hmem iv).mp hiv
    exact ⟨p, hp, h1⟩
  · intro sec hs
    exact (gaps_bounds hchain hs).2.2
  · intro sec hs
    have := gaps_bounds hchain hs
    omega

/-- A free extent lies inside one section. -/
theorem Sections.extent {h : Header} {t : PMap} {L : List (UInt64 × UInt64)} (hL : Sections h t L) {y n : Nat}
    (hn : 1 ≤ n) (hy : Spec.FreeExtent h t y n) :
    ∃ sec ∈ L, sec.1.toNat ≤ y ∧ y + n ≤ sec.1.toNat + sec.2.toNat := by
  obtain ⟨sec, hs, hx⟩ := (hL.covers y).mpr (hy y (Nat.le_refl _) (by omega))
  refine ⟨sec, hs, hx.1, ?_⟩
  by_contra hc
  unfold InSect at hx
  obtain ⟨sec', hs', hx'⟩ := (hL.covers (sec.1.toNat + sec.2.toNat)).mpr (hy _ (by omega) (by omega))
  unfold InSect at hx'
  have hne : sec ≠ sec' := by rintro rfl; omega
  have hsym : L.Pairwise (fun a b => a.1.toNat + a.2.toNat < b.1.toNat ∨ b.1.toNat + b.2.toNat < a.1.toNat) := by
    refine hL.apart.imp ?_
    rintro a b ⟨p, _, h1⟩
    left; omega
  haveI : Std.Symm (fun a b : UInt64 × UInt64 =>
      a.1.toNat + a.2.toNat < b.1.toNat ∨ b.1.toNat + b.2.toNat < a.1.toNat) := ⟨fun _ _ h => h.symm⟩
  have := hsym.forall hs hs' hne
  omega

/-- Every extent inside a section is free. -/
theorem Sections.inside {h : Header} {t : PMap} {L : List (UInt64 × UInt64)} (hL : Sections h t L) {sec : UInt64 × UInt64}
    (hs : sec ∈ L) {y n : Nat} (h1 : sec.1.toNat ≤ y) (h2 : y + n ≤ sec.1.toNat + sec.2.toNat) :
    Spec.FreeExtent h t y n := fun x hx1 hx2 => (hL.covers x).mp ⟨sec, hs, by unfold InSect; omega⟩

/-- `size_lba`: the blocks for `size` bytes. -/
theorem sizeLba_spec {lb : LbSize} {size : UInt64} (h0 : size ≠ 0) :
    Spec.JustEnough lb size.toNat ((size.toNat - 1) / lb.usize + 1) ∧ (size.toNat - 1) / lb.usize + 1 ≤ 2 ^ 55 := by
  have hp := lb_pos lb
  have hle := lb_le lb
  have hs : 1 ≤ size.toNat := by
    rcases Nat.eq_zero_or_pos size.toNat with h | h
    · exact absurd (UInt64.toNat_inj.mp h) h0
    · exact h
  have hlt := size.toNat_lt
  refine ⟨⟨?_, ?_⟩, ?_⟩
  · have h1 := Nat.div_add_mod (size.toNat - 1) lb.usize
    have h2 := Nat.mod_lt (size.toNat - 1) hp
    rw [Nat.add_mul, Nat.one_mul, Nat.mul_comm]
    omega
  · intro j hj
    have : (size.toNat - 1) / lb.usize < j := by
      rw [Nat.div_lt_iff_lt_mul hp]
      omega
    omega
  · have h1 : (size.toNat - 1) / lb.usize ≤ (size.toNat - 1) / 512 := Nat.div_le_div_left hle (by omega)
    omega

/-- `add_partition` up to its loop. -/
theorem addPartition_eq (m : Mode) (name : String) {size : UInt64} (h0 : size ≠ 0) (ty : PType) (flags : UInt64)
    (align : Option UInt64) (fresh fresh2 : Uuid) (s : GptDisk) :
    ∃ n : UInt64, n.toNat = (size.toNat - 1) / s.config.lbSize.usize + 1 ∧
      ∀ L, (s.findFreeSectors m : Res GptError _) = .ok L →
        addPartition m name size ty flags align fresh fresh2 s =
          addPartitionLoop m name n ty flags align fresh fresh2 L s := by
  have h1 : (1 : UInt64).toNat = 1 := rfl
  have hs : 1 ≤ size.toNat := by
    rcases Nat.eq_zero_or_pos size.toNat with h | h
    · exact absurd (UInt64.toNat_inj.mp h) h0
    · exact h
  have hb := (sizeLba_spec (lb := s.config.lbSize) h0).2
  have hd : ((size - 1) / s.config.lbSize.u64).toNat = (size.toNat - 1) / s.config.lbSize.usize := by
    rw [UInt64.toNat_div, u64_sub_toNat (by omega), lb_u64_toNat, h1]
  refine ⟨(size - 1) / s.config.lbSize.u64 + 1, ?_, ?_⟩
  · rw [u64_add_toNat (by rw [hd, h1]; omega), hd, h1]
  · intro L hL
    unfold addPartition
    rw [if_neg h0]
    simp only [M.bind_apply, M.get_apply, M.lift_apply]
    rw [sub64_eq m (by omega)]
    simp only
    rw [add64_eq m (by rw [hd, h1]; omega)]
    simp only
    rw [hL]

theorem addPartition_zero (m : Mode) (name : String) (ty : PType) (flags : UInt64)
    (align : Option UInt64) (fresh fresh2 : Uuid) (s : GptDisk) :
    addPartition m name 0 ty flags align fresh fresh2 s = (.panic, s) := by
  unfold addPartition; rw [if_pos rfl]; rfl

/-- The successful `add_partition`. -/
theorem addPartition_ok {m : Mode} {name : String} {size : UInt64} {ty : PType} {flags : UInt64}
    {align : Option UInt64} {fresh fresh2 : Uuid} {s s' : GptDisk} {id : UInt32} {h : Header}
    (hh : s.tryHeader = .ok h) (hr : Spec.Range h) (ht : Spec.Tidy h s.partitions)
    (hm : m = .debug ∨ ∀ a, align = some a → a.toNat ≤ 2 ^ 63)
    (hok : addPartition m name size ty flags align fresh fresh2 s = (.ok id, s')) :
    size ≠ 0 ∧ (∀ a, align = some a → a ≠ 0) ∧ PickId m s id ∧ ∃ start n : UInt64,
      n.toNat = (size.toNat - 1) / s.config.lbSize.usize + 1 ∧
      Spec.FreeExtent h s.partitions start.toNat n.toNat ∧ Aligned align start.toNat ∧
      (∀ y, Aligned align y → Spec.FreeExtent h s.partitions y n.toNat → start.toNat ≤ y) ∧
      start.toNat + n.toNat ≤ h.lastUsable.toNat + 1 ∧
      insertPartition m name id start n ty flags fresh fresh2 s = (.ok id, s') := by
  have h0 : size ≠ 0 := by rintro rfl; rw [addPartition_zero] at hok; simp at hok
  obtain ⟨L, hL, hsec⟩ := findFreeSectors_sections (ε := GptError) m s hh hr ht
  obtain ⟨n, hn, heq⟩ := addPartition_eq m name h0 ty flags align fresh fresh2 s
  rw [heq L hL] at hok
  have hb := (sizeLba_spec (lb := s.config.lbSize) h0).2
  have hm' : NoWrap m align n := by
    rcases hm with hm | hm
    · exact .inl hm
    · refine .inr fun a ha => ?_
      have := hm a ha
      omega
  obtain ⟨ha, pre, sec, post, h1, h2, h3, h4, start, h5, h6⟩ := addPartitionLoop_ok hm' hok
  have hmem : sec ∈ L := by rw [h1]; simp
  have hbd := hsec.bound sec hmem
  have hlast := hr.last
  unfold Fits at h3
  have hofflt : offNat sec.1.toNat align < 2 ^ 64 := by have := sec.2.toNat_lt; omega
  have hstart : start.toNat = sec.1.toNat + offNat sec.1.toNat align := by
    rw [add64_ok h5, u64_add_toNat (by rw [u64_ofNat_toNat hofflt]; omega), u64_ofNat_toNat hofflt]
  have hsp := offNat_spec sec.1.toNat ha
  have hle1 : sec.1.toNat ≤ start.toNat := by omega
  have hle2 : start.toNat + n.toNat ≤ sec.1.toNat + sec.2.toNat := by omega
  refine ⟨h0, ha, h4, start, n, hn, hsec.inside hmem hle1 hle2, by rw [hstart]; exact hsp.1, ?_, by omega, h6⟩
  intro y hal hfree
  obtain ⟨sy, hsy, hy1, hy2⟩ := hsec.extent (n := n.toNat) (by rw [hn]; exact Nat.le_add_left 1 _) hfree
  rw [h1] at hsy
  rcases List.mem_append.mp hsy with hsy | hsy
  · exfalso
    apply h2 sy hsy
    have := (offNat_spec sy.1.toNat ha).2 y hy1 hal
    unfold Fits
    omega
  · rcases List.mem_cons.mp hsy with rfl | hsy
    · rw [hstart]
      exact hsp.2 y hy1 hal
    · have hpw := hsec.apart
      rw [h1, List.pairwise_append] at hpw
      obtain ⟨p, _, hp⟩ := (List.pairwise_cons.mp hpw.2.1).1 sy hsy
      omega

end Gpt
