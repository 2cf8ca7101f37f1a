import Verif.Lemmas.Sections
/-!
# Properties: free space, allocation, ids, alignment (C17-C22, C24, C26, C27, C63)
-/

namespace Gpt
open GptDisk

/-! ## A small disk for the examples -/

/-- A used partition at `f ..= l`. -/
def exPart (f l : UInt64) : Partition := ⟨⟨⟨1, 2, 3, 4⟩, .none⟩, ⟨0, 0, 0, 7⟩, f, l, 0, "p"⟩

/-- Usable blocks 34 to 100, 128 slots. -/
def exHeader : Header where
  signature := efiPart
  revision := (1, 0)
  headerSizeLe := 92
  crc32 := 0
  reserved := 0
  currentLba := 1
  backupLba := 133
  firstUsable := 34
  lastUsable := 100
  diskGuid := ⟨9, 9, 9, 9⟩
  partStart := 2
  numParts := 128
  partSize := 128
  crc32Parts := 0

/-- Two used partitions, and an unused entry that takes no space. -/
def exTable : PMap := [(1, exPart 40 49), (2, exPart 60 69), (4, { exPart 0 1000 with partType := PType.unused })]

def exDisk : GptDisk where
  config := GptConfig.new
  device := ⟨[], 0, 0, [], []⟩
  guid := ⟨9, 9, 9, 9⟩
  primaryHeader := .ok exHeader
  backupHeader := .error .invalidGptSignature
  partitions := exTable
  syncAll := false

theorem exHeader_range : Spec.Range exHeader := ⟨by decide, by decide, by decide⟩

theorem exTable_used {p : Partition} (h : Spec.Used exTable p) : p = exPart 40 49 ∨ p = exPart 60 69 := by
  obtain ⟨id, hm, hu⟩ := h
  simp only [exTable, List.mem_cons, Prod.mk.injEq, List.not_mem_nil, or_false] at hm
  rcases hm with hm | hm | hm
  · exact .inl hm.2
  · exact .inr hm.2
  · rw [hm.2] at hu; exact absurd rfl hu

theorem exTable_tidy : Spec.Tidy exHeader exTable where
  keys := by decide
  order p hp := by rcases exTable_used hp with rfl | rfl <;> decide
  inside p hp := by rcases exTable_used hp with rfl | rfl <;> decide
  apart i j p q hp hq hij hup huq x := by
    simp only [exTable, List.mem_cons, Prod.mk.injEq, List.not_mem_nil, or_false] at hp hq
    have e1 : (exPart 40 49).firstLba.toNat = 40 := rfl
    have e2 : (exPart 40 49).lastLba.toNat = 49 := rfl
    have e3 : (exPart 60 69).firstLba.toNat = 60 := rfl
    have e4 : (exPart 60 69).lastLba.toNat = 69 := rfl
    unfold Spec.Covers
    rcases hp with ⟨rfl, rfl⟩ | ⟨rfl, rfl⟩ | ⟨rfl, rfl⟩ <;> rcases hq with ⟨rfl, rfl⟩ | ⟨rfl, rfl⟩ | ⟨rfl, rfl⟩ <;>
      first
      | exact absurd rfl hij
      | exact absurd rfl hup
      | exact absurd rfl huq
      | omega

example : exDisk.tryHeader = .ok exHeader ∧ Spec.Range exHeader ∧ Spec.Tidy exHeader exDisk.partitions :=
  ⟨rfl, exHeader_range, exTable_tidy⟩

/-! ## C17, C18: the free sections -/

/-- **C17.** On a tidy table `find_free_sectors` succeeds, and every block of every section it returns is usable and in no
used partition. -/
theorem c17_only_free (m : Mode) (s : GptDisk) {h : Header} (hh : s.tryHeader = .ok h) (hr : Spec.Range h)
    (ht : Spec.Tidy h s.partitions) :
    ∃ L, (s.findFreeSectors m : Res GptError _) = .ok L ∧
      ∀ sec ∈ L, ∀ x, sec.1.toNat ≤ x → x < sec.1.toNat + sec.2.toNat → Spec.Free h s.partitions x := by
  obtain ⟨L, hL, hs⟩ := findFreeSectors_sections (ε := GptError) m s hh hr ht
  exact ⟨L, hL, fun sec hsec x h1 h2 => (hs.covers x).mp ⟨sec, hsec, h1, h2⟩⟩

example : (exDisk.findFreeSectors .debug : Res GptError _) = .ok [(34, 6), (50, 10), (70, 31)] := by decide +kernel

/-- The disk of the examples with other entries. -/
def exWith (t : PMap) : GptDisk := { exDisk with partitions := t }

/-- Tidiness is needed: with overlapping partitions (which can be read from a disk, or made with `add_partition_at`, see
C22) blocks 46 to 49 of the usable range are reported free although the partition 40 ..= 60 owns them. -/
theorem c17_overlap_fails : ∃ (t : PMap) (L : List (UInt64 × UInt64)),
    t.Pairwise (fun a b => a.1 < b.1) ∧ (∀ p, Spec.Used t p → exHeader.firstUsable.toNat ≤ p.firstLba.toNat ∧
      p.firstLba.toNat ≤ p.lastLba.toNat ∧ p.lastLba.toNat ≤ exHeader.lastUsable.toNat) ∧
    ((exWith t).findFreeSectors .debug : Res GptError _) = .ok L ∧
    ∃ sec ∈ L, ∃ x, sec.1.toNat ≤ x ∧ x < sec.1.toNat + sec.2.toNat ∧ ¬ Spec.Free exHeader t x := by
  refine ⟨[(1, exPart 40 60), (2, exPart 45 50)], [(34, 6), (46, 4), (61, 40)], by decide, ?_, by decide +kernel,
    (46, 4), by decide, 47, by decide, by decide, ?_⟩
  · rintro p ⟨id, hm, _⟩
    simp only [List.mem_cons, Prod.mk.injEq, List.not_mem_nil, or_false] at hm
    rcases hm with ⟨_, rfl⟩ | ⟨_, rfl⟩ <;> decide
  · intro hf
    exact hf.2.2 (exPart 40 60) ⟨1, by simp, by decide⟩ ⟨by decide, by decide⟩

/-- **C18.** On a tidy table every free block lies in exactly one returned section, sections are in increasing order with
a used partition between any two of them, and none is empty. -/
theorem c18_all_free (m : Mode) (s : GptDisk) {h : Header} (hh : s.tryHeader = .ok h) (hr : Spec.Range h)
    (ht : Spec.Tidy h s.partitions) :
    ∃ L, (s.findFreeSectors m : Res GptError _) = .ok L ∧
      (∀ x, Spec.Free h s.partitions x →
        ∃! sec, sec ∈ L ∧ sec.1.toNat ≤ x ∧ x < sec.1.toNat + sec.2.toNat) ∧
      L.Pairwise (fun a b => ∃ p, Spec.Used s.partitions p ∧ a.1.toNat + a.2.toNat ≤ p.firstLba.toNat ∧
        p.lastLba.toNat < b.1.toNat ∧ ∃ x, Spec.Covers p x) ∧
      ∀ sec ∈ L, 1 ≤ sec.2.toNat := by
  obtain ⟨L, hL, hs⟩ := findFreeSectors_sections (ε := GptError) m s hh hr ht
  refine ⟨L, hL, ?_, ?_, hs.nonempty⟩
  · intro x hx
    obtain ⟨sec, h1, h2⟩ := (hs.covers x).mpr hx
    refine ⟨sec, ⟨h1, h2⟩, ?_⟩
    rintro sec' ⟨h1', h2'⟩
    by_contra hne
    have hsym : L.Pairwise (fun a b => a.1.toNat + a.2.toNat < b.1.toNat ∨ b.1.toNat + b.2.toNat < a.1.toNat) := by
      refine hs.apart.imp ?_
      rintro a b ⟨p, _, h1⟩
      left; omega
    haveI : Std.Symm (fun a b : UInt64 × UInt64 =>
        a.1.toNat + a.2.toNat < b.1.toNat ∨ b.1.toNat + b.2.toNat < a.1.toNat) := ⟨fun _ _ h => h.symm⟩
    have := hsym.forall h1' h1 hne
    unfold InSect at h2
    omega
  · refine hs.apart.imp ?_
    rintro a b ⟨p, hp, h1, h2, h3⟩
    exact ⟨p, hp, h1, h3, p.firstLba.toNat, Nat.le_refl _, h2⟩

example : Spec.Free exHeader exDisk.partitions 55 := by
  refine ⟨by decide, by decide, ?_⟩
  intro p hp hc
  unfold Spec.Covers at hc
  rcases exTable_used hp with rfl | rfl
  · exact absurd hc (by decide)
  · exact absurd hc (by decide)

/-! ## C24: the next id -/

/-- Slot `i` holds a used entry. -/
def Spec.Taken (t : PMap) (i : Nat) : Prop := ∃ id p, (id, p) ∈ t ∧ id.toNat = i ∧ p.partType.guid ≠ Uuid.nil

theorem taken_iff {t : PMap} (hs : PMap.Sorted t) (i : UInt32) :
    Spec.Taken t i.toNat ↔ ∃ p, PMap.get t i = some p ∧ p.isUsed = true := by
  constructor
  · rintro ⟨id, p, h1, h2, h3⟩
    obtain rfl := UInt32.toNat_inj.mp h2
    exact ⟨p, PMap.get_of_mem hs h1, (isUsed_iff p).mpr h3⟩
  · rintro ⟨p, h1, h2⟩
    exact ⟨i, p, PMap.mem_of_get h1, rfl, (isUsed_iff p).mp h2⟩

theorem nextIdLoop_spec {t : PMap} (hs : PMap.Sorted t) (n : Nat) (i : UInt32) (hi : i.toNat + n ≤ 2 ^ 32) :
    match nextIdLoop t n i with
    | some k => i.toNat ≤ k.toNat ∧ k.toNat < i.toNat + n ∧ ¬ Spec.Taken t k.toNat ∧
        ∀ j, i.toNat ≤ j → j < k.toNat → Spec.Taken t j
    | none => ∀ j, i.toNat ≤ j → j < i.toNat + n → Spec.Taken t j := by
  induction n generalizing i with
  | zero => simp only [nextIdLoop]; intro j h1 h2; omega
  | succ n ih =>
    unfold nextIdLoop
    have hfree : ¬ Spec.Taken t i.toNat → (i.toNat ≤ i.toNat ∧ i.toNat < i.toNat + (n + 1) ∧ ¬ Spec.Taken t i.toNat ∧
        ∀ j, i.toNat ≤ j → j < i.toNat → Spec.Taken t j) :=
      fun h => ⟨Nat.le_refl _, by omega, h, fun j h1 h2 => by omega⟩
    cases hget : PMap.get t i with
    | some p =>
      simp only
      by_cases hu : p.isUsed = true
      · rw [if_pos hu]
        have htk : Spec.Taken t i.toNat := (taken_iff hs i).mpr ⟨p, hget, hu⟩
        have h1 : (1 : UInt32).toNat = 1 := rfl
        by_cases hn : n = 0
        · subst hn
          simp only [nextIdLoop]
          intro j hj1 hj2
          rw [show j = i.toNat by omega]; exact htk
        · have hi1 : (i + 1).toNat = i.toNat + 1 := by rw [u32_add_toNat (by omega), h1]
          have := ih (i + 1) (by omega)
          rw [hi1] at this
          split
          · rename_i k hk
            rw [hk] at this
            refine ⟨by omega, by omega, this.2.2.1, ?_⟩
            intro j hj1 hj2
            by_cases hj : j = i.toNat
            · rw [hj]; exact htk
            · exact this.2.2.2 j (by omega) hj2
          · rename_i hk
            rw [hk] at this
            intro j hj1 hj2
            by_cases hj : j = i.toNat
            · rw [hj]; exact htk
            · exact this j (by omega) (by omega)
      · rw [if_neg hu]
        exact hfree fun htk => by
          obtain ⟨q, hq, hqu⟩ := (taken_iff hs i).mp htk
          rw [hget] at hq
          rw [Option.some.inj hq] at hu
          exact hu hqu
    | none =>
      simp only
      exact hfree fun htk => by
        obtain ⟨q, hq, _⟩ := (taken_iff hs i).mp htk
        rw [hget] at hq
        exact absurd hq (by simp)

/-- **C24.** `find_next_partition_id` returns the smallest id in `1..=num_parts` whose entry is absent or unused, and
`None` exactly when all are used. (With an empty table it returns 1 even if `num_parts` is 0.) -/
theorem c24_next_id (s : GptDisk) {h : Header} (hh : s.tryHeader = .ok h)
    (hk : s.partitions.Pairwise (fun a b => a.1 < b.1)) (hne : s.partitions ≠ [] ∨ 1 ≤ h.numParts.toNat) :
    ∃ r, (s.findNextPartitionId : Res GptError _) = .ok r ∧
      (∀ i, r = some i → 1 ≤ i.toNat ∧ i.toNat ≤ h.numParts.toNat ∧ ¬ Spec.Taken s.partitions i.toNat ∧
        ∀ j, 1 ≤ j → j < i.toNat → Spec.Taken s.partitions j) ∧
      (r = none ↔ ∀ j, 1 ≤ j → j ≤ h.numParts.toNat → Spec.Taken s.partitions j) := by
  have h1 : (1 : UInt32).toNat = 1 := rfl
  unfold findNextPartitionId
  split
  · rename_i he
    rw [he] at hne
    refine ⟨some 1, rfl, ?_, ?_⟩
    · intro i hi
      obtain rfl := Option.some.inj hi
      have hn1 : 1 ≤ h.numParts.toNat := by rcases hne with hne | hne <;> [exact absurd rfl hne; exact hne]
      refine ⟨by decide, by rw [h1]; exact hn1, ?_, fun j hj1 hj2 => by rw [h1] at hj2; omega⟩
      rw [he]
      rintro ⟨_, _, hm, _⟩
      simp at hm
    · simp only [reduceCtorEq, false_iff]
      intro hall
      have hn1 : 1 ≤ h.numParts.toNat := by rcases hne with hne | hne <;> [exact absurd rfl hne; exact hne]
      obtain ⟨_, _, hm, _⟩ := hall 1 (by omega) hn1
      rw [he] at hm
      simp at hm
  · have hb := h.numParts.toNat_lt
    have := nextIdLoop_spec hk h.numParts.toNat 1 (by rw [h1]; omega)
    unfold GptDisk.header
    rw [hh]
    refine ⟨nextIdLoop s.partitions h.numParts.toNat 1, rfl, ?_, ?_⟩
    · intro i hi
      rw [hi, h1] at this
      exact ⟨this.1, by omega, this.2.2.1, this.2.2.2⟩
    · split at this
      · rename_i k hk'
        rw [hk']
        simp only [reduceCtorEq, false_iff]
        intro hall
        rw [h1] at this
        exact this.2.2.1 (hall _ this.1 (by omega))
      · rename_i hk'
        rw [hk']
        rw [h1] at this
        exact ⟨fun _ j hj1 hj2 => this j hj1 (by omega), fun _ => rfl⟩

/-- **C24.** It never returns 0. -/
theorem c24_not_zero (s : GptDisk) {i : UInt32} (hk : s.partitions.Pairwise (fun a b => a.1 < b.1))
    (h : (s.findNextPartitionId : Res GptError _) = .ok (some i)) : i ≠ 0 := by
  have h1 : (1 : UInt32).toNat = 1 := rfl
  unfold findNextPartitionId at h
  split at h
  · obtain rfl := Option.some.inj (Res.ok.inj h)
    decide
  · rw [Res.bind_eq_ok] at h
    obtain ⟨hd, _, h⟩ := h
    have hb := hd.numParts.toNat_lt
    have := nextIdLoop_spec hk hd.numParts.toNat 1 (by rw [h1]; omega)
    rw [Res.ok.inj h, h1] at this
    rintro rfl
    exact absurd this.1 (by decide)

example : (exDisk.findNextPartitionId : Res GptError _) = .ok (some 3) := by decide +kernel
example : (exWith [(1, exPart 40 41), (2, { exPart 0 0 with partType := PType.unused })]).findNextPartitionId =
    (.ok (some 2) : Res GptError _) := by decide +kernel

/-! ## C27: the alignment -/

theorem alignLoop_spec {ε : Type} (f : UInt64) (e : Nat) (he : e ≤ 63) :
    ∃ r, (alignLoop f e : Res ε Nat) = .ok r ∧ r ≤ e ∧ 2 ^ r ∣ f.toNat ∧
      ∀ k, k ≤ e → 2 ^ k ∣ f.toNat → k ≤ r := by
  have hmod : ∀ e, e ≤ 63 → (f % UInt64.ofNat (2 ^ e) = 0 ↔ 2 ^ e ∣ f.toNat) := by
    intro e he
    have hlt : 2 ^ e < 2 ^ 64 := Nat.pow_lt_pow_right (by decide) (by omega)
    rw [← UInt64.toNat_inj, UInt64.toNat_mod, u64_ofNat_toNat hlt, Nat.dvd_iff_mod_eq_zero]
    exact Iff.rfl
  induction e with
  | zero =>
    refine ⟨0, ?_, Nat.le_refl _, by simp, fun k hk _ => hk⟩
    unfold alignLoop
    rw [if_pos ((hmod 0 (by omega)).mpr (by simp))]
  | succ e ih =>
    unfold alignLoop
    by_cases hd : 2 ^ (e + 1) ∣ f.toNat
    · rw [if_pos ((hmod _ he).mpr hd)]
      exact ⟨e + 1, rfl, Nat.le_refl _, hd, fun k hk _ => hk⟩
    · rw [if_neg (fun h => hd ((hmod _ he).mp h))]
      obtain ⟨r, h1, h2, h3, h4⟩ := ih (by omega)
      refine ⟨r, h1, by omega, h3, ?_⟩
      intro k hk hkd
      by_cases hke : k = e + 1
      · exact absurd (hke ▸ hkd) hd
      · exact h4 k (by omega) hkd

theorem alignAll_spec {ε : Type} (l : List Partition) (e : Nat) (he : e ≤ 63) :
    ∃ r, (alignAll l e : Res ε Nat) = .ok r ∧ r ≤ e ∧ (∀ p ∈ l, 2 ^ r ∣ p.firstLba.toNat) ∧
      ∀ k, k ≤ e → (∀ p ∈ l, 2 ^ k ∣ p.firstLba.toNat) → k ≤ r := by
  induction l generalizing e with
  | nil => exact ⟨e, rfl, Nat.le_refl _, by simp, fun k hk _ => hk⟩
  | cons p ps ih =>
    obtain ⟨r1, h1, h2, h3, h4⟩ := alignLoop_spec (ε := ε) p.firstLba e he
    obtain ⟨r2, h5, h6, h7, h8⟩ := ih r1 (by omega)
    refine ⟨r2, ?_, by omega, ?_, ?_⟩
    · unfold alignAll
      rw [h1]
      exact h5
    · intro q hq
      rcases List.mem_cons.mp hq with rfl | hq
      · exact (Nat.pow_dvd_pow 2 h6).trans h3
      · exact h7 q hq
    · intro k hk hall
      exact h8 k (h4 k hk (hall p List.mem_cons_self)) (fun q hq => hall q (List.mem_cons_of_mem _ hq))

/-- **C27.** `calculate_alignment` never fails; it is 0 for an empty table and otherwise the largest power of two up to
2048 that divides the first block of every used partition. -/
theorem c27_alignment (s : GptDisk) : ∃ a : UInt64, (s.calculateAlignment : Res GptError _) = .ok a ∧
    (s.partitions = [] → a = 0) ∧
    (s.partitions ≠ [] → (∃ e, a.toNat = 2 ^ e) ∧ a.toNat ≤ 2048 ∧
      (∀ p, Spec.Used s.partitions p → a.toNat ∣ p.firstLba.toNat) ∧
      ∀ k, 2 ^ k ≤ 2048 → (∀ p, Spec.Used s.partitions p → 2 ^ k ∣ p.firstLba.toNat) → 2 ^ k ≤ a.toNat) := by
  unfold calculateAlignment
  split
  · rename_i he
    exact ⟨0, rfl, fun _ => rfl, fun h => absurd he h⟩
  · rename_i he
    obtain ⟨r, h1, h2, h3, h4⟩ := alignAll_spec (ε := GptError) (usedParts s.partitions) 11 (by omega)
    have hlt : 2 ^ r < 2 ^ 64 := Nat.pow_lt_pow_right (by decide) (by omega)
    have ha := u64_ofNat_toNat hlt
    refine ⟨UInt64.ofNat (2 ^ r), by rw [h1]; rfl, fun h => absurd h he, fun _ => ⟨⟨r, ha⟩, ?_, ?_, ?_⟩⟩
    · rw [ha]
      exact (Nat.pow_le_pow_right (by decide) h2).trans (by decide)
    · intro p hp
      rw [ha]
      exact h3 p (mem_usedParts.mpr hp)
    · intro k hk hall
      rw [ha]
      refine Nat.pow_le_pow_right (by decide) (h4 k ?_ fun p hp => hall p (mem_usedParts.mp hp))
      have : 2 ^ k ≤ 2 ^ 11 := hk
      exact (Nat.pow_le_pow_iff_right (by decide)).mp this

example : (exDisk.calculateAlignment : Res GptError _) = .ok 4 := by decide +kernel

/-! ## C26: removing -/

theorem tidy_remove {h : Header} {t : PMap} (ht : Spec.Tidy h t) (id : UInt32) : Spec.Tidy h (PMap.remove t id) where
  keys := PMap.remove_sorted ht.keys id
  order p hp := by
    obtain ⟨i, hm, hu⟩ := hp
    exact ht.order p ⟨i, (PMap.mem_remove.mp hm).1, hu⟩
  inside p hp := by
    obtain ⟨i, hm, hu⟩ := hp
    exact ht.inside p ⟨i, (PMap.mem_remove.mp hm).1, hu⟩
  apart i j p q hp hq := ht.apart i j p q (PMap.mem_remove.mp hp).1 (PMap.mem_remove.mp hq).1

/-- **C26.** After `remove_partition` of a used entry, a block is free exactly when it was free before or belonged to
that partition; the table stays tidy, so C17 and C18 apply to the result. -/
theorem c26_remove_frees {s : GptDisk} {h : Header} (hh : s.tryHeader = .ok h) (ht : Spec.Tidy h s.partitions)
    {id : UInt32} {p : Partition} (hm : (id, p) ∈ s.partitions) (hu : p.partType.guid ≠ Uuid.nil) :
    ∃ s', (removePartition id s : Res GptError _ × _) = (.ok (some id), s') ∧ s'.tryHeader = .ok h ∧
      Spec.Tidy h s'.partitions ∧
      ∀ x, Spec.Free h s'.partitions x ↔ Spec.Free h s.partitions x ∨ Spec.Covers p x := by
  have hg := PMap.get_of_mem ht.keys hm
  refine ⟨{ s with partitions := PMap.remove s.partitions id }, ?_, hh, tidy_remove ht id, ?_⟩
  · unfold removePartition
    rw [hg]
  · intro x
    constructor
    · rintro ⟨h1, h2, h3⟩
      by_cases hc : Spec.Covers p x
      · exact .inr hc
      · left
        refine ⟨h1, h2, ?_⟩
        rintro q ⟨i, hq, hqu⟩
        by_cases hi : i = id
        · subst hi
          have := PMap.get_of_mem ht.keys hq
          rw [hg] at this
          obtain rfl := Option.some.inj this
          exact hc
        · exact h3 q ⟨i, PMap.mem_remove.mpr ⟨hq, hi⟩, hqu⟩
    · rintro (⟨h1, h2, h3⟩ | hc)
      · refine ⟨h1, h2, ?_⟩
        rintro q ⟨i, hq, hqu⟩
        exact h3 q ⟨i, (PMap.mem_remove.mp hq).1, hqu⟩
      · have hin := ht.inside p ⟨id, hm, hu⟩
        refine ⟨by have := hc.1; omega, by have := hc.2; omega, ?_⟩
        rintro q ⟨i, hq, hqu⟩ hcq
        have hq' := PMap.mem_remove.mp hq
        exact ht.apart i id q p hq'.1 hm hq'.2 hqu hu x ⟨hcq, hc⟩

example : ((1 : UInt32), exPart 40 49) ∈ exDisk.partitions ∧ (exPart 40 49).partType.guid ≠ Uuid.nil := by decide

/-! ## C19, C20, C21: `add_partition` -/

/-- Every used id is a slot number. -/
def Spec.IdsFit (h : Header) (t : PMap) : Prop := ∀ id p, (id, p) ∈ t → p.partType.guid ≠ Uuid.nil → id.toNat ≤ h.numParts.toNat

/-- When all slots are used, the id after them is not. -/
def Spec.NextFree (h : Header) (t : PMap) : Prop :=
  (∀ j, 1 ≤ j → j ≤ h.numParts.toNat → Spec.Taken t j) → ¬ Spec.Taken t (h.numParts.toNat + 1)

theorem nextFree_of_idsFit {h : Header} {t : PMap} (hid : Spec.IdsFit h t) : Spec.NextFree h t := by
  rintro - ⟨i, p, hm, hi, hu⟩
  have := hid i p hm hu
  omega

theorem pickId_free {m : Mode} {s : GptDisk} {h : Header} {id : UInt32} (hh : s.tryHeader = .ok h)
    (hk : PMap.Sorted s.partitions) (hid : Spec.NextFree h s.partitions) (hn : h.numParts.toNat < 2 ^ 32 - 1)
    (hp : PickId m s id) : ¬ Spec.Taken s.partitions id.toNat ∧ id ≠ 0 := by
  by_cases hne : s.partitions = []
  · rw [hne]
    refine ⟨by rintro ⟨_, _, hm, _⟩; simp at hm, ?_⟩
    rcases hp with hp | ⟨hp, _⟩
    · unfold findNextPartitionId at hp
      rw [if_pos hne] at hp
      obtain rfl := Option.some.inj (Res.ok.inj hp)
      decide
    · unfold findNextPartitionId at hp
      rw [if_pos hne] at hp
      simp at hp
  · obtain ⟨r, h1, h2, h3⟩ := c24_next_id s hh hk (.inl hne)
    rcases hp with hp | ⟨hp, h', hh', hadd⟩
    · rw [hp] at h1
      have := h2 id (Res.ok.inj h1).symm
      refine ⟨this.2.2.1, ?_⟩
      rintro rfl
      exact absurd this.1 (by decide)
    · rw [hh] at hh'
      obtain rfl := Except.ok.inj hh'
      have h32 : (1 : UInt32).toNat = 1 := rfl
      have hidn : id.toNat = h.numParts.toNat + 1 := by rw [add32_ok hadd, u32_add_toNat (by omega), h32]
      refine ⟨?_, ?_⟩
      · rw [hidn]
        rw [hp] at h1
        exact hid (h3.mp (Res.ok.inj h1).symm)
      · rintro rfl
        have : (0 : UInt32).toNat = 0 := rfl
        omega

/-- What C19 promises about `add_partition` when it returns `Ok(id)` and the disk goes from `s` to `s'`: the id was not in use;
the new entry has the given name, type and flags; it is the required number of blocks, all of them usable and free before,
starting at a multiple of the alignment; every other entry is as before, and so is the device. -/
def Spec.Allocated (h : Header) (s s' : GptDisk) (id : UInt32) (name : String) (size : UInt64) (ty : PType) (flags : UInt64)
    (align : Option UInt64) (fresh : Uuid) : Prop :=
  ¬ Spec.Taken s.partitions id.toNat ∧ id ≠ 0 ∧
  (∃ p n, (id, p) ∈ s'.partitions ∧ p.partType = ty ∧ p.partGuid = fresh ∧ p.flags = flags ∧ p.name = name ∧
    Spec.JustEnough s.config.lbSize size.toNat n ∧ 1 ≤ n ∧
    p.lastLba.toNat + 1 = p.firstLba.toNat + n ∧
    Spec.FreeExtent h s.partitions p.firstLba.toNat n ∧
    (∀ a, align = some a → a.toNat ∣ p.firstLba.toNat)) ∧
  (∀ j q, j ≠ id → ((j, q) ∈ s'.partitions ↔ (j, q) ∈ s.partitions)) ∧
  s'.partitions.Pairwise (fun a b => a.1 < b.1) ∧ s'.device.data = s.device.data

/-- **C19**, the claim. -/
def C19 : Prop := ∀ (m : Mode) (name : String) (size : UInt64) (ty : PType) (flags : UInt64) (align : Option UInt64)
    (fresh fresh2 : Uuid) (s s' : GptDisk) (id : UInt32) (h : Header), s.tryHeader = .ok h → Spec.Range h →
    Spec.Tidy h s.partitions → addPartition m name size ty flags align fresh fresh2 s = (.ok id, s') →
    Spec.Allocated h s s' id name size ty flags align fresh

/-- **C19**, what holds: the claim when the used ids are slot numbers (or at least the id after the last slot is free once all slots are
taken; see `c19_overwrites`), and overflow checks are on or the alignment is at most `2^63` (see `c19_fails`). -/
theorem c19_partial {m : Mode} {name : String} {size : UInt64} {ty : PType} {flags : UInt64}
    {align : Option UInt64} {fresh fresh2 : Uuid} {s s' : GptDisk} {id : UInt32} {h : Header}
    (hh : s.tryHeader = .ok h) (hr : Spec.Range h) (ht : Spec.Tidy h s.partitions)
    (hid : Spec.NextFree h s.partitions) (hn : h.numParts.toNat < 2 ^ 32 - 1)
    (hm : m = .debug ∨ ∀ a, align = some a → a.toNat ≤ 2 ^ 63)
    (hok : addPartition m name size ty flags align fresh fresh2 s = (.ok id, s')) :
    Spec.Allocated h s s' id name size ty flags align fresh := by
  obtain ⟨h0, ha, hpick, start, n, hn1, hfree, hal, _, hend, hins⟩ := addPartition_ok hh hr ht hm hok
  obtain ⟨_, hp, _, _, _, hq, _⟩ := insertPartition_ok hins
  have hfr := pickId_free hh ht.keys hid hn hpick
  have hlast := hr.last
  have h1 : (1 : UInt64).toNat = 1 := rfl
  have hpos : 1 ≤ n.toNat := by rw [hn1]; exact Nat.le_add_left 1 _
  have hsum : (start + n).toNat = start.toNat + n.toNat := u64_add_toNat (by omega)
  have hs' : PMap.Sorted s'.partitions := by rw [hp]; exact PMap.insert_sorted ht.keys _ _
  refine ⟨hfr.1, hfr.2, ⟨⟨ty, fresh, start, start + n - 1, flags, name⟩, n.toNat, ?_, rfl, rfl, rfl, rfl, ?_, hpos, ?_, hfree, hal⟩, ?_, hs', hq.data⟩
  · rw [PMap.mem_iff_get hs', hp, PMap.get_insert, if_pos rfl]
  · rw [hn1]; exact (sizeLba_spec h0).1
  · show (start + n - 1).toNat + 1 = start.toNat + n.toNat
    rw [u64_sub_toNat (by omega), hsum, h1]
    omega
  · intro j q hj
    rw [PMap.mem_iff_get hs', PMap.mem_iff_get ht.keys, hp, PMap.get_insert, if_neg hj]

/-- The hypotheses of C19 hold on the example disk; the new partition goes to block 72, the first multiple of 8 with room
for ten blocks. -/
example : (addPartition .debug "new" 5000 (exPart 0 0).partType 0 (some 8) ⟨0, 0, 0, 8⟩ Uuid.nil exDisk).1 = .ok 3 ∧
    (addPartition .debug "new" 5000 (exPart 0 0).partType 0 (some 8) ⟨0, 0, 0, 8⟩ Uuid.nil exDisk).2.partitions =
      [(1, exPart 40 49), (2, exPart 60 69), (3, { exPart 72 81 with partGuid := ⟨0, 0, 0, 8⟩, name := "new" }),
       (4, { exPart 0 1000 with partType := PType.unused })] := by
  constructor <;> decide +kernel

theorem exTable_idsFit : Spec.IdsFit exHeader exDisk.partitions := by
  intro id p hm _
  have hm' : (id, p) ∈ exTable := hm
  simp only [exTable, List.mem_cons, Prod.mk.injEq, List.not_mem_nil, or_false] at hm'
  rcases hm' with ⟨rfl, _⟩ | ⟨rfl, _⟩ | ⟨rfl, _⟩ <;> decide

example : Spec.NextFree exHeader exDisk.partitions := nextFree_of_idsFit exTable_idsFit

/-- The entry `add_partition` made. -/
theorem addPartition_entry {m : Mode} {name : String} {size : UInt64} {ty : PType} {flags : UInt64}
    {align : Option UInt64} {fresh fresh2 : Uuid} {s s' : GptDisk} {id : UInt32} {h : Header}
    (hh : s.tryHeader = .ok h) (hr : Spec.Range h) (ht : Spec.Tidy h s.partitions)
    (hm : m = .debug ∨ ∀ a, align = some a → a.toNat ≤ 2 ^ 63)
    (hok : addPartition m name size ty flags align fresh fresh2 s = (.ok id, s')) {p : Partition}
    (hp : (id, p) ∈ s'.partitions) :
    ∃ n : UInt64, Spec.JustEnough s.config.lbSize size.toNat n.toNat ∧
      Spec.FreeExtent h s.partitions p.firstLba.toNat n.toNat ∧ (∀ a, align = some a → a.toNat ∣ p.firstLba.toNat) ∧
      ∀ y, (∀ a, align = some a → a.toNat ∣ y) → Spec.FreeExtent h s.partitions y n.toNat → p.firstLba.toNat ≤ y := by
  obtain ⟨h0, ha, hpick, start, n, hn1, hfree, hal, hmin, hend, hins⟩ := addPartition_ok hh hr ht hm hok
  obtain ⟨_, hpp, _⟩ := insertPartition_ok hins
  have hs' : PMap.Sorted s'.partitions := by rw [hpp]; exact PMap.insert_sorted ht.keys _ _
  rw [PMap.mem_iff_get hs', hpp, PMap.get_insert, if_pos rfl] at hp
  obtain rfl := Option.some.inj hp
  exact ⟨n, by rw [hn1]; exact (sizeLba_spec h0).1, hfree, hal, hmin⟩

/-- **C20**, the claim: the start chosen by `add_partition` is the lowest aligned block from which the required number of
blocks is free. -/
def C20 : Prop := ∀ (m : Mode) (name : String) (size : UInt64) (ty : PType) (flags : UInt64) (align : Option UInt64)
    (fresh fresh2 : Uuid) (s s' : GptDisk) (id : UInt32) (h : Header) (p : Partition) (n : Nat), s.tryHeader = .ok h →
    Spec.Range h → Spec.Tidy h s.partitions → addPartition m name size ty flags align fresh fresh2 s = (.ok id, s') →
    (id, p) ∈ s'.partitions → Spec.JustEnough s.config.lbSize size.toNat n →
    Spec.FreeExtent h s.partitions p.firstLba.toNat n ∧ (∀ a, align = some a → a.toNat ∣ p.firstLba.toNat) ∧
    ∀ y, (∀ a, align = some a → a.toNat ∣ y) → Spec.FreeExtent h s.partitions y n → p.firstLba.toNat ≤ y

/-- **C20**, what holds: the claim when overflow checks are on or the alignment is at most `2^63` (see `c20_fails`). -/
theorem c20_partial {m : Mode} {name : String} {size : UInt64} {ty : PType} {flags : UInt64}
    {align : Option UInt64} {fresh fresh2 : Uuid} {s s' : GptDisk} {id : UInt32} {h : Header} {n : Nat}
    (hh : s.tryHeader = .ok h) (hr : Spec.Range h) (ht : Spec.Tidy h s.partitions)
    (hm : m = .debug ∨ ∀ a, align = some a → a.toNat ≤ 2 ^ 63)
    (hok : addPartition m name size ty flags align fresh fresh2 s = (.ok id, s')) {p : Partition}
    (hp : (id, p) ∈ s'.partitions) (hn : Spec.JustEnough s.config.lbSize size.toNat n) :
    Spec.FreeExtent h s.partitions p.firstLba.toNat n ∧ (∀ a, align = some a → a.toNat ∣ p.firstLba.toNat) ∧
    ∀ y, (∀ a, align = some a → a.toNat ∣ y) → Spec.FreeExtent h s.partitions y n → p.firstLba.toNat ≤ y := by
  obtain ⟨n', h1, h2⟩ := addPartition_entry hh hr ht hm hok hp
  rw [justEnough_unique hn h1]
  exact h2

example : Spec.JustEnough exDisk.config.lbSize 5000 10 := by
  refine ⟨by decide, ?_⟩
  intro j hj
  have : exDisk.config.lbSize.usize = 512 := rfl
  rw [this] at hj
  omega

/-- **C21.** `add_partition` reports `NotEnoughSpace` only when there is no aligned free extent of the required length. -/
theorem c21_complete {m : Mode} {name : String} {size : UInt64} {ty : PType} {flags : UInt64}
    {align : Option UInt64} {fresh fresh2 : Uuid} {s s' : GptDisk} {h : Header} {n : Nat}
    (hh : s.tryHeader = .ok h) (hr : Spec.Range h) (ht : Spec.Tidy h s.partitions)
    (hn : Spec.JustEnough s.config.lbSize size.toNat n)
    (herr : addPartition m name size ty flags align fresh fresh2 s = (.err .notEnoughSpace, s')) :
    s' = s ∧ ∀ y, (∀ a, align = some a → a.toNat ∣ y) → ¬ Spec.FreeExtent h s.partitions y n := by
  have h0 : size ≠ 0 := by rintro rfl; rw [addPartition_zero] at herr; simp at herr
  obtain ⟨L, hL, hsec⟩ := findFreeSectors_sections (ε := GptError) m s hh hr ht
  obtain ⟨k, hk, heq⟩ := addPartition_eq m name h0 ty flags align fresh fresh2 s
  rw [heq L hL] at herr
  have hsz := sizeLba_spec (lb := s.config.lbSize) h0
  have hnk : n = k.toNat := by rw [hk]; exact justEnough_unique hn hsz.1
  have hb := hsz.2
  obtain ⟨h1, h2⟩ := addPartitionLoop_notEnough herr
  refine ⟨h1, ?_⟩
  intro y hal hfree
  obtain ⟨sec, hs, hy1, hy2⟩ := hsec.extent (by rw [hnk, hk]; exact Nat.le_add_left 1 _) hfree
  obtain ⟨ha, hnf⟩ := h2 sec hs
  have := (offNat_spec sec.1.toNat ha).2 y hy1 hal
  apply hnf
  unfold Fits
  omega

/-- **C21.** Conversely, when no such extent exists the call reports `NotEnoughSpace` and changes nothing. -/
theorem c21_sound {m : Mode} {name : String} {size : UInt64} {ty : PType} {flags : UInt64}
    {align : Option UInt64} {fresh fresh2 : Uuid} {s : GptDisk} {h : Header} {n : Nat}
    (hh : s.tryHeader = .ok h) (hr : Spec.Range h) (ht : Spec.Tidy h s.partitions) (h0 : size ≠ 0)
    (ha : ∀ a, align = some a → a ≠ 0 ∧ a.toNat ≤ 2 ^ 63)
    (hn : Spec.JustEnough s.config.lbSize size.toNat n)
    (hno : ∀ y, (∀ a, align = some a → a.toNat ∣ y) → ¬ Spec.FreeExtent h s.partitions y n) :
    addPartition m name size ty flags align fresh fresh2 s = (.err .notEnoughSpace, s) := by
  obtain ⟨L, hL, hsec⟩ := findFreeSectors_sections (ε := GptError) m s hh hr ht
  obtain ⟨k, hk, heq⟩ := addPartition_eq m name h0 ty flags align fresh fresh2 s
  rw [heq L hL]
  have hsz := sizeLba_spec (lb := s.config.lbSize) h0
  have hnk : n = k.toNat := by rw [hk]; exact justEnough_unique hn hsz.1
  have hb := hsz.2
  refine addPartitionLoop_none ?_ ?_
  · intro a h
    have := ha a h
    exact ⟨this.1, by omega⟩
  · intro sec hs hf
    have hsp := offNat_spec sec.1.toNat (fun a h => (ha a h).1)
    unfold Fits at hf
    exact hno _ hsp.1 (hsec.inside hs (Nat.le_add_right _ _) (by omega))

example : (addPartition .debug "big" 20000 (exPart 0 0).partType 0 none Uuid.nil Uuid.nil exDisk).1 =
    .err .notEnoughSpace := by decide +kernel

/-! ## C22: `add_partition_at` -/

/-- **C22**, the claim: an accepted extent was free. -/
def C22 : Prop := ∀ (m : Mode) (name : String) (id id' : UInt32) (first length : UInt64) (ty : PType) (flags : UInt64)
    (fresh fresh2 : Uuid) (s s' : GptDisk) (h : Header), s.tryHeader = .ok h → Spec.Range h → Spec.Tidy h s.partitions →
    addPartitionAt m name id first length ty flags fresh fresh2 s = (.ok id', s') →
    Spec.FreeExtent h s.partitions first.toNat length.toNat

/-- The claim is false: only the start and the length are compared with a free section, not the end. Ten blocks from
block 55 are accepted on the example disk although partition 2 begins at block 60. -/
theorem c22_fails : ¬ C22 := by
  intro hC
  have h1 : (addPartitionAt .debug "x" 3 55 10 (exPart 0 0).partType 0 Uuid.nil Uuid.nil exDisk).1 = .ok 3 := by
    decide +kernel
  have h2 := hC .debug "x" 3 3 55 10 (exPart 0 0).partType 0 Uuid.nil Uuid.nil exDisk _ exHeader rfl exHeader_range
    exTable_tidy (Prod.ext h1 rfl)
  exact (h2 60 (by decide) (by decide)).2.2 (exPart 60 69) ⟨2, by decide, by decide⟩ (by unfold Spec.Covers; decide)

/-- It is also accepted to run past the end of the usable range. -/
theorem c22_fails_range : ∃ id s', addPartitionAt .debug "x" 3 90 31 (exPart 0 0).partType 0 Uuid.nil Uuid.nil exDisk =
    (.ok id, s') ∧ exHeader.lastUsable.toNat < 90 + 31 - 1 ∧ (3, { exPart 90 120 with partGuid := Uuid.nil, name := "x" }) ∈ s'.partitions := by
  refine ⟨3, (addPartitionAt .debug "x" 3 90 31 (exPart 0 0).partType 0 Uuid.nil Uuid.nil exDisk).2, ?_, by decide, by decide +kernel⟩
  have h1 : (addPartitionAt .debug "x" 3 90 31 (exPart 0 0).partType 0 Uuid.nil Uuid.nil exDisk).1 = .ok 3 := by
    decide +kernel
  exact Prod.ext h1 rfl

theorem addPartitionAt_eq {m : Mode} {name : String} {id : UInt32} {first length : UInt64} {ty : PType} {flags : UInt64}
    {fresh fresh2 : Uuid} {s : GptDisk} (h0 : length ≠ 0) (hid : id ≠ 0) {L : List (UInt64 × UInt64)}
    (hL : (s.findFreeSectors m : Res GptError _) = .ok L) :
    addPartitionAt m name id first length ty flags fresh fresh2 s =
      if (PMap.get s.partitions id).any (·.isUsed) then (.err .partitionIdAlreadyUsed, s)
      else addPartitionAtLoop m name id first length ty flags fresh fresh2 L s := by
  unfold addPartitionAt
  rw [if_neg h0, if_neg hid]
  simp only [M.bind_apply, M.get_apply]
  split
  · rfl
  · simp only [M.bind_apply, M.lift_apply, hL]

theorem any_used_iff {t : PMap} (hs : PMap.Sorted t) (id : UInt32) :
    (PMap.get t id).any (·.isUsed) = true ↔ Spec.Taken t id.toNat := by
  rw [taken_iff hs]
  cases PMap.get t id <;> simp

/-- **C22**, what holds: the id was not in use; the entry is exactly the requested one and the others are as before; and
*some* free extent of that length begins at or before `first`. Missing: that the requested extent itself is free. -/
theorem c22_partial {m : Mode} {name : String} {id id' : UInt32} {first length : UInt64} {ty : PType} {flags : UInt64}
    {fresh fresh2 : Uuid} {s s' : GptDisk} {h : Header}
    (hh : s.tryHeader = .ok h) (hr : Spec.Range h) (ht : Spec.Tidy h s.partitions)
    (hok : addPartitionAt m name id first length ty flags fresh fresh2 s = (.ok id', s')) :
    id' = id ∧ id ≠ 0 ∧ length ≠ 0 ∧ ¬ Spec.Taken s.partitions id.toNat ∧
    (∃ y, y ≤ first.toNat ∧ Spec.FreeExtent h s.partitions y length.toNat) ∧
    (id, ⟨ty, fresh, first, first + length - 1, flags, name⟩) ∈ s'.partitions ∧
    (∀ j q, j ≠ id → ((j, q) ∈ s'.partitions ↔ (j, q) ∈ s.partitions)) ∧
    s'.partitions.Pairwise (fun a b => a.1 < b.1) ∧ s'.device.data = s.device.data := by
  have h0 : length ≠ 0 := by
    rintro rfl; unfold addPartitionAt at hok; rw [if_pos rfl] at hok; simp [M.panic_ok] at hok
  have hid : id ≠ 0 := by
    rintro rfl; unfold addPartitionAt at hok; rw [if_neg h0, if_pos rfl] at hok; simp [M.panic_ok] at hok
  obtain ⟨L, hL, hsec⟩ := findFreeSectors_sections (ε := GptError) m s hh hr ht
  rw [addPartitionAt_eq h0 hid hL] at hok
  split at hok
  · simp at hok
  · rename_i hused
    rw [any_used_iff ht.keys] at hused
    obtain ⟨⟨sec, hs, h1, h2⟩, hins⟩ := addPartitionAtLoop_ok hok
    obtain ⟨hi, hp, _, _, _, hq, _⟩ := insertPartition_ok hins
    have hs' : PMap.Sorted s'.partitions := by rw [hp]; exact PMap.insert_sorted ht.keys _ _
    refine ⟨hi, hid, h0, hused, ⟨sec.1.toNat, h1, hsec.inside hs (Nat.le_refl _) (by omega)⟩, ?_, ?_, hs', hq.data⟩
    · rw [PMap.mem_iff_get hs', hp, PMap.get_insert, if_pos rfl]
    · intro j q hj
      rw [PMap.mem_iff_get hs', PMap.mem_iff_get ht.keys, hp, PMap.get_insert, if_neg hj]

/-- **C22**, the second half: a used id is rejected and nothing changes. -/
theorem c22_used_id {m : Mode} {name : String} {id : UInt32} {first length : UInt64} {ty : PType} {flags : UInt64}
    {fresh fresh2 : Uuid} {s : GptDisk} (hk : s.partitions.Pairwise (fun a b => a.1 < b.1))
    (h0 : length ≠ 0) (hid : id ≠ 0) (htk : Spec.Taken s.partitions id.toNat) :
    addPartitionAt m name id first length ty flags fresh fresh2 s = (.err .partitionIdAlreadyUsed, s) := by
  unfold addPartitionAt
  rw [if_neg h0, if_neg hid]
  simp only [M.bind_apply, M.get_apply]
  rw [if_pos ((any_used_iff hk id).mpr htk)]
  rfl

example : Spec.Taken exDisk.partitions (2 : UInt32).toNat := ⟨2, exPart 60 69, by decide, rfl, by decide⟩

/-- **C22**, completeness: a free extent under a free id is never refused for lack of space; only the partition count can
stand in the way. -/
theorem c22_accepts {m : Mode} {name : String} {id : UInt32} {first length : UInt64} {ty : PType} {flags : UInt64}
    {fresh fresh2 : Uuid} {s : GptDisk} {h : Header} (hh : s.tryHeader = .ok h) (hr : Spec.Range h)
    (ht : Spec.Tidy h s.partitions) (h0 : length ≠ 0) (hid : id ≠ 0) (htk : ¬ Spec.Taken s.partitions id.toNat)
    (hfree : Spec.FreeExtent h s.partitions first.toNat length.toNat) (hcount : id.toNat ≤ h.numParts.toNat)
    (hmin : 128 ≤ h.numParts.toNat) :
    (addPartitionAt m name id first length ty flags fresh fresh2 s).1 = .ok id := by
  have h1 : (1 : UInt64).toNat = 1 := rfl
  have hpos : 1 ≤ length.toNat := by
    rcases Nat.eq_zero_or_pos length.toNat with e | e
    · exact absurd (UInt64.toNat_inj.mp e) h0
    · exact e
  obtain ⟨L, hL, hsec⟩ := findFreeSectors_sections (ε := GptError) m s hh hr ht
  rw [addPartitionAt_eq h0 hid hL, if_neg (fun e => htk ((any_used_iff ht.keys id).mp e))]
  obtain ⟨sec, hs, hy1, hy2⟩ := hsec.extent hpos hfree
  rw [addPartitionAtLoop_accepts ⟨sec, hs, hy1, by omega⟩]
  have hb := hsec.bound sec hs
  have hlast := hr.last
  have hsum : (first + length).toNat = first.toNat + length.toNat := u64_add_toNat (by omega)
  have hch : h.numPartsWouldChange id = false := by
    unfold Header.numPartsWouldChange
    rw [bne_eq_false_iff_eq]
    apply UInt32.toNat_inj.mp
    rw [max32_toNat, max32_toNat, show minNumParts.toNat = 128 from rfl]
    omega
  unfold insertPartition GptDisk.header
  simp only [M.bind_apply, M.lift_apply, M.get_apply]
  rw [add64_eq m (by omega)]
  simp only
  rw [sub64_eq m (by omega)]
  simp only [hh, hch, Bool.false_and, Bool.false_eq_true, if_false, M.bind_apply, M.modify_apply, M.pure_apply]

example : Spec.FreeExtent exHeader exDisk.partitions 50 10 := by
  intro x h1 h2
  refine ⟨by have : exHeader.firstUsable.toNat = 34 := rfl; omega, by have : exHeader.lastUsable.toNat = 100 := rfl; omega, ?_⟩
  intro p hp hc
  have e2 : (exPart 40 49).lastLba.toNat = 49 := rfl
  have e3 : (exPart 60 69).firstLba.toNat = 60 := rfl
  unfold Spec.Covers at hc
  rcases exTable_used hp with rfl | rfl <;> omega

/-! ## C63: wrap-around in the alignment -/

/-- **C63**, the claim: the entry `add_partition` makes covers blocks that were free. -/
def C63 : Prop := ∀ (m : Mode) (name : String) (size : UInt64) (ty : PType) (flags : UInt64) (align : Option UInt64)
    (fresh fresh2 : Uuid) (s s' : GptDisk) (id : UInt32) (h : Header) (p : Partition), s.tryHeader = .ok h →
    Spec.Range h → Spec.Tidy h s.partitions →
    addPartition m name size ty flags align fresh fresh2 s = (.ok id, s') → (id, p) ∈ s'.partitions →
    p.firstLba.toNat ≤ p.lastLba.toNat ∧ ∀ x, Spec.Covers p x → Spec.Free h s.partitions x

/-- The claim is false in release builds: with an alignment of `2^64 - 1`, `alignment_offset_lba + size_lba` wraps to 0,
which fits everywhere, and the partition is placed at block `2^64 - 1` with a last block of 33. -/
theorem c63_fails : ¬ C63 := by
  intro hC
  have h1 : (addPartition .release "x" 17920 (exPart 0 0).partType 0 (some 0xFFFFFFFFFFFFFFFF) Uuid.nil Uuid.nil exDisk).1 =
      .ok 3 := by decide +kernel
  have h2 : (3, { exPart 0xFFFFFFFFFFFFFFFF 33 with partGuid := Uuid.nil, name := "x" }) ∈
      (addPartition .release "x" 17920 (exPart 0 0).partType 0 (some 0xFFFFFFFFFFFFFFFF) Uuid.nil Uuid.nil exDisk).2.partitions := by
    decide +kernel
  have := (hC _ _ _ _ _ _ _ _ _ _ _ _ _ rfl exHeader_range exTable_tidy (Prod.ext h1 rfl) h2).1
  exact absurd this (by decide)

/-- The same call shows that C19 and C20 are false in release builds: the place is not free. -/
theorem c19_fails : ¬ C19 := by
  intro hC
  have h1 : (addPartition .release "x" 17920 (exPart 0 0).partType 0 (some 0xFFFFFFFFFFFFFFFF) Uuid.nil Uuid.nil exDisk).1 =
      .ok 3 := by decide +kernel
  have h2 : (3, { exPart 0xFFFFFFFFFFFFFFFF 33 with partGuid := Uuid.nil, name := "x" }) ∈
      (addPartition .release "x" 17920 (exPart 0 0).partType 0 (some 0xFFFFFFFFFFFFFFFF) Uuid.nil Uuid.nil exDisk).2.partitions := by
    decide +kernel
  obtain ⟨-, -, ⟨p, n, hm, -, -, -, -, -, hn, he, -⟩, -, hs, -⟩ :=
    hC _ _ _ _ _ _ _ _ _ _ _ _ rfl exHeader_range exTable_tidy (Prod.ext h1 rfl)
  have e1 := PMap.get_of_mem hs hm
  rw [PMap.get_of_mem hs h2] at e1
  obtain rfl := Option.some.inj e1
  have e2 : (0xFFFFFFFFFFFFFFFF : UInt64).toNat = 18446744073709551615 := rfl
  have e3 : (33 : UInt64).toNat = 33 := rfl
  change (33 : UInt64).toNat + 1 = (0xFFFFFFFFFFFFFFFF : UInt64).toNat + n at he
  omega

theorem c20_fails : ¬ C20 := by
  intro hC
  have h1 : (addPartition .release "x" 17920 (exPart 0 0).partType 0 (some 0xFFFFFFFFFFFFFFFF) Uuid.nil Uuid.nil exDisk).1 =
      .ok 3 := by decide +kernel
  have h2 : (3, { exPart 0xFFFFFFFFFFFFFFFF 33 with partGuid := Uuid.nil, name := "x" }) ∈
      (addPartition .release "x" 17920 (exPart 0 0).partType 0 (some 0xFFFFFFFFFFFFFFFF) Uuid.nil Uuid.nil exDisk).2.partitions := by
    decide +kernel
  have hj : Spec.JustEnough exDisk.config.lbSize 17920 35 :=
    ⟨by decide, fun j hj => by have : exDisk.config.lbSize.usize = 512 := rfl; rw [this] at hj; omega⟩
  obtain ⟨hf, -⟩ := hC _ _ _ _ _ _ _ _ _ _ _ _ _ _ rfl exHeader_range exTable_tidy (Prod.ext h1 rfl) h2 hj
  have := (hf 18446744073709551615 (by decide) (by decide)).2.1
  exact absurd this (by decide)

/-- **C63**, what holds: with overflow checks, or with an alignment up to `2^63`, no wrap-around happens. Missing: release
builds with a larger alignment. -/
theorem c63_partial {m : Mode} {name : String} {size : UInt64} {ty : PType} {flags : UInt64} {align : Option UInt64}
    {fresh fresh2 : Uuid} {s s' : GptDisk} {id : UInt32} {h : Header} {p : Partition} (hh : s.tryHeader = .ok h)
    (hr : Spec.Range h) (ht : Spec.Tidy h s.partitions) (hm : m = .debug ∨ ∀ a, align = some a → a.toNat ≤ 2 ^ 63)
    (hok : addPartition m name size ty flags align fresh fresh2 s = (.ok id, s')) (hp : (id, p) ∈ s'.partitions) :
    p.firstLba.toNat ≤ p.lastLba.toNat ∧ ∀ x, Spec.Covers p x → Spec.Free h s.partitions x := by
  obtain ⟨h0, ha, hpick, start, n, hn1, hfree, hal, _, hend, hins⟩ := addPartition_ok hh hr ht hm hok
  obtain ⟨_, hpp, _⟩ := insertPartition_ok hins
  have hs' : PMap.Sorted s'.partitions := by rw [hpp]; exact PMap.insert_sorted ht.keys _ _
  rw [PMap.mem_iff_get hs', hpp, PMap.get_insert, if_pos rfl] at hp
  obtain rfl := Option.some.inj hp
  have hlast := hr.last
  have h1 : (1 : UInt64).toNat = 1 := rfl
  have hpos : 1 ≤ n.toNat := by rw [hn1]; exact Nat.le_add_left 1 _
  have hsum : (start + n).toNat = start.toNat + n.toNat := u64_add_toNat (by omega)
  have hl : (start + n - 1).toNat = start.toNat + n.toNat - 1 := by rw [u64_sub_toNat (by omega), hsum, h1]
  unfold Spec.Covers
  simp only [hl]
  exact ⟨by omega, fun x hx => hfree x hx.1 (by omega)⟩

end Gpt
