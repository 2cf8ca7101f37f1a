import Verif.Props.Session
import Verif.Props.Disjoint
import Mathlib.Order.Interval.Finset.Nat
import Mathlib.Data.Finset.Card
/-!
# Counting blocks: C123
-/

namespace Gpt

open Spec GptDisk

/-- The number of blocks of a partition. -/
def Spec.blocks (p : Partition) : Nat := p.lastLba.toNat + 1 - p.firstLba.toNat

/-- The number of blocks in a list of sections. -/
def Spec.total (L : List (UInt64 × UInt64)) : Nat := (L.map fun x => x.2.toNat).sum

/-- Disjoint intervals have as many members as their lengths say. -/
theorem intervals_card (L : List (Nat × Nat)) (hp : L.Pairwise fun a b => a.1 + a.2 ≤ b.1 ∨ b.1 + b.2 ≤ a.1) (S : Finset Nat)
    (hS : ∀ x, x ∈ S ↔ ∃ i ∈ L, i.1 ≤ x ∧ x < i.1 + i.2) : S.card = (L.map Prod.snd).sum := by
  classical
  induction L generalizing S with
  | nil =>
    have : S = ∅ := Finset.eq_empty_of_forall_notMem fun x hx => by
      obtain ⟨i, hi, -⟩ := (hS x).mp hx
      exact absurd hi (List.not_mem_nil)
    rw [this]; rfl
  | cons a L ih =>
    obtain ⟨h1, h2⟩ := List.pairwise_cons.mp hp
    have e := ih h2 (S \ Finset.Ico a.1 (a.1 + a.2)) fun x => by
      rw [Finset.mem_sdiff, Finset.mem_Ico, hS]
      constructor
      · rintro ⟨⟨i, hi, hx⟩, hn⟩
        rcases List.mem_cons.mp hi with rfl | hi
        · exact absurd hx hn
        · exact ⟨i, hi, hx⟩
      · rintro ⟨i, hi, hx⟩
        refine ⟨⟨i, List.mem_cons_of_mem _ hi, hx⟩, fun hc => ?_⟩
        have := h1 i hi
        omega
    have hsub : Finset.Ico a.1 (a.1 + a.2) ⊆ S := fun x hx => by
      rw [Finset.mem_Ico] at hx
      exact (hS x).mpr ⟨a, List.mem_cons_self .., hx⟩
    have hc := Finset.card_sdiff_add_card_eq_card hsub
    rw [e, Nat.card_Ico, Nat.add_sub_cancel_left] at hc
    rw [List.map_cons, List.sum_cons, ← hc, Nat.add_comm]

theorem used_mem {t : PMap} {p : Partition} (hp : p ∈ Spec.used t) : Used t p := by
  obtain ⟨h1, h2⟩ := List.mem_filter.mp hp
  obtain ⟨e, he, rfl⟩ := List.mem_map.mp h1
  exact ⟨e.1, he, by simpa using h2⟩

theorem mem_used {t : PMap} {p : Partition} (hp : Used t p) : p ∈ Spec.used t := by
  obtain ⟨i, h1, h2⟩ := hp
  exact List.mem_filter.mpr ⟨List.mem_map.mpr ⟨(i, p), h1, rfl⟩, by simpa using h2⟩

theorem used_apart {h : Header} {t : PMap} (ht : Tidy h t) :
    (Spec.used t).Pairwise fun a b => a.lastLba.toNat < b.firstLba.toNat ∨ b.lastLba.toNat < a.firstLba.toNat := by
  unfold Spec.used
  rw [List.pairwise_filter, List.pairwise_map]
  refine ht.keys.imp_of_mem fun {a b} ha hb hab h1 h2 => ?_
  have hu1 : a.2.partType.guid ≠ Uuid.nil := by simpa using h1
  have hu2 : b.2.partType.guid ≠ Uuid.nil := by simpa using h2
  have hne : a.1 ≠ b.1 := fun e => by rw [e] at hab; exact absurd hab (UInt32.lt_irrefl _)
  have q := ht.apart a.1 b.1 a.2 b.2 ha hb hne hu1 hu2
  have o1 := ht.order a.2 ⟨a.1, ha, hu1⟩
  have o2 := ht.order b.2 ⟨b.1, hb, hu2⟩
  by_contra hc
  refine q (max a.2.firstLba.toNat b.2.firstLba.toNat) ⟨⟨?_, ?_⟩, ⟨?_, ?_⟩⟩ <;> omega

/-- The members of sections are their total. -/
theorem sections_card {h : Header} {t : PMap} {L : List (UInt64 × UInt64)} (hs : Sections h t L) (S : Finset Nat)
    (hS : ∀ x, x ∈ S ↔ Free h t x) : S.card = total L := by
  have e := intervals_card (L.map fun x => (x.1.toNat, x.2.toNat)) (List.pairwise_map.mpr (hs.apart.imp ?_)) S fun x => ?_
  · rw [e, List.map_map]; rfl
  · rintro a b ⟨p, -, h1, h2, h3⟩
    left
    show a.1.toNat + a.2.toNat ≤ b.1.toNat
    omega
  · rw [hS, ← hs.covers]
    constructor
    · rintro ⟨sec, h1, h2⟩
      exact ⟨_, List.mem_map.mpr ⟨sec, h1, rfl⟩, h2⟩
    · rintro ⟨i, hi, h2⟩
      obtain ⟨sec, h1, rfl⟩ := List.mem_map.mp hi
      exact ⟨sec, h1, h2⟩

/-- The free blocks as a finite set. -/
theorem free_finset (h : Header) (t : PMap) : ∃ S : Finset Nat, ∀ x, x ∈ S ↔ Free h t x := by
  classical
  refine ⟨(Finset.range (h.lastUsable.toNat + 1)).filter fun x => Free h t x, fun x => ?_⟩
  rw [Finset.mem_filter, Finset.mem_range]
  exact ⟨fun h => h.2, fun h => ⟨by have := h.2.1; omega, h⟩⟩

theorem sections_sum {h : Header} {t : PMap} {L : List (UInt64 × UInt64)} (hs : Sections h t L) (ht : Tidy h t) :
    total L + ((Spec.used t).map blocks).sum = h.lastUsable.toNat + 1 - h.firstUsable.toNat := by
  have e := intervals_card (L.map (fun x => (x.1.toNat, x.2.toNat)) ++ (Spec.used t).map fun p => (p.firstLba.toNat, blocks p)) ?_
    (Finset.Ico h.firstUsable.toNat (h.lastUsable.toNat + 1)) fun x => ?_
  · rw [Nat.card_Ico, List.map_append, List.sum_append, List.map_map, List.map_map] at e
    exact e.symm
  · refine List.pairwise_append.mpr ⟨List.pairwise_map.mpr (hs.apart.imp ?_), List.pairwise_map.mpr ((used_apart ht).imp_of_mem ?_), ?_⟩
    · rintro a b ⟨p, -, h1, h2, h3⟩
      left
      show a.1.toNat + a.2.toNat ≤ b.1.toNat
      omega
    · intro a b ha hb hab
      have o1 := ht.order a (used_mem ha)
      have o2 := ht.order b (used_mem hb)
      show a.firstLba.toNat + (a.lastLba.toNat + 1 - a.firstLba.toNat) ≤ b.firstLba.toNat ∨
        b.firstLba.toNat + (b.lastLba.toNat + 1 - b.firstLba.toNat) ≤ a.firstLba.toNat
      omega
    · intro a ha b hb
      obtain ⟨sec, hsec, rfl⟩ := List.mem_map.mp ha
      obtain ⟨p, hp, rfl⟩ := List.mem_map.mp hb
      have o := ht.order p (used_mem hp)
      have hne := hs.nonempty sec hsec
      show sec.1.toNat + sec.2.toNat ≤ p.firstLba.toNat ∨ p.firstLba.toNat + (p.lastLba.toNat + 1 - p.firstLba.toNat) ≤ sec.1.toNat
      by_contra hc
      have hx : InSect sec (max sec.1.toNat p.firstLba.toNat) := by unfold InSect; omega
      refine ((hs.covers _).mp ⟨sec, hsec, hx⟩).2.2 p (used_mem hp) ⟨?_, ?_⟩ <;> omega
  · rw [Finset.mem_Ico]
    constructor
    · rintro ⟨h1, h2⟩
      by_cases hf : Free h t x
      · obtain ⟨sec, hsec, hx⟩ := (hs.covers x).mpr hf
        exact ⟨_, List.mem_append_left _ (List.mem_map.mpr ⟨sec, hsec, rfl⟩), hx⟩
      · have : ∃ p, Used t p ∧ Covers p x := by
          by_contra hc
          exact hf ⟨h1, by omega, fun p hp hcov => hc ⟨p, hp, hcov⟩⟩
        obtain ⟨p, hp, hc⟩ := this
        refine ⟨_, List.mem_append_right _ (List.mem_map.mpr ⟨p, mem_used hp, rfl⟩), hc.1, ?_⟩
        have := hc.2
        have := hc.1
        show x < p.firstLba.toNat + (p.lastLba.toNat + 1 - p.firstLba.toNat)
        omega
    · rintro ⟨i, hi, hx⟩
      rcases List.mem_append.mp hi with hi | hi
      · obtain ⟨sec, hsec, rfl⟩ := List.mem_map.mp hi
        have hf := (hs.covers x).mp ⟨sec, hsec, hx⟩
        exact ⟨hf.1, by have := hf.2.1; omega⟩
      · obtain ⟨p, hp, rfl⟩ := List.mem_map.mp hi
        have hx : p.firstLba.toNat ≤ x ∧ x < p.firstLba.toNat + (p.lastLba.toNat + 1 - p.firstLba.toNat) := hx
        have := ht.inside p (used_mem hp)
        have := ht.order p (used_mem hp)
        omega

theorem countP_lt {α : Type} {P Q : α → Bool} {l : List α} (h : ∀ x ∈ l, Q x = true → P x = true) {p : α} (hp : p ∈ l) (h1 : P p = true)
    (h2 : Q p = false) : l.countP Q < l.countP P := by
  induction l with
  | nil => exact absurd hp List.not_mem_nil
  | cons a l ih =>
    have hmono : l.countP Q ≤ l.countP P := List.countP_mono_left fun x hx => h x (List.mem_cons_of_mem _ hx)
    rw [List.countP_cons, List.countP_cons]
    rcases List.mem_cons.mp hp with rfl | hp
    · rw [h1, h2]; simp; omega
    · have := ih (fun x hx => h x (List.mem_cons_of_mem _ hx)) hp
      have h3 := h a (List.mem_cons_self ..)
      by_cases hq : Q a = true
      · rw [hq, h3 hq]; simp; omega
      · simp only [Bool.not_eq_true] at hq
        rw [hq]; simp; omega

/-- Between two sections lies a partition. -/
theorem sections_length {U : List Partition} : ∀ {L : List (UInt64 × UInt64)},
    L.Pairwise (fun a b => ∃ p, p ∈ U ∧ a.1.toNat + a.2.toNat ≤ p.firstLba.toNat ∧ p.firstLba.toNat < b.1.toNat) → ∀ a ∈ L.head?,
    L.length ≤ U.countP (fun p => decide (a.1.toNat ≤ p.firstLba.toNat)) + 1
  | [], _, _, h => nomatch h
  | [a], _, _, _ => Nat.succ_le_succ (Nat.zero_le _)
  | a :: b :: L, hp, _, rfl => by
    obtain ⟨h1, h2⟩ := List.pairwise_cons.mp hp
    obtain ⟨p, hpU, h3, h4⟩ := h1 b (List.mem_cons_self ..)
    have ih := sections_length h2 b rfl
    have := countP_lt (l := U) (P := fun p => decide (a.1.toNat ≤ p.firstLba.toNat)) (Q := fun p => decide (b.1.toNat ≤ p.firstLba.toNat))
      (fun x _ hx => by
        have hx := of_decide_eq_true hx
        have : a.1.toNat ≤ b.1.toNat := by omega
        exact decide_eq_true (by omega)) hpU (decide_eq_true (by omega)) (decide_eq_false (by omega))
    rw [List.length_cons]
    omega

/-- **C123**, one table. -/
theorem c123_sum (m : Mode) (s : GptDisk) {h : Header} (hh : s.tryHeader = .ok h) (hr : Spec.Range h) (ht : Tidy h s.partitions) :
    ∃ L, (s.findFreeSectors m : Res GptError _) = .ok L ∧
      total L + ((Spec.used s.partitions).map blocks).sum = h.lastUsable.toNat + 1 - h.firstUsable.toNat ∧
      L.length ≤ (Spec.used s.partitions).length + 1 := by
  obtain ⟨L, hL, hs⟩ := findFreeSectors_sections (ε := GptError) m s hh hr ht
  refine ⟨L, hL, sections_sum hs ht, ?_⟩
  cases hl : L with
  | nil => exact Nat.zero_le _
  | cons a L' =>
    have hp := hs.apart
    rw [hl] at hp
    have := sections_length (U := Spec.used s.partitions) (L := a :: L') (hp.imp fun {a b} h => by
      obtain ⟨p, h1, h2, h3, h4⟩ := h
      exact ⟨p, mem_used h1, h2, by omega⟩) a rfl
    exact this.trans (Nat.succ_le_succ List.countP_le_length)

theorem sum_le {l : List Nat} {n : Nat} (h : ∀ x ∈ l, x ≤ n) : l.sum ≤ l.length * n := by
  induction l with
  | nil => exact Nat.zero_le _
  | cons a l ih =>
    have h1 := h a (List.mem_cons_self ..)
    have h2 := ih fun x hx => h x (List.mem_cons_of_mem _ hx)
    rw [List.sum_cons, List.length_cons, Nat.add_mul, Nat.one_mul]
    omega

/-- **C123**, what is certain to fit: of more than `(n - 1) * (u + 1)` free blocks around `u` partitions, `n` are next to each other. -/
theorem c123_fits (m : Mode) (s : GptDisk) {h : Header} (hh : s.tryHeader = .ok h) (hr : Spec.Range h) (ht : Tidy h s.partitions) {n : Nat}
    (hn : 1 ≤ n) {L : List (UInt64 × UInt64)} (hL : (s.findFreeSectors m : Res GptError _) = .ok L)
    (hbig : (n - 1) * ((Spec.used s.partitions).length + 1) < total L) : ∃ a, FreeExtent h s.partitions a n := by
  obtain ⟨L', hL', hs⟩ := findFreeSectors_sections (ε := GptError) m s hh hr ht
  obtain rfl : L' = L := Res.ok.inj (hL'.symm.trans hL)
  obtain ⟨L2, hL2, -, hlen⟩ := c123_sum m s hh hr ht
  obtain rfl : L2 = L' := Res.ok.inj (hL2.symm.trans hL)
  by_contra hc
  have hall : ∀ x ∈ L2.map (fun x => x.2.toNat), x ≤ n - 1 := by
    intro x hx
    obtain ⟨sec, hsec, rfl⟩ := List.mem_map.mp hx
    by_contra hgt
    refine hc ⟨sec.1.toNat, fun x h1 h2 => (hs.covers x).mp ⟨sec, hsec, h1, by omega⟩⟩
  have h1 := sum_le hall
  rw [List.length_map, Nat.mul_comm] at h1
  have h2 : (n - 1) * L2.length ≤ (n - 1) * ((Spec.used s.partitions).length + 1) := Nat.mul_le_mul_left _ hlen
  unfold total at hbig
  omega

theorem total_extent {h : Header} {t t' : PMap} {L L' : List (UInt64 × UInt64)} (hs : Sections h t L) (hs' : Sections h t' L') {a n : Nat}
    (hf : FreeExtent h t a n) (hx : ∀ x, Free h t' x ↔ Free h t x ∧ ¬ (a ≤ x ∧ x < a + n)) : total L = total L' + n := by
  classical
  obtain ⟨S, hS⟩ := free_finset h t
  have h1 := sections_card hs S hS
  have h2 := sections_card hs' (S \ Finset.Ico a (a + n)) fun x => by rw [Finset.mem_sdiff, Finset.mem_Ico, hS, hx]
  have hsub : Finset.Ico a (a + n) ⊆ S := fun x hx => by
    rw [Finset.mem_Ico] at hx
    exact (hS x).mpr (hf x hx.1 hx.2)
  have hc := Finset.card_sdiff_add_card_eq_card hsub
  rw [h1, h2, Nat.card_Ico, Nat.add_sub_cancel_left] at hc
  exact hc.symm

theorem put_eq {t t' : PMap} {id : UInt32} {p : Partition} (hs : PMap.Sorted t) (hp : Put t t' id p) : t' = PMap.insert id p t := by
  refine PMap.ext hp.keys (PMap.insert_sorted hs id p) fun k => ?_
  rw [PMap.get_insert]
  split
  · rename_i e
    rw [e]
    exact PMap.get_of_mem hp.keys hp.new
  · rename_i e
    refine Option.ext fun q => ?_
    rw [← PMap.mem_iff_get hp.keys, ← PMap.mem_iff_get hs]
    exact hp.others k q e

/-- **C123**, adding takes exactly the blocks of the new partition. -/
theorem c123_add (m : Mode) (name : String) (size : UInt64) (ty : PType) (flags : UInt64) (align : Option UInt64) (fresh fresh2 : Uuid)
    (s s' : GptDisk) (id : UInt32) (h : Header) (hh : s.tryHeader = .ok h) (hr : Spec.Range h) (ht : Tidy h s.partitions)
    (hal : ∀ a, align = some a → a.toNat ≤ 2 ^ 63) (hn : h.numParts.toNat < 2 ^ 32 - 1) (hc : s.config.changePartitionCount = false)
    (hty : ty.guid ≠ Uuid.nil) (hok : addPartition m name size ty flags align fresh fresh2 s = (.ok id, s')) {n : Nat}
    (hj : JustEnough s.config.lbSize size.toNat n) :
    ∃ L L', (s.findFreeSectors m : Res GptError _) = .ok L ∧ (s'.findFreeSectors m : Res GptError _) = .ok L' ∧ total L = total L' + n := by
  have ha := c77_add_partition m name size ty flags align fresh fresh2 s h hh hr ht hal hn
  rw [hok] at ha
  obtain ⟨L, hL, hs⟩ := findFreeSectors_sections (ε := GptError) m s hh hr ht
  cases ha with
  | insert start n' _ _ _ h0 h1 h2 h3 h4 h5 h6 h7 =>
    obtain rfl : n'.toNat = n := justEnough_unique h2 hj
    cases h7 with
    | rebuilt _ _ _ _ hx => rw [hc] at hx; cases hx
    | failed _ _ _ _ _ hx => rw [hc] at hx; cases hx
    | fits t hfit hput =>
      have hid : ¬ Taken s.partitions id.toNat := h6.2.2.1 (by omega)
      have hn1 : 1 ≤ n'.toNat := by
        rcases Nat.eq_zero_or_pos n'.toNat with e | e
        · have := hj.enough
          rw [e, Nat.zero_mul] at this
          exact absurd (UInt64.toNat_inj.mp (Nat.le_zero.mp this)) h0
        · exact e
      have hlast : (start + n' - 1).toNat + 1 = start.toNat + n'.toNat := by
        have f := (h4 (start.toNat + n'.toNat - 1) (by omega) (by omega)).2.1
        have := h.lastUsable.toNat_lt
        have hl := hr.last
        have e1 : (start + n').toNat = start.toNat + n'.toNat := by rw [UInt64.toNat_add, Nat.mod_eq_of_lt (by omega)]
        have e2 : (1 : UInt64) ≤ start + n' := by rw [UInt64.le_iff_toNat_le, e1]; show 1 ≤ _; omega
        rw [UInt64.toNat_sub_of_le _ _ e2, e1]
        show _ - 1 + 1 = _
        omega
      have et := put_eq ht.keys hput
      have ht' : Tidy h t := by rw [et]; exact tidy_insert ht h4 hn1 rfl hlast
      obtain ⟨L', hL', hs'⟩ := findFreeSectors_sections (ε := GptError) m { s with partitions := t } (h := h) hh hr ht'
      refine ⟨L, L', hL, hL', total_extent hs hs' h4 fun x => ?_⟩
      show Free h t x ↔ _
      rw [et]
      have hcov : Covers ⟨ty, fresh, start, start + n' - 1, flags, name⟩ x ↔ start.toNat ≤ x ∧ x < start.toNat + n'.toNat := by
        show start.toNat ≤ x ∧ x ≤ (start + n' - 1).toNat ↔ _
        omega
      constructor
      · rintro ⟨g1, g2, g3⟩
        refine ⟨⟨g1, g2, fun q hq hc => ?_⟩, fun hx => g3 _ ((used_insert ht.keys).mpr (.inl ⟨rfl, hty⟩)) (hcov.mpr hx)⟩
        obtain ⟨i, hi, hu⟩ := hq
        refine g3 q ((used_insert ht.keys).mpr (.inr ⟨i, fun e => hid ⟨i, q, hi, by rw [e], hu⟩, hi, hu⟩)) hc
      · rintro ⟨⟨g1, g2, g3⟩, hx⟩
        refine ⟨g1, g2, fun q hq hc => ?_⟩
        rcases (used_insert ht.keys).mp hq with ⟨rfl, -⟩ | ⟨i, -, hm, hu⟩
        · exact hx (hcov.mp hc)
        · exact g3 q ⟨i, hm, hu⟩ hc

/-- **C123**, removing gives back exactly the blocks of the partition. -/
theorem c123_remove (m : Mode) (s : GptDisk) {h : Header} (hh : s.tryHeader = .ok h) (hr : Spec.Range h) (ht : Tidy h s.partitions)
    {id : UInt32} {p : Partition} (hm : (id, p) ∈ s.partitions) (hu : p.partType.guid ≠ Uuid.nil) :
    ∃ s' L L', (removePartition id s : Res GptError _ × _) = (.ok (some id), s') ∧ (s.findFreeSectors m : Res GptError _) = .ok L ∧
      (s'.findFreeSectors m : Res GptError _) = .ok L' ∧ total L' = total L + blocks p := by
  obtain ⟨s', e, hh', ht', hf⟩ := c26_remove_frees hh ht hm hu
  obtain ⟨L, hL, hs⟩ := findFreeSectors_sections (ε := GptError) m s hh hr ht
  obtain ⟨L', hL', hs'⟩ := findFreeSectors_sections (ε := GptError) m s' hh' hr ht'
  have ho := ht.order p ⟨id, hm, hu⟩
  have hcov : ∀ x, Covers p x ↔ p.firstLba.toNat ≤ x ∧ x < p.firstLba.toNat + blocks p := fun x => by
    unfold Covers blocks
    omega
  refine ⟨s', L, L', e, hL, hL', total_extent hs' hs (a := p.firstLba.toNat) (fun x h1 h2 => (hf x).mpr (.inr ((hcov x).mpr ⟨h1, h2⟩))) fun x => ?_⟩
  rw [hf, ← hcov]
  constructor
  · intro hx
    exact ⟨.inl hx, hx.2.2 p ⟨id, hm, hu⟩⟩
  · rintro ⟨hx | hx, hn⟩
    · exact hx
    · exact absurd hx hn

/-- **C123**, at any time in a session: free and used blocks are all blocks of the device but the first, the two headers and the two arrays. -/
theorem c123_session {m : Mode} {cfg : GptConfig} {k : Nat} {d : Dev} {s : GptDisk} (hs : InSession m cfg k d s) :
    ∃ L, (s.findFreeSectors m : Res GptError _) = .ok L ∧
      total L + ((Spec.used s.partitions).map blocks).sum + 2 * k + 3 = d.data.length / cfg.lbSize.usize ∧
      L.length ≤ (Spec.used s.partitions).length + 1 := by
  obtain ⟨B, h, hB, hkB, hB51, v⟩ := hs.sound
  have h1 := v.first
  have h2 := v.last
  obtain ⟨L, hL, e, hl⟩ := c123_sum m s (header_try v.sane.header) ⟨by omega, by omega, by omega⟩ v.table
  exact ⟨L, hL, by omega, hl⟩

/-- **C123**, in a session: with a free id, `add_partition` without alignment succeeds if there are more than `(n - 1) * (u + 1)` free
blocks, `u` being the number of partitions and `n` the number of blocks asked for. -/
theorem c123_room {m : Mode} {cfg : GptConfig} {k : Nat} {d : Dev} {s : GptDisk} (hs : InSession m cfg k d s) (name : String) (size : UInt64)
    (ty : PType) (flags : UInt64) (fresh fresh2 : Uuid) (h0 : size ≠ 0) {n : Nat} (hn : JustEnough cfg.lbSize size.toNat n)
    {L : List (UInt64 × UInt64)} (hL : (s.findFreeSectors m : Res GptError _) = .ok L)
    (hbig : (n - 1) * ((Spec.used s.partitions).length + 1) < total L) {i : Nat} (hi1 : 1 ≤ i) (hi2 : i ≤ 128) (hi : ¬ Taken s.partitions i) :
    ∃ id s', addPartition m name size ty flags none fresh fresh2 s = (.ok id, s') := by
  obtain ⟨-, -, hadd⟩ := c82_add hs name size ty flags none fresh fresh2 h0 (fun _ h => nomatch h) hn
  obtain ⟨B, h, hB, hkB, hB51, v⟩ := hs.sound
  have h1 := v.first
  have h2 := v.last
  have hn1 : 1 ≤ n := by
    rcases Nat.eq_zero_or_pos n with e | e
    · have := hn.enough
      rw [e, Nat.zero_mul] at this
      exact absurd (UInt64.toNat_inj.mp (Nat.le_zero.mp this)) h0
    · exact e
  obtain ⟨a, ha⟩ := c123_fits m s (header_try v.sane.header) ⟨by omega, by omega, by omega⟩ v.table hn1 hL hbig
  have hvac : ∃ y, Vacant (d.data.length / cfg.lbSize.usize) k s.partitions y n := by
    refine ⟨a, ?_, ?_, fun p hp x hx1 hx2 => (ha x hx1 hx2).2.2 p hp⟩
    · have := (ha a (Nat.le_refl _) (by omega)).1
      omega
    · have := (ha (a + n - 1) (by omega) (by omega)).2.1
      omega
  classical
  have hex : ∃ i, 1 ≤ i ∧ i ≤ 128 ∧ ¬ Taken s.partitions i := ⟨i, hi1, hi2, hi⟩
  obtain ⟨g1, g2, g3⟩ := Nat.find_spec hex
  obtain ⟨id, t, p, -, e, -⟩ := hadd (Nat.find hvac) (Nat.find hex) (fun _ h => nomatch h) (Nat.find_spec hvac)
    (fun y' hy _ hv => Nat.find_min hvac hy hv) g1 g2 g3 fun j hj1 hj2 => by
      by_contra hc
      exact Nat.find_min hex hj2 ⟨hj1, by omega, hc⟩
  exact ⟨id, _, e⟩

/-! ## The hypotheses are met -/

/-- `c123_sum` on the example table: 47 free blocks and 20 used ones are the 67 usable blocks 34 to 100. -/
example : total [(34, 6), (50, 10), (70, 31)] = 47 ∧ ((Spec.used exDisk.partitions).map blocks) = [10, 10] ∧ 47 + 20 = 100 + 1 - 34 := by
  decide +kernel

/-- `c123_fits`: 47 free blocks and 2 partitions leave room for 16 blocks, since `15 * 3 < 47`. -/
example : ∃ a, FreeExtent exHeader exDisk.partitions a 16 :=
  c123_fits .debug exDisk rfl exHeader_range exTable_tidy (n := 16) (by decide) (L := [(34, 6), (50, 10), (70, 31)]) (by decide +kernel)
    (by decide +kernel)

/-- The bound is not met by 17 blocks: `16 * 3 > 47`. -/
example : ¬ (17 - 1) * ((Spec.used exDisk.partitions).length + 1) < total [(34, 6), (50, 10), (70, 31)] := by decide +kernel

/-- `c123_add`: ten blocks are added, and 37 are free afterwards. -/
example : (addPartition .debug "new" 5000 (exPart 0 0).partType 0 (some 8) ⟨0, 0, 0, 8⟩ Uuid.nil exDisk).1 = .ok 3 ∧
    (((addPartition .debug "new" 5000 (exPart 0 0).partType 0 (some 8) ⟨0, 0, 0, 8⟩ Uuid.nil exDisk).2).findFreeSectors .debug : Res GptError _) =
      .ok [(34, 6), (50, 10), (70, 2), (82, 19)] ∧ total [(34, 6), (50, 10), (70, 2), (82, 19)] = 37 := by
  decide +kernel

/-- `c123_remove`: the ten blocks of partition 1 are free afterwards. -/
example : ∃ s' L L', (removePartition 1 exDisk : Res GptError _ × _) = (.ok (some 1), s') ∧ (exDisk.findFreeSectors .debug : Res GptError _) = .ok L ∧
    (s'.findFreeSectors .debug : Res GptError _) = .ok L' ∧ total L' = total L + 10 :=
  c123_remove .debug exDisk rfl exHeader_range exTable_tidy (id := 1) (p := exPart 40 49) (by decide) (by decide)

/-- `c123_session`: a device of 100 blocks with one partition of two blocks has 31 free blocks. -/
example (m : Mode) : ∃ L, ((sessDisk m).findFreeSectors m : Res GptError _) = .ok L ∧ total L = 31 := by
  obtain ⟨L, hL, e, -⟩ := c123_session (sessDisk_session m)
  refine ⟨L, hL, ?_⟩
  have h1 : ((Spec.used (sessDisk m).partitions).map blocks).sum = 2 := by rw [sessDisk_partitions]; decide
  have h2 : dev100.data.length / (GptConfig.new.setWritable true).lbSize.usize = 100 := by rw [dev100_length]; rfl
  omega

/-- `c123_room`: there, 16 blocks can be added since `15 * 2 < 31`. -/
example (m : Mode) : ∃ id s', addPartition m "b" 8192 (exPart 0 0).partType 0 none Uuid.nil Uuid.nil (sessDisk m) = (.ok id, s') := by
  obtain ⟨L, hL, e, -⟩ := c123_session (sessDisk_session m)
  have h1 : ((Spec.used (sessDisk m).partitions).map blocks).sum = 2 := by rw [sessDisk_partitions]; decide
  have h3 : (Spec.used (sessDisk m).partitions).length = 1 := by rw [sessDisk_partitions]; decide
  have h2 : dev100.data.length / (GptConfig.new.setWritable true).lbSize.usize = 100 := by rw [dev100_length]; rfl
  refine c123_room (sessDisk_session m) "b" 8192 _ 0 Uuid.nil Uuid.nil (by decide) (n := 16) ⟨by decide, fun j hj => ?_⟩ hL (by rw [h3]; omega)
    (i := 2) (by decide) (by decide) ?_
  · change 8192 ≤ j * 512 at hj
    omega
  · rintro ⟨i, p, hm, e, -⟩
    rw [sessDisk_partitions] at hm
    cases List.mem_singleton.mp hm
    exact absurd e (by decide)

end Gpt
