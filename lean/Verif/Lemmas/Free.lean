import Verif.Lemmas.PMap
import Mathlib.Data.List.Sort
/-!
# `find_free_sectors` computes the gaps between the used partitions
-/

namespace Gpt
open GptDisk

/-! ## The sort -/

theorem insertSorted_perm (x : UInt64) (l : List UInt64) : (insertSorted x l).Perm (x :: l) := by
  induction l with
  | nil => exact List.Perm.refl _
  | cons y ys ih =>
    unfold insertSorted
    split
    · exact List.Perm.refl _
    · exact (List.Perm.cons y ih).trans (List.Perm.swap x y ys)

theorem sort64_perm (l : List UInt64) : (sort64 l).Perm l := by
  induction l with
  | nil => exact List.Perm.refl _
  | cons x xs ih => exact (insertSorted_perm x (sort64 xs)).trans (List.Perm.cons x ih)

theorem u64_le_trans {a b c : UInt64} (h1 : a ≤ b) (h2 : b ≤ c) : a ≤ c := by
  rw [UInt64.le_iff_toNat_le] at *; omega

theorem u64_le_total {a b : UInt64} (h : ¬ a ≤ b) : b ≤ a := by
  rw [UInt64.le_iff_toNat_le] at *; omega

theorem insertSorted_sorted (x : UInt64) {l : List UInt64} (h : l.Pairwise (· ≤ ·)) :
    (insertSorted x l).Pairwise (· ≤ ·) := by
  induction l with
  | nil => simp [insertSorted]
  | cons y ys ih =>
    have h' := List.pairwise_cons.mp h
    unfold insertSorted
    split
    · rename_i hxy
      refine List.pairwise_cons.mpr ⟨?_, h⟩
      intro z hz
      rcases List.mem_cons.mp hz with rfl | hz
      · exact hxy
      · exact u64_le_trans hxy (h'.1 z hz)
    · rename_i hxy
      refine List.pairwise_cons.mpr ⟨?_, ih h'.2⟩
      intro z hz
      rcases List.mem_cons.mp ((insertSorted_perm x ys).mem_iff.mp hz) with rfl | hz
      · exact u64_le_total hxy
      · exact h'.1 z hz

theorem sort64_sorted (l : List UInt64) : (sort64 l).Pairwise (· ≤ ·) := by
  induction l with
  | nil => exact List.Pairwise.nil
  | cons x xs ih => exact insertSorted_sorted x ih

theorem sort64_eq_of_perm {l l' : List UInt64} (hp : l.Perm l') (hs : l'.Pairwise (· ≤ ·)) : sort64 l = l' :=
  ((sort64_perm l).trans hp).eq_of_pairwise
    (fun a b _ _ h1 h2 => by
      rw [UInt64.le_iff_toNat_le] at h1 h2; exact UInt64.toNat_inj.mp (by omega)) (sort64_sorted l) hs

/-! ## Gaps of a chain of intervals -/

/-- `lo < f₁ ≤ l₁ < f₂ ≤ … < hi`. -/
def IvChain : UInt64 → List (UInt64 × UInt64) → UInt64 → Prop
  | lo, [], hi => lo.toNat < hi.toNat
  | lo, iv :: r, hi => lo.toNat < iv.1.toNat ∧ iv.1.toNat ≤ iv.2.toNat ∧ IvChain iv.2 r hi

/-- The blocks strictly between `a` and `b`, as a section, if there are any. -/
def sect (a b : UInt64) : List (UInt64 × UInt64) := if a.toNat + 1 < b.toNat then [(a + 1, b - a - 1)] else []

/-- The sections between the intervals. -/
def gaps : UInt64 → List (UInt64 × UInt64) → UInt64 → List (UInt64 × UInt64)
  | lo, [], hi => sect lo hi
  | lo, iv :: r, hi => sect lo iv.1 ++ gaps iv.2 r hi

/-- The boundary list of a chain. -/
def ivFlat : List (UInt64 × UInt64) → List UInt64
  | [] => []
  | iv :: r => iv.1 :: iv.2 :: ivFlat r

theorem IvChain.lt {lo hi : UInt64} {l : List (UInt64 × UInt64)} (h : IvChain lo l hi) : lo.toNat < hi.toNat := by
  induction l generalizing lo with
  | nil => exact h
  | cons iv r ih => have := ih h.2.2; have := h.1; have := h.2.1; omega

theorem IvChain.mem {lo hi : UInt64} {l : List (UInt64 × UInt64)} (h : IvChain lo l hi) {iv : UInt64 × UInt64}
    (hm : iv ∈ l) : lo.toNat < iv.1.toNat ∧ iv.1.toNat ≤ iv.2.toNat ∧ iv.2.toNat < hi.toNat := by
  induction l generalizing lo with
  | nil => simp at hm
  | cons a r ih =>
    rcases List.mem_cons.mp hm with rfl | hm
    · exact ⟨h.1, h.2.1, h.2.2.lt⟩
    · have h3 := ih h.2.2 hm
      have h1 := h.1
      have h2 := h.2.1
      exact ⟨by omega, h3.2⟩

theorem freeChunk_step {ε : Type} (m : Mode) {a b : UInt64} (h : a.toNat < b.toNat) (rest : List UInt64)
    {tl : List (UInt64 × UInt64)} (ht : (freeChunks m rest : Res ε _) = .ok tl) :
    (freeChunks m (a :: b :: rest) : Res ε _) = .ok (sect a b ++ tl) := by
  have hb := b.toNat_lt
  have h1 : (1 : UInt64).toNat = 1 := rfl
  have ha1 : (a + 1).toNat = a.toNat + 1 := by rw [u64_add_toNat (by omega), h1]
  have hb1 : (b - 1).toNat = b.toNat - 1 := by rw [u64_sub_toNat (by omega), h1]
  unfold freeChunks sect
  rw [add64_eq m (by omega), Res.ok_bind, sub64_eq m (by omega), Res.ok_bind]
  by_cases hlt : a.toNat + 1 < b.toNat
  · have hd : (b - 1 - (a + 1)).toNat = b.toNat - 1 - (a.toNat + 1) := by
      rw [u64_sub_toNat (by omega), ha1, hb1]
    rw [if_pos (by rw [UInt64.le_iff_toNat_le]; omega), if_pos hlt, sub64_eq m (by omega), Res.ok_bind,
      add64_eq m (by omega), Res.ok_bind, ht]
    simp only [Res.ok_bind, Res.pure_eq, Res.ok.injEq, List.cons_append, List.nil_append, List.cons.injEq,
      Prod.mk.injEq, true_and, and_true]
    apply UInt64.toNat_inj.mp
    rw [u64_add_toNat (by omega), hd, h1]
    have hba : (b - a).toNat = b.toNat - a.toNat := u64_sub_toNat (by omega)
    rw [u64_sub_toNat (by omega), hba, h1]
    omega
  · rw [if_neg (by rw [UInt64.le_iff_toNat_le]; omega), if_neg hlt, ht]
    rfl

theorem freeChunks_chain {ε : Type} (m : Mode) {lo hi : UInt64} {l : List (UInt64 × UInt64)} (h : IvChain lo l hi) :
    (freeChunks m (lo :: (ivFlat l ++ [hi])) : Res ε _) = .ok (gaps lo l hi) := by
  induction l generalizing lo with
  | nil =>
    rw [show gaps lo [] hi = sect lo hi ++ [] by simp [gaps]]
    exact freeChunk_step m h [] rfl
  | cons iv r ih => exact freeChunk_step m h.1 _ (ih h.2.2)

theorem ivFlat_sorted {lo hi : UInt64} {l : List (UInt64 × UInt64)} (h : IvChain lo l hi) :
    (lo :: (ivFlat l ++ [hi])).Pairwise (· ≤ ·) := by
  induction l generalizing lo with
  | nil =>
    simp only [ivFlat, List.nil_append, List.pairwise_cons, List.mem_singleton, forall_eq, List.not_mem_nil,
      false_implies, implies_true, List.Pairwise.nil, and_true]
    rw [UInt64.le_iff_toNat_le]
    have := h.lt
    omega
  | cons iv r ih =>
    have h2 := ih h.2.2
    have hle1 : lo ≤ iv.1 := by rw [UInt64.le_iff_toNat_le]; have := h.1; omega
    have hle2 : iv.1 ≤ iv.2 := by rw [UInt64.le_iff_toNat_le]; exact h.2.1
    have hall : ∀ x ∈ iv.2 :: (ivFlat r ++ [hi]), iv.2 ≤ x := by
      intro x hx
      rcases List.mem_cons.mp hx with rfl | hx
      · rw [UInt64.le_iff_toNat_le]
      · exact (List.pairwise_cons.mp h2).1 x hx
    refine List.pairwise_cons.mpr ⟨?_, List.pairwise_cons.mpr ⟨?_, h2⟩⟩
    · intro x hx
      rcases List.mem_cons.mp hx with rfl | hx
      · exact hle1
      · exact u64_le_trans hle1 (u64_le_trans hle2 (hall x hx))
    · intro x hx
      exact u64_le_trans hle2 (hall x hx)

/-- The blocks of a section. -/
def InSect (sec : UInt64 × UInt64) (x : Nat) : Prop := sec.1.toNat ≤ x ∧ x < sec.1.toNat + sec.2.toNat

theorem sect_spec {a b : UInt64} {sec : UInt64 × UInt64} (h : sec ∈ sect a b) :
    sec.1.toNat = a.toNat + 1 ∧ sec.1.toNat + sec.2.toNat = b.toNat ∧ 1 ≤ sec.2.toNat := by
  unfold sect at h
  split at h
  · rename_i hlt
    have h1 : (1 : UInt64).toNat = 1 := rfl
    have hb := b.toNat_lt
    rw [List.mem_singleton] at h
    subst h
    have hba : (b - a).toNat = b.toNat - a.toNat := u64_sub_toNat (by omega)
    have hba1 : (b - a - 1).toNat = b.toNat - a.toNat - 1 := by rw [u64_sub_toNat (by omega), hba, h1]
    have ha1 : (a + 1).toNat = a.toNat + 1 := by rw [u64_add_toNat (by omega), h1]
    refine ⟨ha1, ?_, ?_⟩
    · show (a + 1).toNat + (b - a - 1).toNat = b.toNat
      omega
    · show 1 ≤ (b - a - 1).toNat
      omega
  · simp at h

theorem mem_sect {a b : UInt64} {x : Nat} : (∃ sec ∈ sect a b, InSect sec x) ↔ a.toNat < x ∧ x < b.toNat := by
  constructor
  · rintro ⟨sec, h, hx⟩
    have := sect_spec h
    unfold InSect at hx
    omega
  · intro h
    have hlt : a.toNat + 1 < b.toNat := by omega
    have hm : (a + 1, b - a - 1) ∈ sect a b := by unfold sect; rw [if_pos hlt]; simp
    refine ⟨_, hm, ?_⟩
    have := sect_spec hm
    unfold InSect
    omega

theorem mem_gaps {lo hi : UInt64} {l : List (UInt64 × UInt64)} (h : IvChain lo l hi) {x : Nat} :
    (∃ sec ∈ gaps lo l hi, InSect sec x) ↔
      lo.toNat < x ∧ x < hi.toNat ∧ ∀ iv ∈ l, ¬ (iv.1.toNat ≤ x ∧ x ≤ iv.2.toNat) := by
  induction l generalizing lo with
  | nil =>
    rw [gaps, mem_sect]
    simp
  | cons iv r ih =>
    have hex : (∃ sec ∈ gaps lo (iv :: r) hi, InSect sec x) ↔
        (∃ sec ∈ sect lo iv.1, InSect sec x) ∨ ∃ sec ∈ gaps iv.2 r hi, InSect sec x := by
      simp only [gaps, List.mem_append, or_and_right, exists_or]
    rw [hex, mem_sect, ih h.2.2]
    have h1 := h.1
    have h2 := h.2.1
    have h3 := h.2.2.lt
    constructor
    · rintro (h' | h')
      · refine ⟨h'.1, by omega, ?_⟩
        intro iv' hm
        rcases List.mem_cons.mp hm with rfl | hm
        · omega
        · have := h.2.2.mem hm
          omega
      · refine ⟨by omega, h'.2.1, ?_⟩
        intro iv' hm
        rcases List.mem_cons.mp hm with rfl | hm
        · omega
        · exact h'.2.2 iv' hm
    · rintro ⟨ha, hb, hc⟩
      have := hc iv List.mem_cons_self
      by_cases hx : x < iv.1.toNat
      · exact .inl ⟨ha, hx⟩
      · exact .inr ⟨by omega, hb, fun iv' hm => hc iv' (List.mem_cons_of_mem _ hm)⟩

theorem gaps_bounds {lo hi : UInt64} {l : List (UInt64 × UInt64)} (h : IvChain lo l hi) {sec : UInt64 × UInt64}
    (hs : sec ∈ gaps lo l hi) : lo.toNat < sec.1.toNat ∧ sec.1.toNat + sec.2.toNat ≤ hi.toNat ∧ 1 ≤ sec.2.toNat := by
  induction l generalizing lo with
  | nil => have := sect_spec hs; omega
  | cons iv r ih =>
    rw [gaps, List.mem_append] at hs
    have h1 := h.1
    have h2 := h.2.1
    have h3 := h.2.2.lt
    rcases hs with hs | hs
    · have := sect_spec hs; omega
    · have := ih h.2.2 hs; omega

theorem sect_pairwise (a b : UInt64) (R : UInt64 × UInt64 → UInt64 × UInt64 → Prop) : (sect a b).Pairwise R := by
  unfold sect; split <;> simp

/-- Between two sections there is an interval. -/
theorem gaps_pairwise {lo hi : UInt64} {l : List (UInt64 × UInt64)} (h : IvChain lo l hi) :
    (gaps lo l hi).Pairwise (fun a b => ∃ iv ∈ l, a.1.toNat + a.2.toNat ≤ iv.1.toNat ∧ iv.1.toNat ≤ iv.2.toNat ∧
      iv.2.toNat < b.1.toNat) := by
  induction l generalizing lo with
  | nil => exact sect_pairwise _ _ _
  | cons iv r ih =>
    rw [gaps, List.pairwise_append]
    refine ⟨sect_pairwise _ _ _, ?_, ?_⟩
    · refine (ih h.2.2).imp ?_
      rintro a b ⟨iv', h1, h2⟩
      exact ⟨iv', List.mem_cons_of_mem _ h1, h2⟩
    · intro a ha b hb
      have h1 := sect_spec ha
      have h2 := gaps_bounds h.2.2 hb
      exact ⟨iv, List.mem_cons_self, by omega, h.2.1, h2.1⟩

/-! ## Sorting disjoint intervals -/

/-- The extents of the used partitions. -/
def extents (t : PMap) : List (UInt64 × UInt64) := (usedParts t).map (fun p => (p.firstLba, p.lastLba))

/-- Two intervals in order. -/
def Before (a b : UInt64 × UInt64) : Prop := a.2.toNat < b.1.toNat

theorem insertIv (iv : UInt64 × UInt64) (hiv : iv.1.toNat ≤ iv.2.toNat) (l : List (UInt64 × UInt64))
    (hl : ∀ a ∈ l, a.1.toNat ≤ a.2.toNat) (hs : l.Pairwise Before) (hd : ∀ a ∈ l, Before iv a ∨ Before a iv) :
    ∃ l' : List (UInt64 × UInt64), l'.Perm (iv :: l) ∧ l'.Pairwise Before := by
  induction l with
  | nil => exact ⟨[iv], List.Perm.refl _, by simp⟩
  | cons a r ih =>
    have hs' := List.pairwise_cons.mp hs
    rcases hd a List.mem_cons_self with h | h
    · refine ⟨iv :: a :: r, List.Perm.refl _, List.pairwise_cons.mpr ⟨?_, hs⟩⟩
      intro b hb
      rcases List.mem_cons.mp hb with rfl | hb
      · exact h
      · have h1 := hs'.1 b hb
        have h2 := hl a List.mem_cons_self
        unfold Before at *; omega
    · obtain ⟨l', h1, h2⟩ := ih (fun b hb => hl b (List.mem_cons_of_mem _ hb)) hs'.2
        (fun b hb => hd b (List.mem_cons_of_mem _ hb))
      refine ⟨a :: l', (List.Perm.cons a h1).trans (List.Perm.swap iv a r), List.pairwise_cons.mpr ⟨?_, h2⟩⟩
      intro b hb
      rcases List.mem_cons.mp (h1.mem_iff.mp hb) with rfl | hb
      · exact h
      · exact hs'.1 b hb

theorem sortIv (l : List (UInt64 × UInt64)) (hl : ∀ a ∈ l, a.1.toNat ≤ a.2.toNat)
    (hd : l.Pairwise (fun a b => Before a b ∨ Before b a)) : ∃ l' : List (UInt64 × UInt64), l'.Perm l ∧ l'.Pairwise Before := by
  induction l with
  | nil => exact ⟨[], List.Perm.refl _, List.Pairwise.nil⟩
  | cons a r ih =>
    have hd' := List.pairwise_cons.mp hd
    obtain ⟨l1, h1, h2⟩ := ih (fun b hb => hl b (List.mem_cons_of_mem _ hb)) hd'.2
    obtain ⟨l2, h3, h4⟩ := insertIv a (hl a List.mem_cons_self) l1
      (fun b hb => hl b (List.mem_cons_of_mem _ (h1.mem_iff.mp hb))) h2
      (fun b hb => hd'.1 b (h1.mem_iff.mp hb))
    exact ⟨l2, h3.trans (List.Perm.cons a h1), h4⟩

theorem ivChain_of_sorted {lo hi : UInt64} {l : List (UInt64 × UInt64)} (hlt : lo.toNat < hi.toNat)
    (hl : ∀ a ∈ l, lo.toNat < a.1.toNat ∧ a.1.toNat ≤ a.2.toNat ∧ a.2.toNat < hi.toNat) (hs : l.Pairwise Before) :
    IvChain lo l hi := by
  induction l generalizing lo with
  | nil => exact hlt
  | cons a r ih =>
    have ha := hl a List.mem_cons_self
    have hs' := List.pairwise_cons.mp hs
    refine ⟨ha.1, ha.2.1, ih ha.2.2 ?_ hs'.2⟩
    intro b hb
    exact ⟨hs'.1 b hb, (hl b (List.mem_cons_of_mem _ hb)).2⟩

theorem ivFlat_perm {l l' : List (UInt64 × UInt64)} (h : l.Perm l') : (ivFlat l).Perm (ivFlat l') := by
  have key : ∀ l, ivFlat l = l.flatMap (fun iv => [iv.1, iv.2]) := by
    intro l; induction l with
    | nil => rfl
    | cons a r ih => simp [ivFlat, ih]
  rw [key, key]
  exact List.Perm.flatMap_right _ h

theorem flatMap_extents (t : PMap) :
    (usedParts t).flatMap (fun p => [p.firstLba, p.lastLba]) = ivFlat (extents t) := by
  unfold extents
  generalize usedParts t = l
  induction l with
  | nil => rfl
  | cons a r ih => simp [ivFlat, ih]

theorem usedParts_pairwise {h : Header} {t : PMap} (ht : Spec.Tidy h t) :
    (usedParts t).Pairwise (fun p q => ∀ x, ¬ (Spec.Covers p x ∧ Spec.Covers q x)) := by
  unfold usedParts
  rw [List.pairwise_map]
  have hk : (t.filter (fun e => e.2.isUsed)).Pairwise (fun a b => a.1 < b.1) := ht.keys.filter _
  refine hk.imp_of_mem ?_
  intro a b ha hb hlt
  rw [List.mem_filter] at ha hb
  refine ht.apart a.1 b.1 a.2 b.2 ha.1 hb.1 ?_ ((isUsed_iff _).mp ha.2) ((isUsed_iff _).mp hb.2)
  intro e
  rw [e] at hlt
  exact PMap.u32_lt_irrefl _ hlt

/-- On a tidy table `find_free_sectors` returns the gaps of a chain made of exactly the used extents. -/
theorem findFreeSectors_eq {ε : Type} (m : Mode) (s : GptDisk) {h : Header} (hh : s.tryHeader = .ok h)
    (hr : Spec.Range h) (ht : Spec.Tidy h s.partitions) :
    ∃ (l : List (UInt64 × UInt64)) (lo hi : UInt64), l.Perm (extents s.partitions) ∧ IvChain lo l hi ∧ lo.toNat = h.firstUsable.toNat - 1 ∧
      hi.toNat = h.lastUsable.toNat + 1 ∧ (s.findFreeSectors m : Res ε _) = .ok (gaps lo l hi) := by
  have h1 : (1 : UInt64).toNat = 1 := rfl
  have hlo : (h.firstUsable - 1).toNat = h.firstUsable.toNat - 1 := by
    rw [u64_sub_toNat (by rw [h1]; exact hr.first), h1]
  have hhi : (h.lastUsable + 1).toNat = h.lastUsable.toNat + 1 := by
    rw [u64_add_toNat (by rw [h1]; exact hr.last), h1]
  have hmem : ∀ a ∈ extents s.partitions, ∃ p, Spec.Used s.partitions p ∧ a = (p.firstLba, p.lastLba) := by
    intro a ha
    unfold extents at ha
    obtain ⟨p, hp, rfl⟩ := List.mem_map.mp ha
    exact ⟨p, mem_usedParts.mp hp, rfl⟩
  have hord : ∀ a ∈ extents s.partitions, a.1.toNat ≤ a.2.toNat := by
    intro a ha
    obtain ⟨p, hp, rfl⟩ := hmem a ha
    exact ht.order p hp
  have hpw : (extents s.partitions).Pairwise (fun a b => Before a b ∨ Before b a) := by
    unfold extents
    rw [List.pairwise_map]
    refine (usedParts_pairwise ht).imp_of_mem ?_
    intro p q hp hq hpq
    have h2 := ht.order p (mem_usedParts.mp hp)
    have h3 := ht.order q (mem_usedParts.mp hq)
    unfold Before
    simp only
    by_contra hc
    refine hpq (max p.firstLba.toNat q.firstLba.toNat) ⟨⟨?_, ?_⟩, ⟨?_, ?_⟩⟩ <;> omega
  obtain ⟨l, hperm, hsort⟩ := sortIv _ hord hpw
  have hchain : IvChain (h.firstUsable - 1) l (h.lastUsable + 1) := by
    refine ivChain_of_sorted ?_ ?_ hsort
    · rw [hlo, hhi]; have := hr.first; have := hr.order; omega
    · intro a ha
      obtain ⟨p, hp, rfl⟩ := hmem a (hperm.mem_iff.mp ha)
      have h2 := ht.order p hp
      have h3 := ht.inside p hp
      have := hr.first
      rw [hlo, hhi]
      simp only
      omega
  refine ⟨l, _, _, hperm, hchain, hlo, hhi, ?_⟩
  unfold findFreeSectors GptDisk.header
  rw [hh]
  simp only [Res.ok_bind]
  rw [sub64_eq m (by rw [h1]; exact hr.first), Res.ok_bind, add64_eq m (by rw [h1]; exact hr.last), Res.ok_bind]
  have hpos : sort64 (diskPositions (h.firstUsable - 1) (h.lastUsable + 1) s.partitions) =
      (h.firstUsable - 1) :: (ivFlat l ++ [h.lastUsable + 1]) := by
    refine sort64_eq_of_perm ?_ (ivFlat_sorted hchain)
    unfold diskPositions
    rw [flatMap_extents, List.append_assoc, List.singleton_append]
    exact List.Perm.cons _ (List.Perm.append_right _ (ivFlat_perm hperm.symm))
  rw [hpos]
  exact freeChunks_chain m hchain

end Gpt
