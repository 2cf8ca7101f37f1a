import Verif.Props.Alloc
import Verif.Lemmas.Panic
import Verif.Spec.Sane
import Verif.Lemmas.WriteSane
/-!
# C92: every outcome of `find_free_sectors`, whatever the table
-/

namespace Gpt

open Spec GptDisk

/-- The blocks `find_free_sectors` takes for boundaries: the one before the first usable, the first and the last of every used
partition, the one after the last usable; the arithmetic is that of 64 bits. -/
def Spec.bounds (h : Header) (t : PMap) : List Nat :=
  (h.firstUsable.toNat + (2 ^ 64 - 1)) % 2 ^ 64 :: (h.lastUsable.toNat + 1) % 2 ^ 64 ::
    (Spec.used t).flatMap fun p => [p.firstLba.toNat, p.lastLba.toNat]

/-- The sections (first block, number of blocks) in order: none is empty, two are at least one block apart, and a block is in one
of them when it is no boundary and the number of boundaries below it is odd. -/
structure Spec.Gaps (bs : List Nat) (l : List (Nat × Nat)) : Prop where
  some : ∀ g ∈ l, 0 < g.2
  apart : l.Pairwise fun a b => a.1 + a.2 < b.1
  blocks : ∀ x, (∃ g ∈ l, g.1 ≤ x ∧ x < g.1 + g.2) ↔ x ∉ bs ∧ (bs.countP (· < x)) % 2 = 1

/-- How often `x` is a boundary. -/
def Spec.times (x : Nat) (bs : List Nat) : Nat := bs.countP (· = x)

/-- What `find_free_sectors` gives when there is a header. Two boundaries 0, or two boundaries 2^64-1, panic in debug builds; in
release builds each two add a section of 2^64-1 blocks. -/
inductive Spec.FreeSectors {ε : Type} (m : Mode) (h : Header) (t : PMap) : Res ε (List (Nat × Nat)) → Prop where
  | firstZero : m = .debug → h.firstUsable.toNat = 0 → FreeSectors m h t .panic
  | lastMax : m = .debug → h.lastUsable.toNat = 2 ^ 64 - 1 → FreeSectors m h t .panic
  | edge : m = .debug → 2 ≤ times 0 (bounds h t) ∨ 2 ≤ times (2 ^ 64 - 1) (bounds h t) → FreeSectors m h t .panic
  | sections (l : List (Nat × Nat)) : (m = .debug → h.firstUsable.toNat ≠ 0 ∧ h.lastUsable.toNat ≠ 2 ^ 64 - 1 ∧
        times 0 (bounds h t) < 2 ∧ times (2 ^ 64 - 1) (bounds h t) < 2) → Gaps (bounds h t) l →
      FreeSectors m h t (.ok (List.replicate (times 0 (bounds h t) / 2) (1, 2 ^ 64 - 1) ++ l ++
        List.replicate (times (2 ^ 64 - 1) (bounds h t) / 2) (0, 2 ^ 64 - 1)))

/-! ### Sections are determined by the boundaries -/

theorem gaps_unique {bs : List Nat} {l l' : List (Nat × Nat)} (h : Gaps bs l) (h' : Gaps bs l') : l = l' := by
  have key : ∀ (l l' : List (Nat × Nat)), (∀ g ∈ l, 0 < g.2) → (∀ g ∈ l', 0 < g.2) → (l.Pairwise fun a b => a.1 + a.2 < b.1) →
      (l'.Pairwise fun a b => a.1 + a.2 < b.1) →
      (∀ x, (∃ g ∈ l, g.1 ≤ x ∧ x < g.1 + g.2) ↔ (∃ g ∈ l', g.1 ≤ x ∧ x < g.1 + g.2)) → l = l' := by
    intro l
    induction l with
    | nil =>
      intro l' _ h2 _ _ hb
      cases l' with
      | nil => rfl
      | cons g l' =>
        have := (hb g.1).mpr ⟨g, by simp, Nat.le_refl _, by have := h2 g (by simp); omega⟩
        obtain ⟨_, h, _⟩ := this
        cases h
    | cons g l ih =>
      intro l' h1 h2 h3 h4 hb
      cases l' with
      | nil =>
        have := (hb g.1).mp ⟨g, by simp, Nat.le_refl _, by have := h1 g (by simp); omega⟩
        obtain ⟨_, h, _⟩ := this
        cases h
      | cons g' l' =>
        rw [List.pairwise_cons] at h3 h4
        have p1 := h1 g (by simp)
        have p2 := h2 g' (by simp)
        -- a block of `g` or later starts at or behind `g.1`
        have lo : ∀ x, (∃ q ∈ g :: l, q.1 ≤ x ∧ x < q.1 + q.2) → g.1 ≤ x := by
          rintro x ⟨q, hq, a, b⟩
          rcases List.mem_cons.mp hq with rfl | hq
          · exact a
          · have := h3.1 q hq; omega
        have lo' : ∀ x, (∃ q ∈ g' :: l', q.1 ≤ x ∧ x < q.1 + q.2) → g'.1 ≤ x := by
          rintro x ⟨q, hq, a, b⟩
          rcases List.mem_cons.mp hq with rfl | hq
          · exact a
          · have := h4.1 q hq; omega
        have e1 : g.1 = g'.1 := by
          have a := lo' g.1 ((hb g.1).mp ⟨g, by simp, Nat.le_refl _, by omega⟩)
          have b := lo g'.1 ((hb g'.1).mpr ⟨g', by simp, Nat.le_refl _, by omega⟩)
          omega
        -- the block behind `g` is in no section
        have out : ¬ ∃ q ∈ g :: l, q.1 ≤ g.1 + g.2 ∧ g.1 + g.2 < q.1 + q.2 := by
          rintro ⟨q, hq, a, b⟩
          rcases List.mem_cons.mp hq with rfl | hq
          · omega
          · have := h3.1 q hq; omega
        have out' : ¬ ∃ q ∈ g' :: l', q.1 ≤ g'.1 + g'.2 ∧ g'.1 + g'.2 < q.1 + q.2 := by
          rintro ⟨q, hq, a, b⟩
          rcases List.mem_cons.mp hq with rfl | hq
          · omega
          · have := h4.1 q hq; omega
        have e2 : g.2 = g'.2 := by
          rcases Nat.lt_trichotomy g.2 g'.2 with hlt | heq | hlt
          · exact absurd ((hb (g.1 + g.2)).mpr ⟨g', by simp, by omega, by omega⟩) out
          · exact heq
          · exact absurd ((hb (g'.1 + g'.2)).mp ⟨g, by simp, by omega, by omega⟩) out'
        have e : g = g' := Prod.ext e1 e2
        subst e
        congr 1
        refine ih l' (fun q hq => h1 q (by simp [hq])) (fun q hq => h2 q (by simp [hq])) h3.2 h4.2 fun x => ?_
        constructor
        · rintro ⟨q, hq, a, b⟩
          obtain ⟨q', hq', a', b'⟩ := (hb x).mp ⟨q, by simp [hq], a, b⟩
          rcases List.mem_cons.mp hq' with rfl | hq'
          · have := h3.1 q hq; omega
          · exact ⟨q', hq', a', b'⟩
        · rintro ⟨q, hq, a, b⟩
          obtain ⟨q', hq', a', b'⟩ := (hb x).mpr ⟨q, by simp [hq], a, b⟩
          rcases List.mem_cons.mp hq' with rfl | hq'
          · have := h4.1 q hq; omega
          · exact ⟨q', hq', a', b'⟩
  exact key l l' h.some h'.some h.apart h'.apart fun x => (h.blocks x).trans (h'.blocks x).symm

theorem gaps_perm {bs bs' : List Nat} {l : List (Nat × Nat)} (hp : bs.Perm bs') (h : Gaps bs l) : Gaps bs' l :=
  ⟨h.some, h.apart, fun x => by rw [h.blocks x, hp.mem_iff, hp.countP_eq]⟩

/-! ### The pairs of a sorted list -/

/-- The gap of each pair. -/
def gapsOf : List Nat → List (Nat × Nat)
  | a :: b :: t => (if a + 1 < b then [(a + 1, b - a - 1)] else []) ++ gapsOf t
  | _ => []

theorem gapsOf_cons (a b : Nat) (t : List Nat) : gapsOf (a :: b :: t) = (if a + 1 < b then [(a + 1, b - a - 1)] else []) ++ gapsOf t := rfl

theorem gapsOf_lo {lo : Nat} : ∀ {l : List Nat}, (∀ x ∈ l, lo ≤ x) → ∀ g ∈ gapsOf l, lo < g.1 ∧ 0 < g.2
  | [], _, g, hg => by cases hg
  | [_], _, g, hg => by cases hg
  | a :: b :: t, h, g, hg => by
    unfold gapsOf at hg
    rcases List.mem_append.mp hg with hg | hg
    · split at hg
      · rw [List.mem_singleton] at hg
        subst hg
        have := h a (by simp)
        simp only
        omega
      · cases hg
    · exact gapsOf_lo (fun x hx => h x (by simp [hx])) g hg

theorem gapsOf_gaps : ∀ {l : List Nat}, l.Pairwise (· ≤ ·) → l.length % 2 = 0 → Gaps l (gapsOf l)
  | [], _, _ => by
    refine ⟨fun g hg => (by cases hg), List.Pairwise.nil, fun x => ?_⟩
    simp [gapsOf]
  | [_], _, h => by simp at h
  | a :: b :: t, hs, he => by
    rw [List.pairwise_cons, List.pairwise_cons] at hs
    obtain ⟨hs1, hs2, hs3⟩ := hs
    have hab := hs1 b (by simp)
    have ih := gapsOf_gaps hs3 (by simp only [List.length_cons] at he; omega)
    have hlo := gapsOf_lo (lo := b) hs2
    unfold gapsOf
    refine ⟨?_, ?_, ?_⟩
    · intro g hg
      rcases List.mem_append.mp hg with hg | hg
      · split at hg
        · rw [List.mem_singleton] at hg; subst hg; simp only; omega
        · cases hg
      · exact (hlo g hg).2
    · rw [List.pairwise_append]
      refine ⟨?_, ih.apart, ?_⟩
      · split <;> simp
      · intro g hg q hq
        have := (hlo q hq).1
        split at hg
        · rw [List.mem_singleton] at hg; subst hg; simp only; omega
        · cases hg
    · intro x
      have hc0 : x ≤ b → t.countP (· < x) = 0 := fun hx => by
        rw [List.countP_eq_zero]
        intro y hy
        have := hs2 y hy
        simp only [decide_eq_true_eq]
        omega
      have first : (∃ g ∈ (if a + 1 < b then [(a + 1, b - a - 1)] else []), g.1 ≤ x ∧ x < g.1 + g.2) ↔ a < x ∧ x < b := by
        split
        · constructor
          · rintro ⟨g, hg, h1, h2⟩
            rw [List.mem_singleton] at hg; subst hg
            simp only at h1 h2
            omega
          · intro h
            exact ⟨_, List.mem_singleton_self _, by simp only; omega, by simp only; omega⟩
        · constructor
          · rintro ⟨g, hg, _⟩; cases hg
          · intro h; omega
      have split' : (∃ g ∈ (if a + 1 < b then [(a + 1, b - a - 1)] else []) ++ gapsOf t, g.1 ≤ x ∧ x < g.1 + g.2) ↔
          (a < x ∧ x < b) ∨ ∃ g ∈ gapsOf t, g.1 ≤ x ∧ x < g.1 + g.2 := by
        rw [← first]
        constructor
        · rintro ⟨g, hg, h⟩
          rcases List.mem_append.mp hg with hg | hg
          · exact .inl ⟨g, hg, h⟩
          · exact .inr ⟨g, hg, h⟩
        · rintro (⟨g, hg, h⟩ | ⟨g, hg, h⟩)
          · exact ⟨g, List.mem_append_left _ hg, h⟩
          · exact ⟨g, List.mem_append_right _ hg, h⟩
      rw [split', ih.blocks x, List.countP_cons, List.countP_cons, List.mem_cons, List.mem_cons]
      simp only [decide_eq_true_eq, not_or]
      by_cases hx : x ≤ b
      · rw [hc0 hx, if_neg (show ¬ b < x by omega)]
        by_cases hxa : a < x
        · rw [if_pos hxa]
          constructor
          · rintro (h | ⟨-, h⟩)
            · refine ⟨⟨by omega, by omega, fun hm => ?_⟩, rfl⟩
              have := hs2 x hm; omega
            · cases h
          · rintro ⟨⟨h1, h2, h3⟩, -⟩
            exact .inl ⟨hxa, by omega⟩
        · rw [if_neg hxa]
          constructor
          · rintro (h | ⟨-, h⟩)
            · omega
            · cases h
          · rintro ⟨-, h⟩; cases h
      · rw [if_pos (show b < x by omega), if_pos (show a < x by omega)]
        constructor
        · rintro (h | ⟨h1, h2⟩)
          · omega
          · exact ⟨⟨by omega, by omega, h1⟩, by omega⟩
        · rintro ⟨⟨-, -, h1⟩, h2⟩
          exact .inr ⟨h1, by omega⟩

/-! ### `find_free_sectors` -/

/-- The result in natural numbers. -/
def Spec.inNat {ε : Type} : Res ε (List (UInt64 × UInt64)) → Res ε (List (Nat × Nat))
  | .ok l => .ok (l.map fun g => (g.1.toNat, g.2.toNat))
  | .err e => .err e
  | .panic => .panic

theorem gapsOf_const {c : Nat} : ∀ {l : List Nat}, (∀ x ∈ l, x = c) → gapsOf l = []
  | [], _ => rfl
  | [_], _ => rfl
  | a :: b :: t, h => by
    unfold gapsOf
    rw [h a (by simp), h b (by simp), if_neg (by omega), gapsOf_const fun x hx => h x (by simp [hx])]
    rfl

theorem times_cons (x a : Nat) (l : List Nat) : times x (a :: l) = times x l + if a = x then 1 else 0 := by
  unfold times
  rw [List.countP_cons]
  simp only [decide_eq_true_eq]

theorem times_zero {x : Nat} {l : List Nat} (h : x ∉ l) : times x l = 0 := by
  unfold times
  rw [List.countP_eq_zero]
  intro y hy e
  simp only [decide_eq_true_eq] at e
  exact h (e ▸ hy)

theorem times_const {c : Nat} {l : List Nat} (h : ∀ x ∈ l, x = c) : times c l = l.length := by
  unfold times
  rw [List.countP_eq_length]
  intro y hy
  simp only [decide_eq_true_eq]
  exact h y hy

/-- What the pairs of a sorted list of boundaries give. -/
def chunksOf (N : List Nat) : List (Nat × Nat) :=
  List.replicate (times 0 N / 2) (1, 2 ^ 64 - 1) ++ gapsOf N ++ List.replicate (times (2 ^ 64 - 1) N / 2) (0, 2 ^ 64 - 1)

theorem u64_one : (1 : UInt64).toNat = 1 := rfl

/-- One pair. -/
theorem freeChunks_pair {ε : Type} (m : Mode) {a b : UInt64} (t : List UInt64) (ha : a.toNat ≠ 2 ^ 64 - 1) (hb : b.toNat ≠ 0) :
    inNat (freeChunks m (a :: b :: t) : Res ε _) = match inNat (freeChunks (ε := ε) m t) with
      | .ok l => .ok ((if a.toNat + 1 < b.toNat then [(a.toNat + 1, b.toNat - a.toNat - 1)] else []) ++ l)
      | .err e => .err e
      | .panic => .panic := by
  have la := a.toNat_lt
  have lb := b.toNat_lt
  conv => lhs; unfold freeChunks
  have ea : (a + 1).toNat = a.toNat + 1 := by rw [u64_add_toNat (by rw [u64_one]; omega), u64_one]
  have eb : (b - 1).toNat = b.toNat - 1 := by rw [u64_sub_toNat (by rw [u64_one]; omega), u64_one]
  rw [add64_eq m (by rw [u64_one]; omega), Res.ok_bind, sub64_eq m (by rw [u64_one]; omega), Res.ok_bind]
  by_cases hlt : a.toNat + 1 < b.toNat
  · have hle : a + 1 ≤ b - 1 := by rw [UInt64.le_iff_toNat_le, ea, eb]; omega
    have ed : (b - 1 - (a + 1)).toNat = b.toNat - 1 - (a.toNat + 1) := by
      rw [u64_sub_toNat (UInt64.le_iff_toNat_le.mp hle), ea, eb]
    have el : (b - 1 - (a + 1) + 1).toNat = b.toNat - a.toNat - 1 := by
      rw [u64_add_toNat (by rw [ed, u64_one]; omega), ed, u64_one]; omega
    rw [if_pos hle, sub64_eq m (UInt64.le_iff_toNat_le.mp hle), Res.ok_bind, add64_eq m (by rw [ed, u64_one]; omega), Res.ok_bind, if_pos hlt]
    cases freeChunks (ε := ε) m t with
    | ok l =>
      show Res.ok (((a + 1).toNat, (b - 1 - (a + 1) + 1).toNat) :: _) = _
      rw [ea, el]
      rfl
    | err e => rfl
    | panic => rfl
  · have hle : ¬ a + 1 ≤ b - 1 := by rw [UInt64.le_iff_toNat_le, ea, eb]; omega
    rw [if_neg hle, if_neg hlt]
    cases freeChunks (ε := ε) m t with
    | ok l => rfl
    | err e => rfl
    | panic => rfl

theorem freeChunks_debug {ε : Type} {a b : UInt64} (t : List UInt64) (h : a.toNat = 2 ^ 64 - 1 ∨ b.toNat = 0) :
    freeChunks (ε := ε) .debug (a :: b :: t) = .panic := by
  unfold freeChunks
  by_cases ha : a.toNat = 2 ^ 64 - 1
  · have : (add64 .debug a 1 : Res ε UInt64) = .panic := by
      unfold add64 arith
      rw [if_neg (by rw [u64_one, ha]; decide)]
    rw [this]
    rfl
  · have la := a.toNat_lt
    rw [add64_eq _ (by rw [u64_one]; omega), Res.ok_bind]
    have : (sub64 .debug b 1 : Res ε UInt64) = .panic := by
      unfold sub64 arith
      rw [if_neg (by rw [u64_one, h.resolve_left ha]; decide)]
    rw [this]
    rfl

theorem freeChunks_zero {ε : Type} {a b : UInt64} (t : List UInt64) (ha : a = 0) (hb : b = 0) :
    inNat (freeChunks .release (a :: b :: t) : Res ε _) = match inNat (freeChunks (ε := ε) .release t) with
      | .ok l => .ok ((1, 2 ^ 64 - 1) :: l)
      | .err e => .err e
      | .panic => .panic := by
  subst ha hb
  conv => lhs; unfold freeChunks
  cases freeChunks (ε := ε) .release t with
  | ok l => rfl
  | err e => rfl
  | panic => rfl

theorem freeChunks_max {ε : Type} {a b : UInt64} (t : List UInt64) (ha : a = UInt64.ofNat (2 ^ 64 - 1)) (hb : b = UInt64.ofNat (2 ^ 64 - 1)) :
    inNat (freeChunks .release (a :: b :: t) : Res ε _) = match inNat (freeChunks (ε := ε) .release t) with
      | .ok l => .ok ((0, 2 ^ 64 - 1) :: l)
      | .err e => .err e
      | .panic => .panic := by
  subst ha hb
  conv => lhs; unfold freeChunks
  cases freeChunks (ε := ε) .release t with
  | ok l => rfl
  | err e => rfl
  | panic => rfl

/-- All pairs. -/
theorem freeChunks_all {ε : Type} (m : Mode) : ∀ (L : List UInt64), L.Pairwise (· ≤ ·) → L.length % 2 = 0 →
    inNat (freeChunks m L : Res ε _) = if m = .debug ∧ (2 ≤ times 0 (L.map UInt64.toNat) ∨ 2 ≤ times (2 ^ 64 - 1) (L.map UInt64.toNat)) then .panic
      else .ok (chunksOf (L.map UInt64.toNat))
  | [], _, _ => by
    rw [if_neg (by rintro ⟨-, h⟩; simp [times] at h)]
    rfl
  | [_], _, h => by simp at h
  | a :: b :: t, hs, he => by
    rw [List.pairwise_cons, List.pairwise_cons] at hs
    obtain ⟨hs1, hs2, hs3⟩ := hs
    have hab := UInt64.le_iff_toNat_le.mp (hs1 b (by simp))
    have he' : t.length % 2 = 0 := by simp only [List.length_cons] at he; omega
    have ih := freeChunks_all (ε := ε) m t hs3 he'
    have hbt : ∀ x ∈ t.map UInt64.toNat, b.toNat ≤ x := by
      intro x hx
      obtain ⟨y, hy, rfl⟩ := List.mem_map.mp hx
      exact UInt64.le_iff_toNat_le.mp (hs2 y hy)
    have hmax : ∀ x ∈ t.map UInt64.toNat, x ≤ 2 ^ 64 - 1 := by
      intro x hx
      obtain ⟨y, hy, rfl⟩ := List.mem_map.mp hx
      have := y.toNat_lt; omega
    have la := a.toNat_lt
    have lb := b.toNat_lt
    have hlen : (t.map UInt64.toNat).length = t.length := List.length_map ..
    rw [List.map_cons, List.map_cons]
    generalize hN : t.map UInt64.toNat = N at *
    have zero_t : b.toNat ≠ 0 → times 0 N = 0 := fun hb => times_zero fun h => by have := hbt 0 h; omega
    have max_t : b.toNat = 2 ^ 64 - 1 → ∀ x ∈ N, x = 2 ^ 64 - 1 := fun hb x hx => by have := hbt x hx; have := hmax x hx; omega
    by_cases hb : b.toNat = 0
    · -- (0, 0)
      have ha : a.toNat = 0 := by omega
      have e0 : times 0 (a.toNat :: b.toNat :: N) = times 0 N + 2 := by rw [times_cons, times_cons, if_pos hb, if_pos ha]
      have e1 : times (2 ^ 64 - 1) (a.toNat :: b.toNat :: N) = times (2 ^ 64 - 1) N := by
        rw [times_cons, times_cons, if_neg (by omega), if_neg (by omega), Nat.add_zero]
      cases m with
      | debug =>
        rw [freeChunks_debug _ (.inr hb), if_pos ⟨rfl, .inl (by rw [e0]; omega)⟩]
        rfl
      | release =>
        rw [freeChunks_zero _ (UInt64.toNat_inj.mp ha) (UInt64.toNat_inj.mp hb), ih, if_neg (by simp), if_neg (by simp)]
        simp only
        unfold chunksOf
        rw [gapsOf_cons, e0, e1, if_neg (by omega), Nat.add_div_right _ (by decide), List.replicate_succ]
        rfl
    · by_cases ha : a.toNat = 2 ^ 64 - 1
      · -- the largest number twice
        have hb' : b.toNat = 2 ^ 64 - 1 := by omega
        have hall := max_t hb'
        have e0 : times 0 (a.toNat :: b.toNat :: N) = 0 := by
          rw [times_cons, times_cons, if_neg (by omega), if_neg (by omega), zero_t hb]
        have e1 : times (2 ^ 64 - 1) (a.toNat :: b.toNat :: N) = times (2 ^ 64 - 1) N + 2 := by
          rw [times_cons, times_cons, if_pos hb', if_pos ha]
        cases m with
        | debug =>
          rw [freeChunks_debug _ (.inl ha), if_pos ⟨rfl, .inr (by rw [e1]; omega)⟩]
          rfl
        | release =>
          rw [freeChunks_max _ (UInt64.toNat_inj.mp ha) (UInt64.toNat_inj.mp hb'), ih, if_neg (by simp), if_neg (by simp)]
          simp only
          unfold chunksOf
          rw [gapsOf_const (c := 2 ^ 64 - 1) (l := a.toNat :: b.toNat :: N) (by
            intro x hx
            simp only [List.mem_cons] at hx
            rcases hx with rfl | rfl | hx
            · exact ha
            · exact hb'
            · exact hall x hx), gapsOf_const hall, zero_t hb, e0, e1, Nat.add_div_right _ (by decide), List.replicate_succ]
          rfl
      · -- an ordinary pair
        rw [freeChunks_pair m t ha hb, ih]
        have e0 : times 0 (a.toNat :: b.toNat :: N) / 2 = 0 ∧ times 0 (a.toNat :: b.toNat :: N) < 2 := by
          rw [times_cons, times_cons, if_neg hb, zero_t hb]
          split <;> decide
        have e1 : times (2 ^ 64 - 1) (a.toNat :: b.toNat :: N) / 2 = times (2 ^ 64 - 1) N / 2 ∧
            (2 ≤ times (2 ^ 64 - 1) (a.toNat :: b.toNat :: N) ↔ 2 ≤ times (2 ^ 64 - 1) N) := by
          rw [times_cons, times_cons, if_neg ha]
          by_cases hb' : b.toNat = 2 ^ 64 - 1
          · rw [if_pos hb', times_const (max_t hb'), hlen]
            omega
          · rw [if_neg hb']
            exact ⟨rfl, Iff.rfl⟩
        have hz := zero_t hb
        have hc : (m = .debug ∧ (2 ≤ times 0 (a.toNat :: b.toNat :: N) ∨ 2 ≤ times (2 ^ 64 - 1) (a.toNat :: b.toNat :: N))) ↔
            (m = .debug ∧ (2 ≤ times 0 N ∨ 2 ≤ times (2 ^ 64 - 1) N)) := by
          rw [e1.2, hz]
          constructor
          · rintro ⟨h1, h2 | h2⟩
            · omega
            · exact ⟨h1, .inr h2⟩
          · rintro ⟨h1, h2 | h2⟩
            · omega
            · exact ⟨h1, .inr h2⟩
        by_cases hd : m = .debug ∧ (2 ≤ times 0 N ∨ 2 ≤ times (2 ^ 64 - 1) N)
        · rw [if_pos hd, if_pos (hc.mpr hd)]
        · rw [if_neg hd, if_neg (fun h => hd (hc.mp h))]
          simp only
          unfold chunksOf
          rw [e0.1, e1.1, hz]
          show _ = Res.ok ([] ++ ((if a.toNat + 1 < b.toNat then [(a.toNat + 1, b.toNat - a.toNat - 1)] else []) ++ gapsOf N) ++ _)
          simp

theorem times_perm {x : Nat} {a b : List Nat} (h : a.Perm b) : times x a = times x b := h.countP_eq _

theorem bounds_perm (h : Header) (t : PMap) :
    ((sort64 (diskPositions (h.firstUsable - 1) (h.lastUsable + 1) t)).map UInt64.toNat).Perm (bounds h t) := by
  refine ((sort64_perm _).map _).trans ?_
  unfold diskPositions bounds
  rw [usedParts_eq, List.map_append, List.map_append, List.map_flatMap]
  have e1 : (h.firstUsable - 1).toNat = (h.firstUsable.toNat + (2 ^ 64 - 1)) % 2 ^ 64 := by
    rw [UInt64.toNat_sub, u64_one, Nat.add_comm]
  have e2 : (h.lastUsable + 1).toNat = (h.lastUsable.toNat + 1) % 2 ^ 64 := by rw [UInt64.toNat_add, u64_one]
  rw [List.map_cons, List.map_nil, List.map_cons, List.map_nil, e1, e2, List.append_assoc, List.singleton_append]
  exact List.Perm.cons _ List.perm_append_comm

theorem positions_even (lo hi : UInt64) (t : PMap) : (sort64 (diskPositions lo hi t)).length % 2 = 0 := by
  rw [(sort64_perm _).length_eq]
  unfold diskPositions
  have : ∀ ps : List Partition, (ps.flatMap fun p => [p.firstLba, p.lastLba]).length = 2 * ps.length := by
    intro ps
    induction ps with
    | nil => rfl
    | cons p ps ih => rw [List.flatMap_cons, List.length_append, ih, List.length_cons]; simp only [List.length_cons, List.length_nil]; omega
  rw [List.length_append, List.length_append, this]
  simp only [List.length_cons, List.length_nil]
  omega

theorem freeSectors_unique {ε : Type} {m : Mode} {h : Header} {t : PMap} {r r' : Res ε (List (Nat × Nat))} (a : FreeSectors m h t r)
    (b : FreeSectors m h t r') : r = r' := by
  cases a with
  | firstZero a1 a2 =>
    cases b with
    | sections l c d => exact absurd a2 (c a1).1
    | _ => rfl
  | lastMax a1 a2 =>
    cases b with
    | sections l c d => exact absurd a2 (c a1).2.1
    | _ => rfl
  | edge a1 a2 =>
    cases b with
    | sections l c d => have := c a1; omega
    | _ => rfl
  | sections l c d =>
    cases b with
    | firstZero a1 a2 => exact absurd a2 (c a1).1
    | lastMax a1 a2 => exact absurd a2 (c a1).2.1
    | edge a1 a2 => have := c a1; omega
    | sections l' c' d' => rw [gaps_unique d d']

/-- **C92**: what `find_free_sectors` gives, for every header and every table. -/
theorem c92_free {ε : Type} (m : Mode) (s : GptDisk) (h : Header) (hh : s.header (ε := Empty) = .ok h) (r : Res ε (List (Nat × Nat))) :
    inNat (s.findFreeSectors m) = r ↔ FreeSectors m h s.partitions r := by
  have key : FreeSectors m h s.partitions (inNat (s.findFreeSectors (ε := ε) m)) := by
    unfold findFreeSectors
    rw [header_ok_iff.mpr (header_ok_iff.mp hh), Res.ok_bind]
    have l1 := h.lastUsable.toNat_lt
    have panics : ∀ (x : UInt64), x.toNat = 0 → (sub64 .debug x 1 : Res ε UInt64) = .panic := fun x hx => by
      unfold sub64 arith
      rw [if_neg (by rw [u64_one, hx]; decide)]
    have panics' : ∀ (x : UInt64), x.toNat = 2 ^ 64 - 1 → (add64 .debug x 1 : Res ε UInt64) = .panic := fun x hx => by
      unfold add64 arith
      rw [if_neg (by rw [u64_one, hx]; decide)]
    by_cases h1 : m = .debug ∧ h.firstUsable.toNat = 0
    · obtain ⟨rfl, h1⟩ := h1
      rw [panics _ h1]
      exact .firstZero rfl h1
    rw [sub64_or (by
      cases m with
      | release => exact .inl rfl
      | debug => exact .inr (by rw [u64_one]; have : h.firstUsable.toNat ≠ 0 := fun e => h1 ⟨rfl, e⟩; omega)), Res.ok_bind]
    by_cases h2 : m = .debug ∧ h.lastUsable.toNat = 2 ^ 64 - 1
    · obtain ⟨rfl, h2⟩ := h2
      rw [panics' _ h2]
      exact .lastMax rfl h2
    rw [add64_or (by
      cases m with
      | release => exact .inl rfl
      | debug => exact .inr (by rw [u64_one]; have : h.lastUsable.toNat ≠ 2 ^ 64 - 1 := fun e => h2 ⟨rfl, e⟩; omega)), Res.ok_bind,
      freeChunks_all m _ (sort64_sorted _) (positions_even _ _ _)]
    have hp := bounds_perm h s.partitions
    rw [times_perm hp, times_perm hp]
    split
    · rename_i hd
      exact .edge hd.1 hd.2
    · rename_i hd
      unfold chunksOf
      rw [times_perm hp, times_perm hp]
      refine .sections _ (fun hm => ⟨fun e => h1 ⟨hm, e⟩, fun e => h2 ⟨hm, e⟩, ?_, ?_⟩) ?_
      · by_contra hc; exact hd ⟨hm, .inl (by omega)⟩
      · by_contra hc; exact hd ⟨hm, .inr (by omega)⟩
      · refine gaps_perm hp (gapsOf_gaps ?_ ?_)
        · rw [List.pairwise_map]
          exact (sort64_sorted _).imp fun h => UInt64.le_iff_toNat_le.mp h
        · rw [List.length_map]; exact positions_even _ _ _
  constructor
  · rintro rfl; exact key
  · intro hr; exact freeSectors_unique key hr

/-- **C92**: without a header it panics. -/
theorem c92_headerless {ε : Type} (m : Mode) (s : GptDisk) (hh : s.header (ε := Empty) = .panic) : s.findFreeSectors m = (.panic : Res ε _) := by
  unfold findFreeSectors GptDisk.header
  unfold GptDisk.header at hh
  cases hx : s.tryHeader with
  | ok h => rw [hx] at hh; cases hh
  | error e => rfl

/-! ### Cases -/

/-- A used partition inside another: the blocks 46..49 are reported free although both own them. -/
example : FreeSectors (ε := Empty) .debug exHeader [(1, exPart 40 60), (2, exPart 45 50)] (.ok [(34, 6), (46, 4), (61, 40)]) :=
  (c92_free .debug (exWith [(1, exPart 40 60), (2, exPart 45 50)]) exHeader rfl _).mp (by decide +kernel)

/-- A partition before the usable blocks: the blocks inside it are reported free. -/
example : FreeSectors (ε := Empty) .debug exHeader [(1, exPart 10 20)] (.ok [(11, 9), (34, 67)]) :=
  (c92_free .debug (exWith [(1, exPart 10 20)]) exHeader rfl _).mp (by decide +kernel)

/-- A partition over the first usable block: its blocks before the usable ones are reported free. -/
example : FreeSectors (ε := Empty) .debug exHeader [(1, exPart 20 40)] (.ok [(21, 12), (41, 60)]) :=
  (c92_free .debug (exWith [(1, exPart 20 40)]) exHeader rfl _).mp (by decide +kernel)

/-- A partition of one block. -/
example : FreeSectors (ε := Empty) .debug exHeader [(1, exPart 40 40)] (.ok [(34, 6), (41, 60)]) :=
  (c92_free .debug (exWith [(1, exPart 40 40)]) exHeader rfl _).mp (by decide +kernel)

/-- Two boundaries 0: a panic in debug builds, a section of 2^64-1 blocks in release builds. -/
example : FreeSectors (ε := Empty) .debug exHeader [(1, exPart 0 0)] .panic :=
  (c92_free .debug (exWith [(1, exPart 0 0)]) exHeader rfl _).mp (by decide +kernel)
example : FreeSectors (ε := Empty) .release exHeader [(1, exPart 0 0)] (.ok [(1, 2 ^ 64 - 1), (34, 67)]) :=
  (c92_free .release (exWith [(1, exPart 0 0)]) exHeader rfl _).mp (by decide +kernel)

/-- Two boundaries 2^64-1. -/
example : FreeSectors (ε := Empty) .release exHeader [(1, exPart 0xffffffffffffffff 0xffffffffffffffff)]
    (.ok [(34, 67), (0, 2 ^ 64 - 1)]) :=
  (c92_free .release (exWith [(1, exPart 0xffffffffffffffff 0xffffffffffffffff)]) exHeader rfl _).mp (by decide +kernel)

/-- The first usable block 0. -/
example (h : Header) (h0 : h.firstUsable = 0) (t : PMap) : FreeSectors (ε := Empty) .debug h t .panic := .firstZero rfl (by rw [h0]; rfl)

/-- A disk without a header. -/
example : ({ exDisk with primaryHeader := .error .invalidGptSignature } : GptDisk).header (ε := Empty) = .panic := by rfl

end Gpt
