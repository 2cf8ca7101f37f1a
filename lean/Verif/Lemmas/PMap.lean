import Verif.Lemmas.Base
import Verif.Model.Gpt
import Verif.Spec.Alloc
/-!
# The sorted association list that stands for `BTreeMap<u32, Partition>`
-/

namespace Gpt

theorem isUsed_iff (p : Partition) : p.isUsed = true ↔ p.partType.guid ≠ Uuid.nil := by
  unfold Partition.isUsed
  exact bne_iff_ne

namespace PMap

/-- Strictly increasing keys. -/
def Sorted (t : PMap) : Prop := t.Pairwise (fun a b => a.1 < b.1)

theorem u32_lt_irrefl (a : UInt32) : ¬ a < a := by rw [UInt32.lt_iff_toNat_lt]; omega

theorem u32_trichotomy {a b : UInt32} (h1 : ¬ a < b) (h2 : a ≠ b) : b < a := by
  rw [UInt32.lt_iff_toNat_lt] at *
  have : a.toNat ≠ b.toNat := fun e => h2 (UInt32.toNat_inj.mp e)
  omega

theorem get_nil (k : UInt32) : get [] k = none := rfl

theorem get_cons (e : UInt32 × Partition) (t : PMap) (k : UInt32) :
    get (e :: t) k = if e.1 = k then some e.2 else get t k := by
  unfold get
  rw [List.find?_cons]
  by_cases h : e.1 = k
  · simp [h]
  · rw [show (e.1 == k) = false by simpa using h, if_neg h]

theorem mem_of_get {t : PMap} {k : UInt32} {p : Partition} (h : get t k = some p) : (k, p) ∈ t := by
  induction t with
  | nil => simp [get_nil] at h
  | cons e t ih =>
    rw [get_cons] at h
    split at h
    · rename_i he
      obtain rfl := he
      obtain rfl := Option.some.inj h
      exact List.mem_cons_self
    · exact List.mem_cons_of_mem _ (ih h)

theorem get_of_mem {t : PMap} (hs : Sorted t) {k : UInt32} {p : Partition} (h : (k, p) ∈ t) : get t k = some p := by
  induction t with
  | nil => simp at h
  | cons e t ih =>
    rw [get_cons]
    rcases List.mem_cons.mp h with h | h
    · rw [← h]; simp
    · have := (List.pairwise_cons.mp hs).1 _ h
      rw [if_neg (fun e => by rw [e] at this; exact u32_lt_irrefl _ this)]
      exact ih (List.pairwise_cons.mp hs).2 h

theorem mem_iff_get {t : PMap} (hs : Sorted t) {k : UInt32} {p : Partition} : (k, p) ∈ t ↔ get t k = some p :=
  ⟨get_of_mem hs, mem_of_get⟩

theorem get_none_iff {t : PMap} {k : UInt32} : get t k = none ↔ ∀ p, (k, p) ∉ t := by
  induction t with
  | nil => simp [get_nil]
  | cons e t ih =>
    rw [get_cons]
    split
    · rename_i he
      simp only [reduceCtorEq, false_iff, not_forall, not_not]
      exact ⟨e.2, by rw [← he]; exact List.mem_cons_self⟩
    · rename_i he
      rw [ih]
      refine forall_congr' fun p => ?_
      rw [List.mem_cons, not_or]
      exact ⟨fun h => ⟨fun e' => he (by rw [← e']), h⟩, fun h => h.2⟩

theorem mem_insert_subset {t : PMap} {k : UInt32} {p : Partition} {e : UInt32 × Partition} (h : e ∈ insert k p t) :
    e = (k, p) ∨ e ∈ t := by
  induction t with
  | nil => simpa [insert] using h
  | cons a t ih =>
    unfold insert at h
    split at h
    · rcases List.mem_cons.mp h with h | h
      · exact .inl h
      · exact .inr h
    · split at h
      · rcases List.mem_cons.mp h with h | h
        · exact .inl h
        · exact .inr (List.mem_cons_of_mem _ h)
      · rcases List.mem_cons.mp h with h | h
        · exact .inr (by rw [h]; exact List.mem_cons_self)
        · rcases ih h with h | h
          · exact .inl h
          · exact .inr (List.mem_cons_of_mem _ h)

theorem insert_sorted {t : PMap} (hs : Sorted t) (k : UInt32) (p : Partition) : Sorted (insert k p t) := by
  induction t with
  | nil => simp [insert, Sorted]
  | cons a t ih =>
    have hs' := List.pairwise_cons.mp hs
    unfold insert
    split
    · rename_i h
      refine List.pairwise_cons.mpr ⟨?_, hs⟩
      intro e he
      rcases List.mem_cons.mp he with he | he
      · rw [he]; exact h
      · have := hs'.1 e he
        rw [UInt32.lt_iff_toNat_lt] at *; exact Nat.lt_trans h this
    · split
      · rename_i h1 h2
        subst h2
        exact List.pairwise_cons.mpr ⟨hs'.1, hs'.2⟩
      · rename_i h1 h2
        refine List.pairwise_cons.mpr ⟨?_, ih hs'.2⟩
        intro e he
        rcases mem_insert_subset he with he | he
        · rw [he]; exact u32_trichotomy h1 h2
        · exact hs'.1 e he

theorem get_insert {t : PMap} (k k' : UInt32) (p : Partition) :
    get (insert k p t) k' = if k' = k then some p else get t k' := by
  induction t with
  | nil =>
    unfold insert
    rw [get_cons]
    simp only [eq_comm]
  | cons a t ih =>
    unfold insert
    split
    · rename_i h
      rw [get_cons]
      simp only [eq_comm]
    · split
      · rename_i h1 h2
        rw [get_cons, get_cons]
        simp only
        by_cases h : k' = k
        · rw [if_pos h.symm, if_pos h]
        · rw [if_neg (fun e => h e.symm), if_neg h, if_neg (fun e => h (by rw [← e, h2]))]
      · rename_i h1 h2
        rw [get_cons, get_cons, ih]
        simp only
        by_cases h : a.1 = k'
        · rw [if_pos h, if_pos h, if_neg (fun e => h2 (by rw [← e, h]))]
        · rw [if_neg h, if_neg h]

theorem remove_sorted {t : PMap} (hs : Sorted t) (k : UInt32) : Sorted (remove t k) := List.Pairwise.filter _ hs

theorem mem_remove {t : PMap} {k : UInt32} {e : UInt32 × Partition} : e ∈ remove t k ↔ e ∈ t ∧ e.1 ≠ k := by
  unfold remove
  rw [List.mem_filter]
  simp

theorem get_remove {t : PMap} (k k' : UInt32) : get (remove t k) k' = if k' = k then none else get t k' := by
  induction t with
  | nil => simp [remove, get_nil]
  | cons a t ih =>
    unfold remove at ih ⊢
    rw [List.filter_cons]
    by_cases h : a.1 = k
    · rw [if_neg (by simpa using h), ih, get_cons]
      by_cases h' : k' = k
      · rw [if_pos h', if_pos h']
      · rw [if_neg h', if_neg h', if_neg (fun e => h' (by rw [← e, h]))]
    · rw [if_pos (by simpa using h), get_cons, get_cons, ih]
      by_cases h' : a.1 = k'
      · rw [if_pos h', if_pos h', if_neg (fun e => h (by rw [h', e]))]
      · rw [if_neg h', if_neg h']

theorem insert_length {t : PMap} (k : UInt32) (p : Partition) :
    (insert k p t).length ≤ t.length + 1 := by
  induction t with
  | nil => simp [insert]
  | cons a t ih =>
    unfold insert
    split
    · simp
    · split
      · simp
      · simpa using ih

theorem insert_ne_nil {t : PMap} (k : UInt32) (p : Partition) : insert k p t ≠ [] := by
  cases t with
  | nil => simp [insert]
  | cons a t =>
    unfold insert
    split
    · simp
    · split <;> simp

/-- Two maps with the same lookups are equal. -/
theorem ext {t t' : PMap} (hs : Sorted t) (hs' : Sorted t') (h : ∀ k, get t k = get t' k) : t = t' := by
  have hmem : ∀ e, e ∈ t ↔ e ∈ t' := by
    rintro ⟨k, p⟩
    rw [mem_iff_get hs, mem_iff_get hs', h]
  clear h
  induction t generalizing t' with
  | nil =>
    cases t' with
    | nil => rfl
    | cons a _ => exact absurd ((hmem a).mpr List.mem_cons_self) (by simp)
  | cons a t ih =>
    cases t' with
    | nil => exact absurd ((hmem a).mp List.mem_cons_self) (by simp)
    | cons b t' =>
      have h1 := List.pairwise_cons.mp hs
      have h2 := List.pairwise_cons.mp hs'
      have hab : a = b := by
        rcases List.mem_cons.mp ((hmem a).mp List.mem_cons_self) with h | h
        · exact h
        · rcases List.mem_cons.mp ((hmem b).mpr List.mem_cons_self) with h' | h'
          · exact h'.symm
          · have := h2.1 a h
            have := h1.1 b h'
            rw [UInt32.lt_iff_toNat_lt] at *; omega
      subst hab
      rw [ih h1.2 h2.2]
      intro e
      have := hmem e
      constructor
      · intro he
        rcases List.mem_cons.mp (this.mp (List.mem_cons_of_mem _ he)) with h | h
        · exact absurd (h1.1 e he) (by rw [h]; exact u32_lt_irrefl _)
        · exact h
      · intro he
        rcases List.mem_cons.mp (this.mpr (List.mem_cons_of_mem _ he)) with h | h
        · exact absurd (h2.1 e he) (by rw [h]; exact u32_lt_irrefl _)
        · exact h

end PMap

/-! ## Used entries -/

theorem mem_usedParts {t : PMap} {p : Partition} : p ∈ GptDisk.usedParts t ↔ Spec.Used t p := by
  unfold GptDisk.usedParts Spec.Used
  rw [List.mem_map]
  constructor
  · rintro ⟨⟨i, q⟩, h, rfl⟩
    rw [List.mem_filter] at h
    exact ⟨i, h.1, (isUsed_iff q).mp h.2⟩
  · rintro ⟨i, h1, h2⟩
    exact ⟨(i, p), List.mem_filter.mpr ⟨h1, (isUsed_iff p).mpr h2⟩, rfl⟩

theorem used_insert {t : PMap} (hs : PMap.Sorted t) {k : UInt32} {p q : Partition} :
    Spec.Used (PMap.insert k p t) q ↔
      (q = p ∧ p.partType.guid ≠ Uuid.nil) ∨ ∃ i, i ≠ k ∧ (i, q) ∈ t ∧ q.partType.guid ≠ Uuid.nil := by
  unfold Spec.Used
  simp only [PMap.mem_iff_get (PMap.insert_sorted hs k p), PMap.get_insert, PMap.mem_iff_get hs]
  constructor
  · rintro ⟨i, h1, h2⟩
    split at h1
    · obtain rfl := Option.some.inj h1
      exact .inl ⟨rfl, h2⟩
    · rename_i hi
      exact .inr ⟨i, hi, h1, h2⟩
  · rintro (⟨rfl, h⟩ | ⟨i, h1, h2, h3⟩)
    · exact ⟨k, by simp, h⟩
    · exact ⟨i, by rw [if_neg h1]; exact h2, h3⟩

end Gpt
