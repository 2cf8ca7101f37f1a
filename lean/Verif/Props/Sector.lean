import Verif.Props.Conserve
import Verif.Props.Less
/-!
# What an addition does to the list of free sections: C140
-/

namespace Gpt

open Spec GptDisk

/-- `L` lists the maximal runs of blocks in `F`, in order: not empty, and a block outside `F` between any two. -/
structure Spec.Runs (F : Nat → Prop) (L : List (UInt64 × UInt64)) : Prop where
  covers : ∀ x, (∃ sec ∈ L, sec.1.toNat ≤ x ∧ x < sec.1.toNat + sec.2.toNat) ↔ F x
  apart : L.Pairwise fun a b => a.1.toNat + a.2.toNat < b.1.toNat
  nonempty : ∀ sec ∈ L, 1 ≤ sec.2.toNat

theorem runs_tail {F : Nat → Prop} {a : UInt64 × UInt64} {L : List (UInt64 × UInt64)} (h : Runs F (a :: L)) :
    Runs (fun x => F x ∧ a.1.toNat + a.2.toNat ≤ x) L := by
  obtain ⟨h1, h2⟩ := List.pairwise_cons.mp h.apart
  refine ⟨fun x => ⟨?_, ?_⟩, h2, fun sec hs => h.nonempty sec (List.mem_cons_of_mem _ hs)⟩
  · rintro ⟨sec, hs, hx⟩
    have := h1 sec hs
    exact ⟨(h.covers x).mp ⟨sec, List.mem_cons_of_mem _ hs, hx⟩, by omega⟩
  · rintro ⟨hf, hx⟩
    obtain ⟨sec, hs, e⟩ := (h.covers x).mpr hf
    rcases List.mem_cons.mp hs with rfl | hs
    · omega
    · exact ⟨sec, hs, e⟩

theorem runs_first {F : Nat → Prop} {a : UInt64 × UInt64} {L : List (UInt64 × UInt64)} (h : Runs F (a :: L)) :
    F a.1.toNat ∧ ¬ F (a.1.toNat + a.2.toNat) ∧ (∀ x, F x → a.1.toNat ≤ x) ∧ ∀ x, a.1.toNat ≤ x → x < a.1.toNat + a.2.toNat → F x := by
  obtain ⟨h1, h2⟩ := List.pairwise_cons.mp h.apart
  have hn := h.nonempty a List.mem_cons_self
  have all : ∀ x, a.1.toNat ≤ x → x < a.1.toNat + a.2.toNat → F x := fun x u v => (h.covers x).mp ⟨a, List.mem_cons_self, u, v⟩
  refine ⟨all _ (Nat.le_refl _) (by omega), fun hf => ?_, fun x hf => ?_, all⟩
  all_goals
    obtain ⟨sec, hs, e⟩ := (h.covers _).mpr hf
    rcases List.mem_cons.mp hs with rfl | hs
    · omega
    · have := h1 sec hs
      omega

/-- The list of maximal runs is determined by the blocks. -/
theorem runs_unique {F : Nat → Prop} {L L' : List (UInt64 × UInt64)} (h : Runs F L) (h' : Runs F L') : L = L' := by
  induction L generalizing F L' with
  | nil =>
    cases L' with
    | nil => rfl
    | cons b L' =>
      obtain ⟨f, -⟩ := runs_first h'
      obtain ⟨_, hs, _⟩ := (h.covers _).mpr f
      cases hs
  | cons a L ih =>
    cases L' with
    | nil =>
      obtain ⟨f, -⟩ := runs_first h
      obtain ⟨_, hs, _⟩ := (h'.covers _).mpr f
      cases hs
    | cons b L' =>
      obtain ⟨f1, f2, f3, f4⟩ := runs_first h
      obtain ⟨g1, g2, g3, g4⟩ := runs_first h'
      have e1 : a.1.toNat = b.1.toNat := Nat.le_antisymm (f3 _ g1) (g3 _ f1)
      have e2 : a.2.toNat = b.2.toNat := by
        rcases Nat.lt_trichotomy a.2.toNat b.2.toNat with e | e | e
        · exact absurd (g4 (a.1.toNat + a.2.toNat) (by omega) (by omega)) f2
        · exact e
        · exact absurd (f4 (b.1.toNat + b.2.toNat) (by omega) (by omega)) g2
      have e : a = b := Prod.ext (UInt64.toNat_inj.mp e1) (UInt64.toNat_inj.mp e2)
      subst e
      rw [ih (runs_tail h) (runs_tail h')]

theorem sections_runs {h : Header} {t : PMap} {L : List (UInt64 × UInt64)} (hs : Sections h t L) : Runs (Free h t) L :=
  ⟨hs.covers, hs.apart.imp fun ⟨p, _, _, _, _⟩ => by omega, hs.nonempty⟩

/-- What is left of the section `(st, len)` when the blocks `first`, …, `first + n - 1` are taken out of it: the part before, the part after. -/
def Spec.cutOut (st len first n : UInt64) : List (UInt64 × UInt64) :=
  (if st < first then [(st, first - st)] else []) ++ (if first + n < st + len then [(first + n, st + len - (first + n))] else [])

theorem mem_cutOut {st len first n : UInt64} (h1 : st.toNat ≤ first.toNat) (h2 : first.toNat + n.toNat ≤ st.toNat + len.toNat)
    (h3 : st.toNat + len.toNat < 2 ^ 64) {sec : UInt64 × UInt64} (hs : sec ∈ cutOut st len first n) :
    (sec.1.toNat = st.toNat ∧ sec.1.toNat + sec.2.toNat = first.toNat ∧ 1 ≤ sec.2.toNat) ∨
    (sec.1.toNat = first.toNat + n.toNat ∧ sec.1.toNat + sec.2.toNat = st.toNat + len.toNat ∧ 1 ≤ sec.2.toNat) := by
  have e1 : (first + n).toNat = first.toNat + n.toNat := u64_add_toNat (by omega)
  have e2 : (st + len).toNat = st.toNat + len.toNat := u64_add_toNat (by omega)
  unfold cutOut at hs
  rcases List.mem_append.mp hs with hs | hs
  · left
    split at hs
    · rename_i c
      cases List.mem_singleton.mp hs
      have c := UInt64.lt_iff_toNat_lt.mp c
      have e := UInt64.toNat_sub_of_le first st (UInt64.le_iff_toNat_le.mpr (by omega))
      refine ⟨rfl, ?_, ?_⟩
      · show st.toNat + (first - st).toNat = first.toNat
        omega
      · show 1 ≤ (first - st).toNat
        omega
    · cases hs
  · right
    split at hs
    · rename_i c
      cases List.mem_singleton.mp hs
      have c := UInt64.lt_iff_toNat_lt.mp c
      have e := UInt64.toNat_sub_of_le (st + len) (first + n) (UInt64.le_iff_toNat_le.mpr (by omega))
      refine ⟨e1, ?_, ?_⟩
      · show (first + n).toNat + (st + len - (first + n)).toNat = st.toNat + len.toNat
        omega
      · show 1 ≤ (st + len - (first + n)).toNat
        omega
    · cases hs

theorem cutOut_covers {st len first n : UInt64} (h1 : st.toNat ≤ first.toNat) (h2 : first.toNat + n.toNat ≤ st.toNat + len.toNat)
    (h3 : st.toNat + len.toNat < 2 ^ 64) {x : Nat} (hx1 : st.toNat ≤ x) (hx2 : x < st.toNat + len.toNat)
    (hx : ¬ (first.toNat ≤ x ∧ x < first.toNat + n.toNat)) :
    ∃ sec ∈ cutOut st len first n, sec.1.toNat ≤ x ∧ x < sec.1.toNat + sec.2.toNat := by
  have e1 : (first + n).toNat = first.toNat + n.toNat := u64_add_toNat (by omega)
  have e2 : (st + len).toNat = st.toNat + len.toNat := u64_add_toNat (by omega)
  unfold cutOut
  by_cases c : x < first.toNat
  · have c' : st < first := UInt64.lt_iff_toNat_lt.mpr (by omega)
    have e := UInt64.toNat_sub_of_le first st (UInt64.le_iff_toNat_le.mpr (by omega))
    refine ⟨(st, first - st), List.mem_append_left _ ?_, hx1, ?_⟩
    · rw [if_pos c']
      exact List.mem_singleton_self _
    · show x < st.toNat + (first - st).toNat
      omega
  · have c' : first + n < st + len := UInt64.lt_iff_toNat_lt.mpr (by omega)
    have e := UInt64.toNat_sub_of_le (st + len) (first + n) (UInt64.le_iff_toNat_le.mpr (by omega))
    refine ⟨(first + n, st + len - (first + n)), List.mem_append_right _ ?_, ?_, ?_⟩
    · rw [if_pos c']
      exact List.mem_singleton_self _
    · show (first + n).toNat ≤ x
      omega
    · show x < (first + n).toNat + (st + len - (first + n)).toNat
      omega

theorem runs_cut {F : Nat → Prop} {A B : List (UInt64 × UInt64)} {st len first n : UInt64} (h : Runs F (A ++ (st, len) :: B))
    (h1 : st.toNat ≤ first.toNat) (h2 : first.toNat + n.toNat ≤ st.toNat + len.toNat) (h3 : st.toNat + len.toNat < 2 ^ 64) (hn : 1 ≤ n.toNat) :
    Runs (fun x => F x ∧ ¬ (first.toNat ≤ x ∧ x < first.toNat + n.toNat)) (A ++ (cutOut st len first n ++ B)) := by
  obtain ⟨pA, pB, pAB⟩ := List.pairwise_append.mp h.apart
  obtain ⟨pS, pB⟩ := List.pairwise_cons.mp pB
  have hAS : ∀ a ∈ A, a.1.toNat + a.2.toNat < st.toNat := fun a ha => pAB a ha _ List.mem_cons_self
  have hAB : ∀ a ∈ A, ∀ b ∈ B, a.1.toNat + a.2.toNat < b.1.toNat := fun a ha b hb => pAB a ha b (List.mem_cons_of_mem _ hb)
  have hSB : ∀ b ∈ B, st.toNat + len.toNat < b.1.toNat := pS
  have mc := @mem_cutOut st len first n h1 h2 h3
  refine ⟨fun x => ⟨?_, ?_⟩, ?_, ?_⟩
  · rintro ⟨sec, hs, e1, e2⟩
    rcases List.mem_append.mp hs with hs | hs
    · have := hAS sec hs
      exact ⟨(h.covers x).mp ⟨sec, List.mem_append_left _ hs, e1, e2⟩, by omega⟩
    · rcases List.mem_append.mp hs with hs | hs
      · refine ⟨(h.covers x).mp ⟨(st, len), List.mem_append_right _ List.mem_cons_self, ?_, ?_⟩, ?_⟩
        · show st.toNat ≤ x
          rcases mc hs with e | e <;> omega
        · show x < st.toNat + len.toNat
          rcases mc hs with e | e <;> omega
        · rcases mc hs with e | e <;> omega
      · have := hSB sec hs
        exact ⟨(h.covers x).mp ⟨sec, List.mem_append_right _ (List.mem_cons_of_mem _ hs), e1, e2⟩, by omega⟩
  · rintro ⟨hf, hx⟩
    obtain ⟨sec, hs, e1, e2⟩ := (h.covers x).mpr hf
    rcases List.mem_append.mp hs with hs | hs
    · exact ⟨sec, List.mem_append_left _ hs, e1, e2⟩
    · rcases List.mem_cons.mp hs with rfl | hs
      · obtain ⟨sec, hs, e⟩ := cutOut_covers h1 h2 h3 e1 e2 hx
        exact ⟨sec, List.mem_append_right _ (List.mem_append_left _ hs), e⟩
      · exact ⟨sec, List.mem_append_right _ (List.mem_append_right _ hs), e1, e2⟩
  · refine List.pairwise_append.mpr ⟨pA, List.pairwise_append.mpr ⟨?_, pB, ?_⟩, ?_⟩
    · unfold cutOut
      refine List.pairwise_append.mpr ⟨by split <;> simp, by split <;> simp, ?_⟩
      intro a ha b hb
      split at ha
      · split at hb
        · cases List.mem_singleton.mp ha
          cases List.mem_singleton.mp hb
          have e1 : (first + n).toNat = first.toNat + n.toNat := u64_add_toNat (by omega)
          have e := UInt64.toNat_sub_of_le first st (UInt64.le_iff_toNat_le.mpr (by omega))
          show st.toNat + (first - st).toNat < (first + n).toNat
          omega
        · cases hb
      · cases ha
    · intro a ha b hb
      have := hSB b hb
      rcases mc ha with e | e <;> omega
    · intro a ha b hb
      rcases List.mem_append.mp hb with hb | hb
      · have := hAS a ha
        rcases mc hb with e | e <;> omega
      · exact hAB a ha b hb
  · intro sec hs
    rcases List.mem_append.mp hs with hs | hs
    · exact h.nonempty sec (List.mem_append_left _ hs)
    · rcases List.mem_append.mp hs with hs | hs
      · rcases mc hs with e | e <;> omega
      · exact h.nonempty sec (List.mem_append_right _ (List.mem_cons_of_mem _ hs))

/-- **C140**. Any blocks `first`, …, `first + n - 1` of a section that `find_free_sectors` reports can be taken with `add_partition_at` under any
free id within the slots, and afterwards `find_free_sectors` reports the same list with those blocks cut out of that section. -/
theorem c140_cut (m : Mode) (name : String) (id : UInt32) (first n : UInt64) (ty : PType) (flags : UInt64) (fresh fresh2 : Uuid)
    {s : GptDisk} {h : Header} (hs : Ready h s) {A B : List (UInt64 × UInt64)} {st len : UInt64}
    (hL : (s.findFreeSectors m : Res GptError _) = .ok (A ++ (st, len) :: B)) (h1 : st.toNat ≤ first.toNat)
    (h2 : first.toNat + n.toNat ≤ st.toNat + len.toNat) (h0 : n ≠ 0) (hid : id ≠ 0) (hnt : ¬ Taken s.partitions id.toNat)
    (hslots : max id.toNat 128 ≤ h.numParts.toNat) (hty : ty.guid ≠ Uuid.nil) :
    ∃ t, addPartitionAt m name id first n ty flags fresh fresh2 s = (.ok id, { s with partitions := t }) ∧
      PMap.get t id = some ⟨ty, fresh, first, first + n - 1, flags, name⟩ ∧ Ready h { s with partitions := t } ∧
      (({ s with partitions := t } : GptDisk).findFreeSectors m : Res GptError _) = .ok (A ++ (cutOut st len first n ++ B)) := by
  obtain ⟨L, hL', hsec⟩ := findFreeSectors_sections (ε := GptError) m s hs.header hs.range hs.table
  obtain rfl := Res.ok.inj (hL'.symm.trans hL)
  have hmem : (st, len) ∈ A ++ (st, len) :: B := List.mem_append_right _ List.mem_cons_self
  have hb := hsec.bound _ hmem
  simp only at hb
  have hlast := hs.range.last
  have hn1 : 1 ≤ n.toNat := by
    rcases Nat.eq_zero_or_pos n.toNat with e | e
    · exact absurd (UInt64.toNat_inj.mp e) h0
    · exact e
  have hf : FreeExtent h s.partitions first.toNat n.toNat := hsec.inside hmem h1 h2
  have run := c76_add_partition_at m name id first n ty flags fresh fresh2 s h hs.header hs.range hs.table
  generalize addPartitionAt m name id first n ty flags fresh fresh2 s = xx at run ⊢
  rcases xx with ⟨r, t'⟩
  simp only at run
  cases run with
  | zero e => rcases e with e | e <;> contradiction
  | taken _ _ e => exact absurd e hnt
  | noSpace _ _ _ e => exact absurd hf (e _ (Nat.le_refl _))
  | overflow _ _ _ _ _ _ _ e => omega
  | insert _ _ _ _ _ _ _ _ _ hi =>
    cases hi with
    | refused e => omega
    | rebuilt _ _ _ e => omega
    | failed _ _ _ _ e => omega
    | fits t _ hput =>
      have hend : (first + n - 1).toNat + 1 = first.toNat + n.toNat := by
        have e1 : (first + n).toNat = first.toNat + n.toNat := u64_add_toNat (by omega)
        have e2 : (1 : UInt64) ≤ first + n := by rw [UInt64.le_iff_toNat_le, e1]; show 1 ≤ _; omega
        rw [UInt64.toNat_sub_of_le _ _ e2, e1]
        show _ - 1 + 1 = _
        omega
      have et := put_eq hs.table.keys hput
      have ht' : Tidy h t := by rw [et]; exact tidy_insert hs.table hf hn1 rfl hend
      obtain ⟨L', hL2, hs'⟩ := findFreeSectors_sections (ε := GptError) m { s with partitions := t } (h := h) hs.header hs.range ht'
      refine ⟨t, rfl, PMap.get_of_mem hput.keys hput.new, ⟨hs.header, hs.range, ht', hs.count⟩, ?_⟩
      rw [hL2]
      refine congrArg Res.ok (runs_unique (sections_runs hs') ?_)
      have cut := runs_cut (n := n) (sections_runs hsec) h1 h2 (by omega) hn1
      refine ⟨fun x => (cut.covers x).trans ?_, cut.apart, cut.nonempty⟩
      show _ ↔ Free h t x
      rw [et]
      have hcov : Covers ⟨ty, fresh, first, first + n - 1, flags, name⟩ x ↔ first.toNat ≤ x ∧ x < first.toNat + n.toNat := by
        show first.toNat ≤ x ∧ x ≤ (first + n - 1).toNat ↔ _
        omega
      have ht := hs.table
      constructor
      · rintro ⟨⟨g1, g2, g3⟩, hx⟩
        refine ⟨g1, g2, fun q hq hc => ?_⟩
        rcases (used_insert ht.keys).mp hq with ⟨rfl, -⟩ | ⟨i, -, hm, hu⟩
        · exact hx (hcov.mp hc)
        · exact g3 q ⟨i, hm, hu⟩ hc
      · rintro ⟨g1, g2, g3⟩
        refine ⟨⟨g1, g2, fun q hq hc => ?_⟩, fun hx => g3 _ ((used_insert ht.keys).mpr (.inl ⟨rfl, hty⟩)) (hcov.mpr hx)⟩
        obtain ⟨i, hi, hu⟩ := hq
        refine g3 q ((used_insert ht.keys).mpr (.inr ⟨i, fun e => hnt ⟨i, q, hi, by rw [e], hu⟩, hi, hu⟩)) hc

/-- **C140**, a whole section: it is gone from the list, and nothing else changes. -/
theorem c140_whole (m : Mode) (name : String) (id : UInt32) (ty : PType) (flags : UInt64) (fresh fresh2 : Uuid)
    {s : GptDisk} {h : Header} (hs : Ready h s) {A B : List (UInt64 × UInt64)} {st len : UInt64}
    (hL : (s.findFreeSectors m : Res GptError _) = .ok (A ++ (st, len) :: B)) (hid : id ≠ 0) (hnt : ¬ Taken s.partitions id.toNat)
    (hslots : max id.toNat 128 ≤ h.numParts.toNat) (hty : ty.guid ≠ Uuid.nil) :
    ∃ t, addPartitionAt m name id st len ty flags fresh fresh2 s = (.ok id, { s with partitions := t }) ∧
      (({ s with partitions := t } : GptDisk).findFreeSectors m : Res GptError _) = .ok (A ++ B) := by
  obtain ⟨L, hL', hsec⟩ := findFreeSectors_sections (ε := GptError) m s hs.header hs.range hs.table
  obtain rfl := Res.ok.inj (hL'.symm.trans hL)
  have h0 : len ≠ 0 := by
    rintro rfl
    exact absurd (hsec.nonempty _ (List.mem_append_right _ List.mem_cons_self)) (by show ¬ 1 ≤ 0; omega)
  obtain ⟨t, e, -, -, f⟩ := c140_cut m name id st len ty flags fresh fresh2 hs hL (Nat.le_refl _) (Nat.le_refl _) h0 hid hnt hslots hty
  refine ⟨t, e, ?_⟩
  rw [f]
  unfold cutOut
  rw [if_neg (UInt64.lt_irrefl _), if_neg (UInt64.lt_irrefl _)]
  rfl

/-! ## The hypotheses are met -/

/-- `sessDisk` has the free section of 31 blocks from 36: blocks 40 to 43 are cut out of it. -/
example (m : Mode) : ((sessDisk m).findFreeSectors m : Res GptError _) = .ok ([] ++ (36, 31) :: []) ∧
    ∃ t, addPartitionAt m "b" 5 40 4 (exPart 0 0).partType 0 Uuid.nil Uuid.nil (sessDisk m) = (.ok 5, { sessDisk m with partitions := t }) ∧
      (({ sessDisk m with partitions := t } : GptDisk).findFreeSectors m : Res GptError _) = .ok [(36, 4), (44, 23)] := by
  obtain ⟨h, hs⟩ := sessDisk_ready m
  have hL : ((sessDisk m).findFreeSectors m : Res GptError _) = .ok ([] ++ (36, 31) :: []) := by cases m <;> decide +kernel
  refine ⟨hL, ?_⟩
  obtain ⟨h', e1, -, e3, -⟩ := c67_table (sessDisk_session m)
  have := hs.header
  rw [e1] at this
  cases this
  obtain ⟨t, a, -, -, b⟩ := c140_cut m "b" 5 40 4 (exPart 0 0).partType 0 Uuid.nil Uuid.nil hs hL (by decide) (by decide) (by decide) (by decide)
    (by
      rintro ⟨i, q, hm, hi, -⟩
      rw [sessDisk_partitions] at hm
      cases List.mem_singleton.mp hm
      exact absurd hi (by decide))
    (by rw [e3]; decide) (by decide)
  exact ⟨t, a, b⟩

end Gpt
