import Verif.Props.Gaps
import Verif.Props.Outcomes
/-!
# C93: every outcome of `add_partition` and `add_partition_at`, whatever the table

C76 and C77 suppose a table whose partitions are apart and inside the usable blocks. Here the table and the header are any, the
alignment is any, and the sections tried are those of C92.
-/

namespace Gpt

open GptDisk

namespace Spec

/-- `add_partition_at` on a disk with a header. -/
inductive AddAtAny (m : Mode) (h : Header) (s : GptDisk) (name : String) (id : UInt32) (first length : UInt64) (ty : PType)
    (flags : UInt64) (guid : Uuid) : Res GptError UInt32 → GptDisk → Prop where
  | zero : length = 0 ∨ id = 0 → AddAtAny m h s name id first length ty flags guid .panic s
  | taken : length ≠ 0 → id ≠ 0 → Taken s.partitions id.toNat →
      AddAtAny m h s name id first length ty flags guid (.err .partitionIdAlreadyUsed) s
  | sectors : length ≠ 0 → id ≠ 0 → ¬ Taken s.partitions id.toNat → FreeSectors (ε := GptError) m h s.partitions .panic →
      AddAtAny m h s name id first length ty flags guid .panic s
  | noSpace (L : List (Nat × Nat)) : length ≠ 0 → id ≠ 0 → ¬ Taken s.partitions id.toNat →
      FreeSectors (ε := GptError) m h s.partitions (.ok L) → (∀ g ∈ L, ¬ (g.1 ≤ first.toNat ∧ length.toNat ≤ g.2)) →
      AddAtAny m h s name id first length ty flags guid (.err .notEnoughSpace) s
  | overflow (L : List (Nat × Nat)) : length ≠ 0 → id ≠ 0 → ¬ Taken s.partitions id.toNat →
      FreeSectors (ε := GptError) m h s.partitions (.ok L) → (∃ g ∈ L, g.1 ≤ first.toNat ∧ length.toNat ≤ g.2) →
      m = .debug → 2 ^ 64 ≤ first.toNat + length.toNat →
      AddAtAny m h s name id first length ty flags guid .panic s
  | insert (L : List (Nat × Nat)) (r : Res GptError UInt32) (s' : GptDisk) : length ≠ 0 → id ≠ 0 → ¬ Taken s.partitions id.toNat →
      FreeSectors (ε := GptError) m h s.partitions (.ok L) → (∃ g ∈ L, g.1 ≤ first.toNat ∧ length.toNat ≤ g.2) →
      (m = .debug → first.toNat + length.toNat < 2 ^ 64) →
      Insert m h s id ⟨ty, guid, first, first + length - 1, flags, name⟩ r s' →
      AddAtAny m h s name id first length ty flags guid r s'

/-- The distance from a block to the next aligned one. -/
def Offset (align : Option UInt64) (first off : Nat) : Prop :=
  (∀ a, align = some a → a.toNat ∣ first + off) ∧ ∀ k, (∀ a, align = some a → a.toNat ∣ first + k) → off ≤ k

/-- What becomes of a section: `off` is the distance of its first block to the next aligned one. In release builds the blocks needed
are counted modulo 2^64. -/
def Skipped (m : Mode) (align : Option UInt64) (n : Nat) (g : Nat × Nat) : Prop :=
  ∃ off, Offset align g.1 off ∧ (m = .debug → off + n < 2 ^ 64) ∧ g.2 < (off + n) % 2 ^ 64

/-- `g` is the first section in `L` that is not skipped. -/
def Reached (m : Mode) (align : Option UInt64) (n : Nat) (L : List (Nat × Nat)) (g : Nat × Nat) : Prop :=
  ∃ pre post, L = pre ++ g :: post ∧ ∀ x ∈ pre, Skipped m align n x

/-- All ids up to the number of slots are taken, and that number is 2^32-1. -/
def Full (h : Header) (t : PMap) : Prop := h.numParts.toNat = 2 ^ 32 - 1 ∧ ∀ i, 1 ≤ i → i < 2 ^ 32 → Taken t i

/-- The id `add_partition` takes; in release builds 0 if all are taken. -/
def AnyId (m : Mode) (h : Header) (t : PMap) (i : Nat) : Prop :=
  (¬ Full h t ∧ NextId h t i) ∨ (Full h t ∧ m = .release ∧ i = 0)

/-- `add_partition` on a disk with a header. -/
inductive AddAny (m : Mode) (h : Header) (s : GptDisk) (name : String) (size : UInt64) (ty : PType) (flags : UInt64)
    (align : Option UInt64) (guid : Uuid) : Res GptError UInt32 → GptDisk → Prop where
  | zero : size = 0 → AddAny m h s name size ty flags align guid .panic s
  | sectors : size ≠ 0 → FreeSectors (ε := GptError) m h s.partitions .panic → AddAny m h s name size ty flags align guid .panic s
  | zeroAlign (L : List (Nat × Nat)) : size ≠ 0 → FreeSectors (ε := GptError) m h s.partitions (.ok L) → align = some 0 → L ≠ [] →
      AddAny m h s name size ty flags align guid .panic s
  | empty : size ≠ 0 → FreeSectors (ε := GptError) m h s.partitions (.ok []) → align = some 0 →
      AddAny m h s name size ty flags align guid (.err .notEnoughSpace) s
  | noSpace (L : List (Nat × Nat)) (n : Nat) : size ≠ 0 → FreeSectors (ε := GptError) m h s.partitions (.ok L) → align ≠ some 0 →
      JustEnough s.config.lbSize size.toNat n → (∀ g ∈ L, Skipped m align n g) →
      AddAny m h s name size ty flags align guid (.err .notEnoughSpace) s
  | overflow (L : List (Nat × Nat)) (n : Nat) (g : Nat × Nat) (off : Nat) : size ≠ 0 →
      FreeSectors (ε := GptError) m h s.partitions (.ok L) → align ≠ some 0 → JustEnough s.config.lbSize size.toNat n →
      Reached m align n L g → Offset align g.1 off → m = .debug → 2 ^ 64 ≤ off + n →
      AddAny m h s name size ty flags align guid .panic s
  | noId (L : List (Nat × Nat)) (n : Nat) (g : Nat × Nat) (off : Nat) : size ≠ 0 →
      FreeSectors (ε := GptError) m h s.partitions (.ok L) → align ≠ some 0 → JustEnough s.config.lbSize size.toNat n →
      Reached m align n L g → Offset align g.1 off → m = .debug → off + n < 2 ^ 64 → off + n ≤ g.2 → Full h s.partitions →
      AddAny m h s name size ty flags align guid .panic s
  | insert (L : List (Nat × Nat)) (n start : UInt64) (g : Nat × Nat) (off : Nat) (id : UInt32) (r : Res GptError UInt32)
      (s' : GptDisk) : size ≠ 0 → FreeSectors (ε := GptError) m h s.partitions (.ok L) → align ≠ some 0 →
      JustEnough s.config.lbSize size.toNat n.toNat → Reached m align n.toNat L g → Offset align g.1 off →
      (m = .debug → off + n.toNat < 2 ^ 64) → (off + n.toNat) % 2 ^ 64 ≤ g.2 → start.toNat = (g.1 + off) % 2 ^ 64 →
      AnyId m h s.partitions id.toNat → Insert m h s id ⟨ty, guid, start, start + n - 1, flags, name⟩ r s' →
      AddAny m h s name size ty flags align guid r s'

end Spec

open Spec

/-- The sections of C92 are those of the model, as numbers of 64 bits. -/
theorem freeSectors_run (m : Mode) {s : GptDisk} {h : Header} (hh : s.tryHeader = .ok h) :
    ((s.findFreeSectors m : Res GptError _) = .panic ∧ FreeSectors (ε := GptError) m h s.partitions .panic) ∨
    ∃ L, (s.findFreeSectors m : Res GptError _) = .ok L ∧
      FreeSectors (ε := GptError) m h s.partitions (.ok (L.map fun g => (g.1.toNat, g.2.toNat))) := by
  have key := (c92_free (ε := GptError) m s h (header_ok_iff.mpr hh) _).mp rfl
  cases hf : (s.findFreeSectors m : Res GptError _) with
  | ok L => rw [hf] at key; exact .inr ⟨L, rfl, key⟩
  | panic => rw [hf] at key; exact .inl ⟨rfl, key⟩
  | err e => rw [hf] at key; cases key

/-- In debug builds the sections end below 2^64. -/
theorem freeSectors_below {h : Header} {t : PMap} {L : List (Nat × Nat)} (hf : FreeSectors (ε := GptError) .debug h t (.ok L)) :
    ∀ g ∈ L, g.1 + g.2 < 2 ^ 64 := by
  generalize hr : (Res.ok L : Res GptError _) = r at hf
  cases hf with
  | firstZero => cases hr
  | lastMax => cases hr
  | edge => cases hr
  | sections l hd hg =>
    obtain ⟨_, _, h0, h1⟩ := hd rfl
    rw [Nat.div_eq_of_lt h0, Nat.div_eq_of_lt h1] at hr
    injection hr with hr
    simp only [List.replicate_zero, List.nil_append, List.append_nil] at hr
    subst hr
    intro g hm
    have hpos := hg.some g hm
    have hx := (hg.blocks (g.1 + g.2 - 1)).mp ⟨g, hm, by omega, by omega⟩
    have heven : (bounds h t).length % 2 = 0 := by
      unfold bounds
      have : ∀ ps : List Partition, (ps.flatMap fun p => [p.firstLba.toNat, p.lastLba.toNat]).length = 2 * ps.length := by
        intro ps
        induction ps with
        | nil => rfl
        | cons p ps ih => rw [List.flatMap_cons, List.length_append, ih, List.length_cons]; simp only [List.length_cons, List.length_nil]; omega
      rw [List.length_cons, List.length_cons, this]
      omega
    have hlt : ∀ x ∈ bounds h t, x < 2 ^ 64 := by
      intro x hx
      unfold bounds at hx
      simp only [List.mem_cons, List.mem_flatMap, List.not_mem_nil, or_false] at hx
      have lt : ∀ n : Nat, n % 2 ^ 64 < 2 ^ 64 := fun n => Nat.mod_lt _ (Nat.two_pow_pos 64)
      rcases hx with hx | hx | ⟨p, _, hx | hx⟩
      · exact hx ▸ lt _
      · exact hx ▸ lt _
      · exact hx ▸ p.firstLba.toNat_lt
      · exact hx ▸ p.lastLba.toNat_lt
    by_contra hc
    have hall : (bounds h t).countP (· < g.1 + g.2 - 1) = (bounds h t).length := by
      rw [List.countP_eq_length]
      intro x hxm
      have := hlt x hxm
      have hne : x ≠ g.1 + g.2 - 1 := fun e => hx.1 (e ▸ hxm)
      simp only [decide_eq_true_eq]
      omega
    omega

/-- **C93** for `add_partition_at`. -/
theorem c93_add_partition_at (m : Mode) (name : String) (id : UInt32) (first length : UInt64) (ty : PType) (flags : UInt64)
    (fresh fresh2 : Uuid) (s : GptDisk) (h : Header) (hh : s.tryHeader = .ok h)
    (hk : s.partitions.Pairwise (fun a b => a.1 < b.1)) :
    AddAtAny m h s name id first length ty flags fresh
      (addPartitionAt m name id first length ty flags fresh fresh2 s).1
      (addPartitionAt m name id first length ty flags fresh fresh2 s).2 := by
  by_cases h0 : length = 0
  · unfold addPartitionAt
    rw [if_pos h0]
    exact .zero (.inl h0)
  by_cases hid : id = 0
  · unfold addPartitionAt
    rw [if_neg h0, if_pos hid]
    exact .zero (.inr hid)
  by_cases htk : Taken s.partitions id.toNat
  · unfold addPartitionAt
    rw [if_neg h0, if_neg hid]
    simp only [M.bind_apply, M.get_apply]
    rw [if_pos ((any_used_iff hk id).mpr htk)]
    exact .taken h0 hid htk
  rcases freeSectors_run m hh with ⟨hp, hF⟩ | ⟨L, hL, hF⟩
  · unfold addPartitionAt
    rw [if_neg h0, if_neg hid]
    simp only [M.bind_apply, M.get_apply]
    rw [if_neg (fun e => htk ((any_used_iff hk id).mp e))]
    simp only [M.bind_apply, M.lift_apply, hp]
    exact .sectors h0 hid htk hF
  rw [addPartitionAt_eq h0 hid hL, if_neg (fun e => htk ((any_used_iff hk id).mp e))]
  by_cases hex : ∃ sec ∈ L, sec.1.toNat ≤ first.toNat ∧ length.toNat ≤ sec.2.toNat
  · rw [addPartitionAtLoop_accepts hex]
    have hex' : ∃ g ∈ L.map fun g => (g.1.toNat, g.2.toNat), g.1 ≤ first.toNat ∧ length.toNat ≤ g.2 := by
      obtain ⟨sec, hs, e⟩ := hex
      exact ⟨_, List.mem_map_of_mem hs, e⟩
    by_cases hov : m = .debug ∧ 2 ^ 64 ≤ first.toNat + length.toNat
    · obtain ⟨rfl, hov⟩ := hov
      have : insertPartition .debug name id first length ty flags fresh fresh2 s = (.panic, s) := by
        unfold insertPartition
        have hp : (add64 .debug first length : Res GptError _) = .panic := arith_panic.mpr ⟨rfl, decide_eq_false (by omega)⟩
        simp only [M.bind_apply, M.lift_apply, hp]
      rw [this]
      exact .overflow _ h0 hid htk hF hex' rfl hov
    · exact .insert _ _ _ h0 hid htk hF hex' (fun e => by by_contra hc; exact hov ⟨e, by omega⟩)
        (insertPartition_spec hh hk h0 (fun e => by by_contra hc; exact hov ⟨e, by omega⟩))
  · have hnone : addPartitionAtLoop m name id first length ty flags fresh fresh2 L s = (.err .notEnoughSpace, s) := by
      clear hL hF
      induction L with
      | nil => rfl
      | cons sec rest ih =>
        unfold addPartitionAtLoop
        rw [if_neg]
        · exact ih (fun ⟨x, hx, e⟩ => hex ⟨x, List.mem_cons_of_mem _ hx, e⟩)
        · rintro ⟨e1, e2⟩
          exact hex ⟨sec, List.mem_cons_self, e1, e2⟩
    rw [hnone]
    refine .noSpace _ h0 hid htk hF fun g hg e => hex ?_
    obtain ⟨sec, hs, rfl⟩ := List.mem_map.mp hg
    exact ⟨sec, hs, e⟩

theorem offset_offNat (start : Nat) {align : Option UInt64} (ha : ∀ a, align = some a → a ≠ 0) : Offset align start (offNat start align) := by
  have h := offNat_spec start ha
  refine ⟨h.1, fun k hk => ?_⟩
  have := h.2 (start + k) (by omega) hk
  omega

theorem offset_unique {align : Option UInt64} {start a b : Nat} (h1 : Offset align start a) (h2 : Offset align start b) : a = b :=
  Nat.le_antisymm (h1.2 _ h2.1) (h2.2 _ h1.1)

theorem pickId_any (m : Mode) {s : GptDisk} {h : Header} (hh : s.tryHeader = .ok h) (hk : PMap.Sorted s.partitions) :
    (∃ id, PickId m s id ∧ AnyId m h s.partitions id.toNat) ∨
    (m = .debug ∧ Full h s.partitions ∧ (s.findNextPartitionId : Res GptError _) = .ok none ∧ (add32 m h.numParts 1 : Res GptError _) = .panic) := by
  by_cases hn : h.numParts.toNat < 2 ^ 32 - 1
  · obtain ⟨id, h1, h2⟩ := pickId_next m hh hk hn
    exact .inl ⟨id, h1, .inl ⟨fun hf => by have := hf.1; omega, h2⟩⟩
  have hlt := h.numParts.toNat_lt
  have he : h.numParts.toNat = 2 ^ 32 - 1 := by omega
  obtain ⟨r, h2, h3, h4⟩ := c24_next_id s hh hk (.inr (by omega))
  cases r with
  | some i =>
    obtain ⟨a, b, c, d⟩ := h3 i rfl
    exact .inl ⟨i, .inl h2, .inl ⟨fun hf => c (hf.2 _ a i.toNat_lt), a, by omega, fun _ => c, d⟩⟩
  | none =>
    have hfull : Full h s.partitions := ⟨he, fun i h1 h5 => (h4.mp rfl) i h1 (by omega)⟩
    have h1 : (1 : UInt32).toNat = 1 := rfl
    cases m with
    | debug =>
      refine .inr ⟨rfl, hfull, h2, ?_⟩
      unfold add32
      exact arith_panic.mpr ⟨rfl, decide_eq_false (by rw [h1]; omega)⟩
    | release =>
      have hz : h.numParts + 1 = 0 := by
        apply UInt32.toNat_inj.mp
        rw [UInt32.toNat_add, h1, he]
        rfl
      refine .inl ⟨0, .inr ⟨h2, h, hh, ?_⟩, .inr ⟨hfull, rfl, rfl⟩⟩
      rw [← hz]
      unfold add32 arith
      split <;> rfl

/-- The loop over the sections, some of which are skipped already. -/
theorem addLoop_any {m : Mode} {name : String} {size n : UInt64} {ty : PType} {flags : UInt64} {align : Option UInt64} {fresh fresh2 : Uuid}
    {s : GptDisk} {h : Header} (hh : s.tryHeader = .ok h) (hk : PMap.Sorted s.partitions) (h0 : size ≠ 0)
    (hne : ∀ a, align = some a → a ≠ 0) (hje : JustEnough s.config.lbSize size.toNat n.toNat) (hn1 : 1 ≤ n.toNat) :
    ∀ (L : List (UInt64 × UInt64)) (pre : List (Nat × Nat)), (∀ x ∈ pre, Skipped m align n.toNat x) →
      FreeSectors (ε := GptError) m h s.partitions (.ok (pre ++ L.map fun g => (g.1.toNat, g.2.toNat))) →
      AddAny m h s name size ty flags align fresh (addPartitionLoop m name n ty flags align fresh fresh2 L s).1
        (addPartitionLoop m name n ty flags align fresh fresh2 L s).2 := by
  have ha0 : align ≠ some 0 := fun e => hne 0 e rfl
  intro L
  induction L with
  | nil =>
    intro pre hpre hF
    rw [List.map_nil, List.append_nil] at hF
    exact .noSpace pre n.toNat h0 hF ha0 hje hpre
  | cons g L ih =>
    intro pre hpre hF
    obtain ⟨st, len⟩ := g
    have hoff := offset_offNat st.toNat hne
    have hlt : offNat st.toNat align < 2 ^ 64 := by
      cases ha : align with
      | none => simp only [offNat]; omega
      | some a => have := offNat_lt (start := st.toNat) (hne a ha); have := a.toNat_lt; omega
    have ho : (UInt64.ofNat (offNat st.toNat align)).toNat = offNat st.toNat align := u64_ofNat_toNat hlt
    generalize hof : offNat st.toNat align = off at hoff hlt ho
    have hreach : Reached m align n.toNat (pre ++ ((st, len) :: L).map fun g => (g.1.toNat, g.2.toNat)) (st.toNat, len.toNat) :=
      ⟨pre, _, rfl, hpre⟩
    unfold addPartitionLoop
    simp only [M.bind_apply, M.lift_apply]
    rw [alignmentOffset_eq m st hne, hof]
    simp only
    by_cases hov : m = .debug ∧ 2 ^ 64 ≤ off + n.toNat
    · obtain ⟨rfl, hov⟩ := hov
      have hp : (add64 .debug (UInt64.ofNat off) n : Res GptError _) = .panic := arith_panic.mpr ⟨rfl, decide_eq_false (by rw [ho]; omega)⟩
      rw [hp]
      exact .overflow _ _ _ _ h0 hF ha0 hje hreach hoff rfl hov
    have hno : m = .debug → off + n.toNat < 2 ^ 64 := fun e => by by_contra hc; exact hov ⟨e, by omega⟩
    have hadd : (add64 m (UInt64.ofNat off) n : Res GptError _) = .ok (UInt64.ofNat off + n) := by
      cases m with
      | debug => exact add64_eq .debug (by rw [ho]; exact hno rfl)
      | release => exact add64_release _ _
    have hneed : (UInt64.ofNat off + n).toNat = (off + n.toNat) % 2 ^ 64 := by rw [UInt64.toNat_add, ho]
    rw [hadd]
    simp only
    by_cases hfit : (off + n.toNat) % 2 ^ 64 ≤ len.toNat
    · rw [if_pos (by rw [ge_iff_le, UInt64.le_iff_toNat_le, hneed]; exact hfit)]
      simp only [M.bind_apply, M.lift_apply, M.get_apply]
      have hadd2 : (add64 m st (UInt64.ofNat off) : Res GptError _) = .ok (st + UInt64.ofNat off) ∧
          (m = .debug → st.toNat + off + n.toNat < 2 ^ 64) := by
        cases m with
        | debug =>
          have hb := freeSectors_below hF (st.toNat, len.toNat) (by simp)
          have := hno rfl
          rw [Nat.mod_eq_of_lt this] at hfit
          simp only at hb
          exact ⟨add64_eq .debug (by rw [ho]; omega), fun _ => by omega⟩
        | release => exact ⟨add64_release _ _, fun e => by cases e⟩
      have hst : (st + UInt64.ofNat off).toNat = (st.toNat + off) % 2 ^ 64 := by rw [UInt64.toNat_add, ho]
      rw [hadd2.1]
      simp only
      rcases pickId_any m hh hk with ⟨id, hid, hany⟩ | ⟨rfl, hfull, hnone, hpan⟩
      · have hrun : Insert m h s id ⟨ty, fresh, st + UInt64.ofNat off, st + UInt64.ofNat off + n - 1, flags, name⟩
            (insertPartition m name id (st + UInt64.ofNat off) n ty flags fresh fresh2 s).1
            (insertPartition m name id (st + UInt64.ofNat off) n ty flags fresh fresh2 s).2 :=
          insertPartition_spec hh hk (by rintro rfl; exact absurd hn1 (by decide)) (fun e => by
            have := hadd2.2 e
            rw [hst, Nat.mod_eq_of_lt (by omega)]
            omega)
        have := AddAny.insert (guid := fresh) _ n (st + UInt64.ofNat off) (st.toNat, len.toNat) off id _ _ h0 hF ha0 hje hreach hoff hno hfit hst hany hrun
        rcases hid with hid | ⟨hid, h', hh', hadd⟩
        · rw [hid]
          exact this
        · rw [hid]
          simp only [M.bind_apply, M.lift_apply]
          rw [header_ok_iff.mpr hh']
          simp only
          rw [hadd]
          exact this
      · rw [hnone]
        simp only [M.bind_apply, M.lift_apply]
        rw [header_ok_iff.mpr hh]
        simp only
        rw [hpan]
        have := hno rfl
        exact .noId _ n.toNat (st.toNat, len.toNat) off h0 hF ha0 hje hreach hoff rfl this (by rw [Nat.mod_eq_of_lt this] at hfit; exact hfit) hfull
    · rw [if_neg (by rw [ge_iff_le, UInt64.le_iff_toNat_le, hneed]; exact hfit)]
      refine ih (pre ++ [(st.toNat, len.toNat)]) ?_ (by rw [List.append_assoc]; exact hF)
      intro x hx
      rcases List.mem_append.mp hx with hx | hx
      · exact hpre x hx
      · rw [List.mem_singleton] at hx
        subst hx
        exact ⟨off, hoff, hno, by simp only; omega⟩

/-- **C93** for `add_partition`. -/
theorem c93_add_partition (m : Mode) (name : String) (size : UInt64) (ty : PType) (flags : UInt64) (align : Option UInt64)
    (fresh fresh2 : Uuid) (s : GptDisk) (h : Header) (hh : s.tryHeader = .ok h)
    (hk : s.partitions.Pairwise (fun a b => a.1 < b.1)) :
    AddAny m h s name size ty flags align fresh
      (addPartition m name size ty flags align fresh fresh2 s).1
      (addPartition m name size ty flags align fresh fresh2 s).2 := by
  by_cases h0 : size = 0
  · subst h0
    rw [addPartition_zero]
    exact .zero rfl
  obtain ⟨n, hnn, heq⟩ := addPartition_eq m name h0 ty flags align fresh fresh2 s
  obtain ⟨hje, hb⟩ := sizeLba_spec (lb := s.config.lbSize) h0
  rw [← hnn] at hje hb
  have hn1 : 1 ≤ n.toNat := by rw [hnn]; exact Nat.le_add_left 1 _
  rcases freeSectors_run m hh with ⟨hp, hF⟩ | ⟨L, hL, hF⟩
  · have : addPartition m name size ty flags align fresh fresh2 s = (.panic, s) := by
      have h1 : (1 : UInt64).toNat = 1 := rfl
      have hs : 1 ≤ size.toNat := by
        rcases Nat.eq_zero_or_pos size.toNat with e | e
        · exact absurd (UInt64.toNat_inj.mp e) h0
        · exact e
      have hd : ((size - 1) / s.config.lbSize.u64).toNat = (size.toNat - 1) / s.config.lbSize.usize := by
        rw [UInt64.toNat_div, u64_sub_toNat (by omega), lb_u64_toNat, h1]
      unfold addPartition
      rw [if_neg h0]
      simp only [M.bind_apply, M.get_apply, M.lift_apply]
      rw [sub64_eq m (by omega)]
      simp only
      rw [add64_eq m (by rw [hd, h1]; omega)]
      simp only
      rw [hp]
    rw [this]
    exact .sectors h0 hF
  rw [heq L hL]
  by_cases ha0 : align = some 0
  · subst ha0
    cases L with
    | nil => exact .empty h0 hF rfl
    | cons sec rest =>
      have hp : addPartitionLoop m name n ty flags (some 0) fresh fresh2 (sec :: rest) s = (.panic, s) := by
        obtain ⟨st, len⟩ := sec
        unfold addPartitionLoop
        simp [M.bind_apply, M.lift_apply, alignmentOffset, rem64]
      rw [hp]
      exact .zeroAlign _ h0 hF rfl (by simp)
  exact addLoop_any hh hk h0 (by rintro a rfl rfl; exact ha0 rfl) hje hn1 L [] (by simp) hF

/-! ### The outcome is determined -/

theorem first_unique {α : Type} {p : α → Prop} : ∀ {a b c d : List α} {x y : α}, a ++ x :: b = c ++ y :: d → (∀ z ∈ a, p z) → (∀ z ∈ c, p z) →
    ¬ p x → ¬ p y → x = y
  | [], _, [], _, _, _, e, _, _, _, _ => by simp only [List.nil_append, List.cons.injEq] at e; exact e.1
  | [], _, w :: c, _, _, _, e, _, hc, hx, _ => by
    simp only [List.nil_append, List.cons_append, List.cons.injEq] at e
    exact absurd (e.1 ▸ hc w (by simp)) hx
  | w :: a, _, [], _, _, _, e, ha, _, _, hy => by
    simp only [List.nil_append, List.cons_append, List.cons.injEq] at e
    exact absurd (e.1 ▸ ha w (by simp)) hy
  | w :: a, _, v :: c, _, _, _, e, ha, hc, hx, hy => by
    simp only [List.cons_append, List.cons.injEq] at e
    exact first_unique e.2 (fun z hz => ha z (by simp [hz])) (fun z hz => hc z (by simp [hz])) hx hy

theorem reached_unique {m : Mode} {align : Option UInt64} {n : Nat} {L : List (Nat × Nat)} {g g' : Nat × Nat}
    (h1 : Reached m align n L g) (h2 : Reached m align n L g') (n1 : ¬ Skipped m align n g) (n2 : ¬ Skipped m align n g') : g = g' := by
  obtain ⟨a, b, rfl, ha⟩ := h1
  obtain ⟨c, d, e, hc⟩ := h2
  exact first_unique e ha hc n1 n2

theorem reached_mem {m : Mode} {align : Option UInt64} {n : Nat} {L : List (Nat × Nat)} {g : Nat × Nat} (h : Reached m align n L g) : g ∈ L := by
  obtain ⟨a, b, rfl, _⟩ := h
  simp

theorem not_skipped_overflow {align : Option UInt64} {n off : Nat} {g : Nat × Nat} (h : Offset align g.1 off) (ho : 2 ^ 64 ≤ off + n) :
    ¬ Skipped .debug align n g := by
  rintro ⟨off', h', ho', _⟩
  have := ho' rfl
  rw [offset_unique h' h] at this
  omega

theorem not_skipped_fits {m : Mode} {align : Option UInt64} {n off : Nat} {g : Nat × Nat} (h : Offset align g.1 off)
    (ho : (off + n) % 2 ^ 64 ≤ g.2) : ¬ Skipped m align n g := by
  rintro ⟨off', h', _, ho'⟩
  rw [offset_unique h' h] at ho'
  omega

theorem freeSectors_ok_unique {m : Mode} {h : Header} {t : PMap} {L L' : List (Nat × Nat)} (a : FreeSectors (ε := GptError) m h t (.ok L))
    (b : FreeSectors (ε := GptError) m h t (.ok L')) : L = L' := by
  have := freeSectors_unique a b
  injection this

theorem anyId_unique {m : Mode} {h : Header} {t : PMap} {i j : Nat} (h1 : AnyId m h t i) (h2 : AnyId m h t j) : i = j := by
  rcases h1 with ⟨a, b⟩ | ⟨a, b, c⟩ <;> rcases h2 with ⟨d, e⟩ | ⟨d, e, f⟩
  · exact nextId_unique b e
  · exact absurd d a
  · exact absurd a d
  · omega

/-- **C93**, the table of outcomes of `add_partition_at` leaves no choice. -/
theorem c93_at_determined {m : Mode} {h : Header} {s : GptDisk} {name : String} {id : UInt32} {first length : UInt64} {ty : PType}
    {flags : UInt64} {guid : Uuid} {r r' : Res GptError UInt32} {t t' : GptDisk} (hs : Settled h s id)
    (h1 : AddAtAny m h s name id first length ty flags guid r t) (h2 : AddAtAny m h s name id first length ty flags guid r' t') :
    r = r' ∧ t = t' := by
  cases h1 with
  | zero a =>
    cases h2 with
    | zero | sectors | overflow => exact ⟨rfl, rfl⟩
    | taken b c => rcases a with a | a <;> contradiction
    | noSpace _ b c => rcases a with a | a <;> contradiction
    | insert _ _ _ b c => rcases a with a | a <;> contradiction
  | taken a b c =>
    cases h2 with
    | zero d => rcases d with d | d <;> contradiction
    | taken => exact ⟨rfl, rfl⟩
    | sectors _ _ d => contradiction
    | noSpace _ _ _ d => contradiction
    | overflow _ _ _ d => contradiction
    | insert _ _ _ _ _ d => contradiction
  | sectors a b c d =>
    cases h2 with
    | zero | sectors | overflow => exact ⟨rfl, rfl⟩
    | taken _ _ k => contradiction
    | noSpace _ _ _ _ e => exact absurd (freeSectors_unique d e) (by simp)
    | insert _ _ _ _ _ _ e => exact absurd (freeSectors_unique d e) (by simp)
  | noSpace L a b c d e =>
    cases h2 with
    | zero k => rcases k with k | k <;> contradiction
    | taken _ _ k => contradiction
    | sectors _ _ _ k => exact absurd (freeSectors_unique d k) (by simp)
    | noSpace => exact ⟨rfl, rfl⟩
    | overflow L' _ _ _ k l => obtain rfl := freeSectors_ok_unique d k; obtain ⟨g, hg, q⟩ := l; exact absurd q (e g hg)
    | insert L' _ _ _ _ _ k l => obtain rfl := freeSectors_ok_unique d k; obtain ⟨g, hg, q⟩ := l; exact absurd q (e g hg)
  | overflow L a b c d e f g =>
    cases h2 with
    | zero | sectors | overflow => exact ⟨rfl, rfl⟩
    | taken _ _ k => contradiction
    | noSpace L' _ _ _ k l => obtain rfl := freeSectors_ok_unique d k; obtain ⟨g, hg, q⟩ := e; exact absurd q (l g hg)
    | insert _ _ _ _ _ _ _ _ k => have := k f; omega
  | insert L _ _ a b c d e f g =>
    cases h2 with
    | zero k => rcases k with k | k <;> contradiction
    | taken _ _ k => contradiction
    | sectors _ _ _ k => exact absurd (freeSectors_unique d k) (by simp)
    | noSpace L' _ _ _ k l => obtain rfl := freeSectors_ok_unique d k; obtain ⟨g, hg, q⟩ := e; exact absurd q (l g hg)
    | overflow _ _ _ _ _ _ k l => have := f k; omega
    | insert _ _ _ _ _ _ _ _ _ k => exact insert_unique hs g k

/-- **C93**, the table of outcomes of `add_partition` leaves no choice. -/
theorem c93_determined {m : Mode} {h : Header} {s : GptDisk} {name : String} {size : UInt64} {ty : PType} {flags : UInt64}
    {align : Option UInt64} {guid : Uuid} {r r' : Res GptError UInt32} {t t' : GptDisk}
    (hs : ∀ id : UInt32, AnyId m h s.partitions id.toNat → Settled h s id)
    (h1 : AddAny m h s name size ty flags align guid r t) (h2 : AddAny m h s name size ty flags align guid r' t') :
    r = r' ∧ t = t' := by
  cases h1 with
  | zero a =>
    cases h2 with
    | zero | sectors | zeroAlign | overflow | noId => exact ⟨rfl, rfl⟩
    | empty b | noSpace _ _ b | insert _ _ _ _ _ _ _ _ b => contradiction
  | sectors a b =>
    cases h2 with
    | zero | sectors | zeroAlign | overflow | noId => exact ⟨rfl, rfl⟩
    | empty _ c | noSpace _ _ _ c | insert _ _ _ _ _ _ _ _ _ c => exact absurd (freeSectors_unique b c) (by simp)
  | zeroAlign L a b c d =>
    cases h2 with
    | zero | sectors | zeroAlign | overflow | noId => exact ⟨rfl, rfl⟩
    | empty _ e => exact absurd (freeSectors_ok_unique b e) d
    | noSpace _ _ _ _ e | insert _ _ _ _ _ _ _ _ _ _ e => contradiction
  | empty a b c =>
    cases h2 with
    | zero | noSpace _ _ _ _ e | overflow _ _ _ _ _ _ e | noId _ _ _ _ _ _ e | insert _ _ _ _ _ _ _ _ _ _ e => contradiction
    | sectors _ e => exact absurd (freeSectors_unique b e) (by simp)
    | zeroAlign _ _ e _ f => exact absurd (freeSectors_ok_unique b e).symm f
    | empty => exact ⟨rfl, rfl⟩
  | noSpace L n a b c d e =>
    cases h2 with
    | zero | zeroAlign _ _ _ f | empty _ _ f => contradiction
    | sectors _ f => exact absurd (freeSectors_unique b f) (by simp)
    | noSpace => exact ⟨rfl, rfl⟩
    | overflow L' n' g off _ f _ i j k l o =>
      obtain rfl := freeSectors_ok_unique b f
      obtain rfl := justEnough_unique d i
      subst l
      exact absurd (e g (reached_mem j)) (not_skipped_overflow k o)
    | noId L' n' g off _ f _ i j k l o q =>
      obtain rfl := freeSectors_ok_unique b f
      obtain rfl := justEnough_unique d i
      exact absurd (e g (reached_mem j)) (not_skipped_fits k (by rw [Nat.mod_eq_of_lt o]; exact q))
    | insert L' n' _ g off _ _ _ _ f _ i j k _ o =>
      obtain rfl := freeSectors_ok_unique b f
      obtain rfl := justEnough_unique d i
      exact absurd (e g (reached_mem j)) (not_skipped_fits k o)
  | overflow L n g off a b c d e f p q =>
    cases h2 with
    | zero | sectors | zeroAlign | overflow | noId => exact ⟨rfl, rfl⟩
    | empty _ _ i => contradiction
    | noSpace L' n' _ i _ j k =>
      obtain rfl := freeSectors_ok_unique b i
      obtain rfl := justEnough_unique d j
      subst p
      exact absurd (k g (reached_mem e)) (not_skipped_overflow f q)
    | insert L' n' _ g' off' _ _ _ _ i _ j k l o u =>
      obtain rfl := freeSectors_ok_unique b i
      obtain rfl := justEnough_unique d j
      subst p
      obtain rfl := reached_unique e k (not_skipped_overflow f q) (not_skipped_fits l u)
      obtain rfl := offset_unique f l
      have := o rfl
      omega
  | noId L n g off a b c d e f p q u v =>
    cases h2 with
    | zero | sectors | zeroAlign | overflow | noId => exact ⟨rfl, rfl⟩
    | empty _ _ i => contradiction
    | noSpace L' n' _ i _ j k =>
      obtain rfl := freeSectors_ok_unique b i
      obtain rfl := justEnough_unique d j
      exact absurd (k g (reached_mem e)) (not_skipped_fits f (by rw [Nat.mod_eq_of_lt q]; exact u))
    | insert _ _ _ _ _ _ _ _ _ _ _ _ _ _ _ _ _ w =>
      subst p
      rcases w with ⟨w, _⟩ | ⟨_, w, _⟩
      · contradiction
      · cases w
  | insert L n st g off id _ _ a b c d e f p q u v w =>
    cases h2 with
    | zero | zeroAlign _ _ _ i | empty _ _ i => contradiction
    | sectors _ i => exact absurd (freeSectors_unique b i) (by simp)
    | noSpace L' n' _ i _ j k =>
      obtain rfl := freeSectors_ok_unique b i
      obtain rfl := justEnough_unique d j
      exact absurd (k g (reached_mem e)) (not_skipped_fits f q)
    | overflow L' n' g' off' _ i _ j k l o x =>
      obtain rfl := freeSectors_ok_unique b i
      obtain rfl := justEnough_unique d j
      subst o
      obtain rfl := reached_unique e k (not_skipped_fits f q) (not_skipped_overflow l x)
      obtain rfl := offset_unique f l
      have := p rfl
      omega
    | noId _ _ _ _ _ _ _ _ _ _ o _ _ x =>
      subst o
      rcases v with ⟨v, _⟩ | ⟨_, v, _⟩
      · contradiction
      · cases v
    | insert L' n' st' g' off' id' _ _ _ b' _ d' e' f' p' q' u' v' w' =>
      obtain rfl := freeSectors_ok_unique b b'
      obtain rfl : n = n' := UInt64.toNat_inj.mp (justEnough_unique d d')
      obtain rfl := reached_unique e e' (not_skipped_fits f q) (not_skipped_fits f' q')
      obtain rfl := offset_unique f f'
      obtain rfl : st = st' := UInt64.toNat_inj.mp (u.trans u'.symm)
      obtain rfl : id = id' := UInt32.toNat_inj.mp (anyId_unique v v')
      exact insert_unique (hs _ v) w w'

/-- **C93**, both together for `add_partition_at`. -/
theorem c93_at_exact (m : Mode) (name : String) (id : UInt32) (first length : UInt64) (ty : PType) (flags : UInt64)
    (fresh fresh2 : Uuid) (s s' : GptDisk) (h : Header) (r : Res GptError UInt32) (hh : s.tryHeader = .ok h)
    (hk : s.partitions.Pairwise (fun a b => a.1 < b.1)) (hd : Settled h s id) :
    addPartitionAt m name id first length ty flags fresh fresh2 s = (r, s') ↔ AddAtAny m h s name id first length ty flags fresh r s' := by
  have run := c93_add_partition_at m name id first length ty flags fresh fresh2 s h hh hk
  constructor
  · intro e
    rw [e] at run
    exact run
  · intro e
    obtain ⟨e1, e2⟩ := c93_at_determined hd run e
    exact Prod.ext e1 e2

/-- **C93**, both together for `add_partition`. -/
theorem c93_exact (m : Mode) (name : String) (size : UInt64) (ty : PType) (flags : UInt64) (align : Option UInt64)
    (fresh fresh2 : Uuid) (s s' : GptDisk) (h : Header) (r : Res GptError UInt32) (hh : s.tryHeader = .ok h)
    (hk : s.partitions.Pairwise (fun a b => a.1 < b.1)) (hd : ∀ id : UInt32, AnyId m h s.partitions id.toNat → Settled h s id) :
    addPartition m name size ty flags align fresh fresh2 s = (r, s') ↔ AddAny m h s name size ty flags align fresh r s' := by
  have run := c93_add_partition m name size ty flags align fresh fresh2 s h hh hk
  constructor
  · intro e
    rw [e] at run
    exact run
  · intro e
    obtain ⟨e1, e2⟩ := c93_determined hd run e
    exact Prod.ext e1 e2

/-- **C93** without a header: both panic, unless the id is taken. -/
theorem c93_headerless (m : Mode) (name : String) (id : UInt32) (first length size : UInt64) (ty : PType) (flags : UInt64)
    (align : Option UInt64) (fresh fresh2 : Uuid) (s : GptDisk) (e : HeaderError) (hh : s.tryHeader = .error e)
    (hk : s.partitions.Pairwise (fun a b => a.1 < b.1)) :
    addPartition m name size ty flags align fresh fresh2 s = (.panic, s) ∧
    (length ≠ 0 → id ≠ 0 → Taken s.partitions id.toNat →
      addPartitionAt m name id first length ty flags fresh fresh2 s = (.err .partitionIdAlreadyUsed, s)) ∧
    (length = 0 ∨ id = 0 ∨ ¬ Taken s.partitions id.toNat →
      addPartitionAt m name id first length ty flags fresh fresh2 s = (.panic, s)) := by
  have hp : (s.findFreeSectors m : Res GptError _) = .panic := by
    refine c92_headerless m s ?_
    unfold GptDisk.header
    rw [hh]
  refine ⟨?_, fun h0 hid htk => ?_, fun hor => ?_⟩
  · unfold addPartition
    split
    · rfl
    simp only [M.bind_apply, M.get_apply, M.lift_apply, hp]
    rename_i h0
    have h1 : (1 : UInt64).toNat = 1 := rfl
    have hs : 1 ≤ size.toNat := by
      rcases Nat.eq_zero_or_pos size.toNat with e | e
      · exact absurd (UInt64.toNat_inj.mp e) h0
      · exact e
    have hb := (sizeLba_spec (lb := s.config.lbSize) h0).2
    have hd : ((size - 1) / s.config.lbSize.u64).toNat = (size.toNat - 1) / s.config.lbSize.usize := by
      rw [UInt64.toNat_div, u64_sub_toNat (by omega), lb_u64_toNat, h1]
    rw [sub64_eq m (by omega)]
    simp only
    rw [add64_eq m (by rw [hd, h1]; omega)]
  · unfold addPartitionAt
    rw [if_neg h0, if_neg hid]
    simp only [M.bind_apply, M.get_apply]
    rw [if_pos ((any_used_iff hk id).mpr htk)]
    rfl
  · unfold addPartitionAt
    by_cases h0 : length = 0
    · rw [if_pos h0]; rfl
    by_cases hid : id = 0
    · rw [if_neg h0, if_pos hid]; rfl
    have htk : ¬ Taken s.partitions id.toNat := by
      rcases hor with h | h | h
      · contradiction
      · contradiction
      · exact h
    rw [if_neg h0, if_neg hid]
    simp only [M.bind_apply, M.get_apply]
    rw [if_neg (fun e => htk ((any_used_iff hk id).mp e))]
    simp only [M.bind_apply, M.lift_apply, hp]

/-! ### Cases -/

/-- The hypotheses hold for a table with one partition inside another, and for one outside the usable blocks. -/
example : (exWith [(1, exPart 40 60), (2, exPart 45 50)]).tryHeader = .ok exHeader ∧
    (exWith [(1, exPart 40 60), (2, exPart 45 50)]).partitions.Pairwise (fun a b => a.1 < b.1) ∧
    Settled exHeader (exWith [(1, exPart 40 60), (2, exPart 45 50)]) 3 ∧
    (exWith [(1, exPart 10 20)]).tryHeader = .ok exHeader :=
  ⟨rfl, by decide, .inl (by decide), rfl⟩

/-- Both calls then put a new partition into blocks of others: 46 ..= 48 belongs to both partitions of the first table, 11 ..= 13 to the
partition of the second. -/
example : (PMap.get (addPartition .debug "n" 1500 (exPart 0 0).partType 0 (some 46) ⟨0, 0, 0, 8⟩ Uuid.nil
      (exWith [(1, exPart 40 60), (2, exPart 45 50)])).2.partitions 3).map (fun p => (p.firstLba, p.lastLba)) = some (46, 48) ∧
    (PMap.get (addPartition .debug "n" 1500 (exPart 0 0).partType 0 none ⟨0, 0, 0, 8⟩ Uuid.nil
      (exWith [(1, exPart 10 20)])).2.partitions 2).map (fun p => (p.firstLba, p.lastLba)) = some (11, 13) := by
  constructor <;> decide +kernel

/-- An alignment of nearly 2^64: the number of blocks needed wraps in release builds, and the first block of the partition as well. -/
example : (addPartition .debug "n" 0xffffffffffffffff (exPart 0 0).partType 0 (some 0xffffffffffffffff) ⟨0, 0, 0, 8⟩ Uuid.nil exDisk).1 = .panic ∧
    (PMap.get (addPartition .release "n" 18433 (exPart 0 0).partType 0 (some 0xffffffffffffffff) ⟨0, 0, 0, 8⟩ Uuid.nil exDisk).2.partitions 3).map
      (fun p => (p.firstLba, p.lastLba)) = some (0xffffffffffffffff, 35) := by
  constructor <;> decide +kernel

/-- A section of 2^64-1 blocks in release builds: the partition is put before the usable blocks. -/
example : (PMap.get (addPartition .release "n" 1500 (exPart 0 0).partType 0 none ⟨0, 0, 0, 8⟩ Uuid.nil
      (exWith [(1, exPart 0 0)])).2.partitions 2).map (fun p => (p.firstLba, p.lastLba)) = some (1, 3) ∧
    (addPartition .debug "n" 1500 (exPart 0 0).partType 0 none ⟨0, 0, 0, 8⟩ Uuid.nil (exWith [(1, exPart 0 0)])).1 = .panic := by
  constructor <;> decide +kernel

end Gpt
