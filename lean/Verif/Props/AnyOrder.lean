import Verif.Props.Recipe
/-!
# Every table can be made, in any order: C111

The tables of a session (C67) are exactly the tidy ones with ids from 1 to 128. Each table of used entries is made by
`add_partition_at` from any session whose table has been cleared, whatever the order of the calls.
-/

namespace Gpt

open Spec GptDisk

namespace Spec

/-- The entry `e` fits a device of `N` blocks with arrays of `k` blocks. -/
structure Entry.Fits (N k : Nat) (e : UInt32 × Partition) : Prop where
  id : 1 ≤ e.1.toNat ∧ e.1.toNat ≤ 128
  used : e.2.partType.guid ≠ Uuid.nil
  order : e.2.firstLba.toNat ≤ e.2.lastLba.toNat
  low : 2 + k ≤ e.2.firstLba.toNat
  high : e.2.lastLba.toNat + k + 2 ≤ N

/-- Two entries have different ids and share no block. -/
def Entry.Apart (a b : UInt32 × Partition) : Prop := a.1 ≠ b.1 ∧ ∀ x, ¬ (Covers a.2 x ∧ Covers b.2 x)

/-- The call of `add_partition_at` that asks for the entry `e`; its GUID is the one the call draws. -/
def addOp (fresh2 : Uuid) (e : UInt32 × Partition) : Op :=
  .addPartitionAt e.2.name e.1 e.2.firstLba (e.2.lastLba - e.2.firstLba + 1) e.2.partType e.2.flags e.2.partGuid fresh2

/-- What the calls return, in order. -/
def answers (m : Mode) : List Op → GptDisk → List (Res GptError OpVal)
  | [], _ => []
  | op :: ops, s => (op.step m s).1 :: answers m ops (op.step m s).2

end Spec

section
variable {m : Mode} {cfg : GptConfig} {k : Nat} {d : Dev} {s : GptDisk}

theorem Spec.InSession.step (hs : InSession m cfg k d s) (op : Op) (ho : Ordinary s op) : InSession m cfg k d (op.step m s).2 := by
  obtain ⟨a1, a2, a3, a4, a5, a6, g, f, f2, s0, d0, hcr, hse⟩ := hs
  exact ⟨a1, a2, a3, a4, a5, a6, g, f, f2, s0, d0, hcr, .call op hse ho⟩

theorem Spec.InSession.trans (hs : InSession m cfg k d s) {s' : GptDisk} (h : Session m s s') : InSession m cfg k d s' := by
  obtain ⟨a1, a2, a3, a4, a5, a6, g, f, f2, s0, d0, hcr, hse⟩ := hs
  refine ⟨a1, a2, a3, a4, a5, a6, g, f, f2, s0, d0, hcr, ?_⟩
  induction h with
  | start => exact hse
  | call op _ ho ih => exact .call op ih ho
  | reopen _ hw ho ih => exact .reopen ih hw ho

theorem length_of_entry {p : Partition} (h : p.firstLba.toNat ≤ p.lastLba.toNat) (hl : p.lastLba.toNat + 1 < 2 ^ 64) :
    (p.lastLba - p.firstLba + 1).toNat = p.lastLba.toNat - p.firstLba.toNat + 1 := by
  have e := u64_sub_toNat h
  rw [u64_add_toNat (by rw [e]; show _ + 1 < _; omega), e]
  rfl

/-- One call. -/
theorem add_entry (hs : InSession m cfg k d s) {e : UInt32 × Partition} (he : Entry.Fits (d.data.length / cfg.lbSize.usize) k e)
    (hid : ∀ q, (e.1, q) ∉ s.partitions) (hx : ∀ q, Used s.partitions q → ∀ x, ¬ (Covers e.2 x ∧ Covers q x)) (fresh2 : Uuid) :
    ∃ t, (addOp fresh2 e).step m s = (.ok (.id e.1), { s with partitions := t }) ∧ Put s.partitions t e.1 e.2 ∧
      InSession m cfg k d { s with partitions := t } := by
  obtain ⟨h, hh, ht, hn, hf, hl, -⟩ := c67_table hs
  have hsm := hs.small
  have hN : d.data.length / cfg.lbSize.usize ≤ d.data.length := Nat.div_le_self _ _
  have hlast : e.2.lastLba.toNat + 1 < 2 ^ 64 := by have := he.high; omega
  have hlen := length_of_entry he.order hlast
  have h0 : e.2.lastLba - e.2.firstLba + 1 ≠ 0 := fun c => by
    rw [c] at hlen
    exact absurd hlen (by show 0 ≠ _; omega)
  have h1 : e.1 ≠ 0 := fun c => by
    have := he.id.1
    rw [c] at this
    exact absurd this (by decide)
  have hfree : FreeExtent h s.partitions e.2.firstLba.toNat (e.2.lastLba - e.2.firstLba + 1).toNat := by
    rw [hlen]
    intro x a b
    have := he.low
    have := he.high
    have := he.order
    exact ⟨by omega, by omega, fun q hq c => hx q hq x ⟨⟨by omega, by omega⟩, c⟩⟩
  have hnt : ¬ Taken s.partitions e.1.toNat := by
    rintro ⟨i, p, hm, hi, -⟩
    rw [UInt32.toNat_inj.mp hi] at hm
    exact hid p hm
  have hord : Ordinary s (addOp fresh2 e) := ⟨h1, h0, fun h' hh' => by rw [hh] at hh'; cases hh'; exact hfree⟩
  have hsess := hs.step _ hord
  have hpart : (⟨e.2.partType, e.2.partGuid, e.2.firstLba, e.2.firstLba + (e.2.lastLba - e.2.firstLba + 1) - 1, e.2.flags, e.2.name⟩ : Partition) = e.2 := by
    have : e.2.firstLba + (e.2.lastLba - e.2.firstLba + 1) - 1 = e.2.lastLba := by
      have h1 : (e.2.firstLba + (e.2.lastLba - e.2.firstLba + 1)).toNat = e.2.lastLba.toNat + 1 := by
        have := he.order
        rw [u64_add_toNat (by rw [hlen]; omega), hlen]
        omega
      refine UInt64.toNat_inj.mp ?_
      rw [u64_sub_toNat (by rw [h1]; exact Nat.le_add_left 1 _), h1]
      rfl
    rw [this]
  have run := c76_add_partition_at m e.2.name e.1 e.2.firstLba (e.2.lastLba - e.2.firstLba + 1) e.2.partType e.2.flags e.2.partGuid fresh2 s h hh
    ⟨by omega, by have := he.low; have := he.high; have := he.order; omega, by omega⟩ ht
  have key : ∀ r s', AddAt m h s e.2.name e.1 e.2.firstLba (e.2.lastLba - e.2.firstLba + 1) e.2.partType e.2.flags e.2.partGuid r s' →
      ∃ t, r = .ok e.1 ∧ s' = { s with partitions := t } ∧ Put s.partitions t e.1 e.2 := by
    intro r s' hr
    cases hr with
    | zero c => exact absurd c (by simp [h0, h1])
    | taken _ _ c => exact absurd c hnt
    | noSpace _ _ _ c => exact absurd hfree (c _ (Nat.le_refl _))
    | overflow _ _ _ _ _ _ _ c => exact absurd c (by rw [hlen]; have := he.order; omega)
    | insert y _ _ _ _ _ _ _ _ c =>
      rw [hpart] at c
      have h128 : h.numParts.toNat = 128 := by rw [hn]; rfl
      have := he.id
      cases c with
      | refused c => omega
      | fits t _ c => exact ⟨t, rfl, rfl, c⟩
      | rebuilt _ _ _ c => omega
      | failed _ _ _ _ c => omega
  obtain ⟨t, r1, r2, r3⟩ := key _ _ run
  have hstep : (addOp fresh2 e).step m s = (.ok (.id e.1), { s with partitions := t }) := by
    simp only [addOp, Op.step, M.mapOk, r1, r2]
  rw [hstep] at hsess
  exact ⟨t, hstep, r3, hsess⟩

/-- The calls one after the other. -/
theorem add_entries (fresh2 : Uuid) (l : List (UInt32 × Partition)) : ∀ {s : GptDisk}, InSession m cfg k d s →
    (∀ e ∈ l, Entry.Fits (d.data.length / cfg.lbSize.usize) k e) → l.Pairwise Entry.Apart →
    (∀ e ∈ l, (∀ q, (e.1, q) ∉ s.partitions) ∧ ∀ q, Used s.partitions q → ∀ x, ¬ (Covers e.2 x ∧ Covers q x)) →
    ∃ t, answers m (l.map (addOp fresh2)) s = l.map (fun e => .ok (.id e.1)) ∧
      runOps m (l.map (addOp fresh2)) s = { s with partitions := t } ∧ t.Pairwise (fun a b => a.1 < b.1) ∧
      (∀ e, e ∈ t ↔ e ∈ s.partitions ∨ e ∈ l) ∧ InSession m cfg k d { s with partitions := t } := by
  induction l with
  | nil =>
    intro s hs _ _ _
    obtain ⟨h, -, ht, -⟩ := c67_table hs
    exact ⟨s.partitions, rfl, rfl, ht.keys, fun e => by simp, hs⟩
  | cons e l ih =>
    intro s hs hf hp hn
    obtain ⟨hp1, hp2⟩ := List.pairwise_cons.mp hp
    obtain ⟨n1, n2⟩ := hn e List.mem_cons_self
    obtain ⟨t, e1, e2, e3⟩ := add_entry hs (hf e List.mem_cons_self) n1 n2 fresh2
    have hmem : ∀ a, a ∈ t ↔ a ∈ s.partitions ∨ a = e := by
      rintro ⟨j, q⟩
      by_cases hj : j = e.1
      · subst hj
        constructor
        · intro hm
          right
          have h1 := PMap.get_of_mem e2.keys hm
          have h2 := PMap.get_of_mem e2.keys e2.new
          rw [h1] at h2
          exact Prod.ext rfl (Option.some.inj h2)
        · rintro (hm | hm)
          · exact absurd hm (n1 q)
          · rw [hm]
            exact e2.new
      · rw [e2.others j q hj]
        exact ⟨.inl, fun h => h.resolve_right fun c => hj (congrArg Prod.fst c)⟩
    obtain ⟨t', f1, f2, f3, f4, f5⟩ := ih e3 (fun a ha => hf a (List.mem_cons_of_mem _ ha)) hp2 (fun a ha => by
      obtain ⟨a1, a2⟩ := hn a (List.mem_cons_of_mem _ ha)
      obtain ⟨b1, b2⟩ := hp1 a ha
      refine ⟨fun q hq => ?_, fun q ⟨j, hq, hu⟩ x hx => ?_⟩
      · rcases (hmem _).mp hq with hq | hq
        · exact a1 q hq
        · exact b1 (congrArg Prod.fst hq).symm
      · rcases (hmem _).mp hq with hq | hq
        · exact a2 q ⟨j, hq, hu⟩ x hx
        · rw [show q = e.2 from congrArg Prod.snd hq] at hx
          exact b2 x hx.symm)
    refine ⟨t', ?_, ?_, f3, fun a => ?_, f5⟩
    · simp only [List.map_cons, answers, e1, f1]
    · simp only [List.map_cons, runOps, List.foldl_cons, e1]
      exact f2
    · rw [f4 a, List.mem_cons]
      show a ∈ t ∨ _ ↔ _
      rw [hmem a, or_assoc]

/-- **C111**, adding: in a session, calls of `add_partition_at` for entries with free ids from 1 to 128 and extents that are free and do
not meet each other all succeed, and then the table holds what it held and these entries; nothing else has changed. -/
theorem c111_add (hs : InSession m cfg k d s) (fresh2 : Uuid) (l : List (UInt32 × Partition))
    (hf : ∀ e ∈ l, Entry.Fits (d.data.length / cfg.lbSize.usize) k e) (hp : l.Pairwise Entry.Apart)
    (hn : ∀ e ∈ l, (∀ q, (e.1, q) ∉ s.partitions) ∧ ∀ q, Used s.partitions q → ∀ x, ¬ (Covers e.2 x ∧ Covers q x)) :
    ∃ t, answers m (l.map (addOp fresh2)) s = l.map (fun e => .ok (.id e.1)) ∧
      runOps m (l.map (addOp fresh2)) s = { s with partitions := t } ∧ t.Pairwise (fun a b => a.1 < b.1) ∧
      (∀ e, e ∈ t ↔ e ∈ s.partitions ∨ e ∈ l) ∧ InSession m cfg k d { s with partitions := t } :=
  add_entries fresh2 l hs hf hp hn

theorem map_eq_of_mem {t t' : PMap} (h : t.Pairwise (fun a b => a.1 < b.1)) (h' : t'.Pairwise (fun a b => a.1 < b.1))
    (hm : ∀ e, e ∈ t ↔ e ∈ t') : t = t' :=
  PMap.ext h h' fun j => Option.ext fun p => by
    rw [← PMap.mem_iff_get h, ← PMap.mem_iff_get h', hm]

theorem Spec.Entry.Apart.symm {a b : UInt32 × Partition} (h : Entry.Apart a b) : Entry.Apart b a :=
  ⟨h.1.symm, fun x hx => h.2 x hx.symm⟩

/-- **C111**, order: the order of these calls does not matter. -/
theorem c111_order (hs : InSession m cfg k d s) (fresh2 : Uuid) {l l' : List (UInt32 × Partition)} (hll : l.Perm l')
    (hf : ∀ e ∈ l, Entry.Fits (d.data.length / cfg.lbSize.usize) k e) (hp : l.Pairwise Entry.Apart)
    (hn : ∀ e ∈ l, (∀ q, (e.1, q) ∉ s.partitions) ∧ ∀ q, Used s.partitions q → ∀ x, ¬ (Covers e.2 x ∧ Covers q x)) :
    runOps m (l.map (addOp fresh2)) s = runOps m (l'.map (addOp fresh2)) s := by
  obtain ⟨t, -, h1, h2, h3, -⟩ := add_entries fresh2 l hs hf hp hn
  obtain ⟨t', -, h1', h2', h3', -⟩ := add_entries fresh2 l' hs (fun e he => hf e (hll.mem_iff.mpr he))
    (hll.pairwise hp fun h => h.symm) (fun e he => hn e (hll.mem_iff.mpr he))
  rw [h1, h1', map_eq_of_mem h2 h2' fun e => by rw [h3, h3', hll.mem_iff]]

/-- **C111**, removing: after entries have been removed one by one, in whatever order, the table holds exactly the entries with other
ids, as they were; nothing else has changed. This holds in every state. -/
theorem c111_remove (m : Mode) (ids : List UInt32) (s : GptDisk) :
    ∃ t, runOps m (ids.map .removePartition) s = { s with partitions := t } ∧ t.Sublist s.partitions ∧
      ∀ e, e ∈ t ↔ e ∈ s.partitions ∧ e.1 ∉ ids := by
  induction ids generalizing s with
  | nil => exact ⟨s.partitions, rfl, List.Sublist.refl _, fun e => by simp⟩
  | cons i ids ih =>
    obtain ⟨r, s', h1, h2⟩ := c25_remove i s
    have hsub := c25_remove_order i s
    rw [h1] at hsub
    have hst : ((Op.removePartition i).step m s).2 = s' := by simp only [Op.step, M.mapOk, h1]
    have hs' : s' = { s with partitions := s'.partitions } := by
      rcases h2 with ⟨-, -, -, h⟩ | ⟨-, -, rfl⟩
      · exact h
      · rfl
    have hm : ∀ e, e ∈ s'.partitions ↔ e ∈ s.partitions ∧ e.1 ≠ i := by
      rcases h2 with ⟨-, -, h, -⟩ | ⟨h, -, rfl⟩
      · exact h
      · exact fun e => ⟨fun he => ⟨he, fun c => h e.2 (by rw [← c]; exact he)⟩, And.left⟩
    obtain ⟨t, e1, e2, e3⟩ := ih s'
    refine ⟨t, ?_, e2.trans hsub, fun e => ?_⟩
    · simp only [List.map_cons, runOps, List.foldl_cons, hst]
      refine e1.trans ?_
      rw [hs']
    · rw [e3, hm, List.mem_cons, not_or, and_assoc]

namespace Spec

/-- The tables for a device of `N` blocks with arrays of `k` blocks. -/
structure TableFor (N k : Nat) (t : PMap) : Prop where
  keys : t.Pairwise (fun a b => a.1 < b.1)
  ids : ∀ e ∈ t, 1 ≤ e.1.toNat ∧ e.1.toNat ≤ 128
  fits : ∀ e ∈ t, e.2.partType.guid ≠ Uuid.nil → Entry.Fits N k e
  apart : ∀ a ∈ t, ∀ b ∈ t, a.1 ≠ b.1 → a.2.partType.guid ≠ Uuid.nil → b.2.partType.guid ≠ Uuid.nil → Entry.Apart a b

end Spec

theorem tableFor_iff {h : Header} {N : Nat} {t : PMap} (hf : h.firstUsable.toNat = 2 + k) (hl : h.lastUsable.toNat + k + 2 = N) :
    TableFor N k t ↔ Tidy h t ∧ ∀ i p, (i, p) ∈ t → 1 ≤ i.toNat ∧ i.toNat ≤ 128 := by
  constructor
  · rintro ⟨a1, a2, a3, a4⟩
    refine ⟨⟨a1, fun p ⟨i, hm, hu⟩ => (a3 _ hm hu).order, fun p ⟨i, hm, hu⟩ => ?_, fun i j p q hi hj hij hp hq =>
      (a4 _ hi _ hj hij hp hq).2⟩, fun i p hm => a2 _ hm⟩
    have := (a3 _ hm hu).low
    have := (a3 _ hm hu).high
    simp only at *
    omega
  · rintro ⟨⟨a1, a2, a3, a4⟩, a5⟩
    refine ⟨a1, fun e he => a5 _ _ he, fun e he hu => ?_, fun a ha b hb hab hp hq => ⟨hab, a4 _ _ _ _ ha hb hab hp hq⟩⟩
    have h1 := a2 e.2 ⟨e.1, he, hu⟩
    have h2 := a3 e.2 ⟨e.1, he, hu⟩
    exact ⟨a5 _ _ he, hu, h1, by omega, by omega⟩

/-- **C111**, tables: the tables a session can go on to are, at any time, exactly those whose ids are from 1 to 128 and whose used
entries are not empty, lie between the arrays and do not overlap. -/
theorem c111_tables (hs : InSession m cfg k d s) (t : PMap) :
    (∃ s', Session m s s' ∧ s'.partitions = t) ↔ TableFor (d.data.length / cfg.lbSize.usize) k t := by
  constructor
  · rintro ⟨s', hs', rfl⟩
    obtain ⟨h, -, ht, -, hf, hl, hi⟩ := c67_table (hs.trans hs')
    exact (tableFor_iff hf hl).mpr ⟨ht, hi⟩
  · intro ht
    obtain ⟨B, h, hB, hkB, hB51, v⟩ := hs.sound
    have hf := v.first
    have hl := v.last
    obtain ⟨h1, h2⟩ := (tableFor_iff hf (by omega)).mp ht
    have hh := header_try v.sane.header
    have hord : Ordinary s (.updatePartitions t Uuid.nil) := ⟨h2, fun h' hh' => by rw [hh] at hh'; cases hh'; exact h1⟩
    have hlen : t.length ≤ 128 := keys_length (lo := 0) h1.keys fun i p hm => h2 i p hm
    have h0 : PMap.get t 0 = none := by
      cases hg : PMap.get t 0 with
      | none => rfl
      | some p => exact absurd (h2 0 p (PMap.mem_of_get hg)).1 (by decide)
    refine ⟨_, .call _ .start hord, ?_⟩
    rw [step_updatePartitions, updatePartitions_sane v.sane v.count hlen h0 v.works.faults v.works.pos (v.blocks hB)]
    rfl

theorem used_all {t : PMap} (h : ∀ e ∈ t, e.2.partType.guid ≠ Uuid.nil) : Spec.used t = t.map Prod.snd := by
  refine List.filter_eq_self.mpr fun p hp => ?_
  obtain ⟨e, he, rfl⟩ := List.mem_map.mp hp
  exact bne_iff_ne.mpr (h e he)

/-- **C111**, made: from any session, clear the table and add the entries of a table of used entries in any order. Every call
succeeds, the table is the one wanted; it can be written and, opened again, holds these entries in order of id, numbered from 1. -/
theorem c111_make (hs : InSession m cfg k d s) (fresh2 : Uuid) {t : PMap} (ht : TableFor (d.data.length / cfg.lbSize.usize) k t)
    (hu : ∀ e ∈ t, e.2.partType.guid ≠ Uuid.nil) {l : List (UInt32 × Partition)} (hl : l.Perm t) :
    answers m (.takePartitions :: l.map (addOp fresh2)) s = .ok (.parts s.partitions) :: l.map (fun e => .ok (.id e.1)) ∧
    runOps m (.takePartitions :: l.map (addOp fresh2)) s = { s with partitions := t } ∧
    ∃ s1 s2 d2, writeInplace m { s with partitions := t } = (.ok (), s1) ∧ openFromDevice m cfg s1.device = (.ok s2, d2) ∧
      Numbered (t.map Prod.snd) s2.partitions := by
  have hs0 := hs.step .takePartitions trivial
  have hap : l.Pairwise Entry.Apart := by
    refine hl.symm.pairwise ?_ fun h => h.symm
    refine List.Pairwise.imp_of_mem ?_ ht.keys
    intro a b ha hb hab
    exact ht.apart a ha b hb (fun c => by rw [c] at hab; exact PMap.u32_lt_irrefl _ hab) (hu a ha) (hu b hb)
  obtain ⟨t', h1, h2, h3, h4, h5⟩ := add_entries fresh2 l hs0 (fun e he => ht.fits e (hl.mem_iff.mp he) (hu e (hl.mem_iff.mp he))) hap
    (fun e _ => ⟨(fun _ h => nomatch h), fun _ ⟨_, h, _⟩ => nomatch h⟩)
  obtain rfl : t' = t := map_eq_of_mem h3 ht.keys fun e => by
    rw [h4, hl.mem_iff]
    exact ⟨fun h => h.resolve_left (fun c => nomatch c), .inr⟩
  obtain ⟨s1, s2, d2, h, e1, e2, -, -, -, e3⟩ := c67_write_open h5
  refine ⟨?_, h2, s1, s2, d2, e1, e2, ?_⟩
  · simp only [answers, h1]
    rfl
  · rw [← used_all hu]
    exact e3

end

/-- Entries 7 and 3 of a device of 100 blocks: one block each, at both ends of the usable range. -/
def twoEntries : List (UInt32 × Partition) := [(7, exPart 34 34), (3, exPart 66 66)]

theorem two_table : TableFor 100 32 twoEntries.reverse := by
  have f1 : Entry.Fits 100 32 (7, exPart 34 34) := ⟨by decide, by decide, by decide, by decide, by decide⟩
  have f2 : Entry.Fits 100 32 (3, exPart 66 66) := ⟨by decide, by decide, by decide, by decide, by decide⟩
  have h : Entry.Apart (7, exPart 34 34) (3, exPart 66 66) := ⟨by decide, fun x ⟨⟨a, b⟩, c, e⟩ => by
    simp only [exPart] at *
    exact absurd (Nat.le_trans c b) (by decide)⟩
  have mem : ∀ e ∈ twoEntries.reverse, e = (7, exPart 34 34) ∨ e = (3, exPart 66 66) := fun e he => by
    simpa [twoEntries, or_comm] using he
  refine ⟨by decide, fun e he => ?_, fun e he _ => ?_, fun a ha b hb hab _ _ => ?_⟩
  · rcases mem e he with rfl | rfl <;> decide
  · rcases mem e he with rfl | rfl <;> assumption
  · rcases mem a ha with rfl | rfl <;> rcases mem b hb with rfl | rfl
    · exact absurd rfl hab
    · exact h
    · exact h.symm
    · exact absurd rfl hab

/-- They are added in the order 7, 3 to a new table, written, and opened as 1 and 2: first the block at the end. -/
example (m : Mode) : ∃ s s1 s2 d2 q1 q2, InSession m (GptConfig.new.setWritable true) 32 dev100 s ∧
    answers m (.takePartitions :: twoEntries.map (addOp Uuid.nil)) s = [.ok (.parts []), .ok (.id 7), .ok (.id 3)] ∧
    (runOps m (.takePartitions :: twoEntries.map (addOp Uuid.nil)) s).partitions = [(3, exPart 66 66), (7, exPart 34 34)] ∧
    writeInplace m (runOps m (.takePartitions :: twoEntries.map (addOp Uuid.nil)) s) = (.ok (), s1) ∧
    openFromDevice m (GptConfig.new.setWritable true) s1.device = (.ok s2, d2) ∧ s2.partitions = [(1, q1), (2, q2)] ∧
    SameEntry (exPart 66 66) q1 ∧ SameEntry (exPart 34 34) q2 := by
  have hwk : dev100.Works := ⟨rfl, by show 51200 < 2 ^ 64; decide, Nat.le_of_eq dev100_length, by show 0 < 2 ^ 64; decide⟩
  have hc := made_created m (GptConfig.new.setWritable true) (d := dev100) (B := 99) rfl (by show 0 < 2 ^ 64; decide) (by rw [dev100_length]; decide)
    enough512 (by rw [dev100_length]; rfl) (by decide)
  have hs : InSession m (GptConfig.new.setWritable true) 32 dev100 (madeDisk (GptConfig.new.setWritable true) dev100 32 99 Uuid.nil) :=
    ⟨hwk, by rw [dev100_length]; decide, enough512, rfl, rfl, fun _ => rfl, _, _, _, _, _, hc, .start⟩
  have hN : dev100.data.length / (GptConfig.new.setWritable true).lbSize.usize = 100 := by rw [dev100_length]; rfl
  obtain ⟨h1, h2, s1, s2, d2, h3, h4, h5⟩ := c111_make hs Uuid.nil (t := twoEntries.reverse) (by rw [hN]; exact two_table)
    (fun e he => by
      rcases (by simpa [twoEntries, or_comm] using he : e = (7, exPart 34 34) ∨ e = (3, exPart 66 66)) with rfl | rfl <;> decide)
    (List.reverse_perm _).symm
  obtain ⟨i1, q1, a1, a2, a3⟩ := h5.entries 0 (by decide)
  obtain ⟨i2, q2, b1, b2, b3⟩ := h5.entries 1 (by decide)
  obtain rfl : i1 = 1 := UInt32.toNat_inj.mp a2
  obtain rfl : i2 = 2 := UInt32.toNat_inj.mp b2
  have hl : s2.partitions.length = 2 := h5.length
  rw [← h2] at h3
  refine ⟨_, s1, s2, d2, q1, q2, hs, h1, by rw [h2]; rfl, h3, h4, ?_, a3, b3⟩
  obtain ⟨x, y, hxy⟩ := List.length_eq_two.mp hl
  rw [hxy] at a1 b1 ⊢
  rw [Option.some.inj a1, Option.some.inj b1]

end Gpt
