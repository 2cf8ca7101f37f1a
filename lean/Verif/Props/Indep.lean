import Verif.Props.Sector
import Verif.Props.Decides
/-!
# The order of independent changes: C142
-/

namespace Gpt

open Spec GptDisk

/-- A change of the table or of the disk GUID, in memory. -/
inductive Spec.Change where
  | add (name : String) (id : UInt32) (first n : UInt64) (ty : PType) (flags : UInt64) (fresh fresh2 : Uuid)
  | remove (id : UInt32)
  | guid (u : Uuid)

/-- The call that makes the change. -/
def Spec.Change.op : Change → Op
  | .add name id first n ty flags fresh fresh2 => .addPartitionAt name id first n ty flags fresh fresh2
  | .remove id => .removePartition id
  | .guid u => .updateGuid (some u) u

/-- What the change is about: an id, or the disk GUID. -/
def Spec.Change.key : Change → Option UInt32
  | .add _ id .. => some id
  | .remove id => some id
  | .guid _ => none

/-- The blocks an addition takes. -/
def Spec.Change.Takes : Change → Nat → Prop
  | .add _ _ first n .., x => first.toNat ≤ x ∧ x < first.toNat + n.toNat
  | _, _ => False

/-- Two changes are independent: about different ids, and no block is taken by both. -/
def Spec.Change.Indep (a b : Change) : Prop := a.key ≠ b.key ∧ ∀ x, ¬ (a.Takes x ∧ b.Takes x)

/-- The change can be made now: an addition is for a free id within the slots, and for free blocks. -/
def Spec.Change.Fits (h : Header) (t : PMap) : Change → Prop
  | .add _ id first n .. => n ≠ 0 ∧ id ≠ 0 ∧ ¬ Taken t id.toNat ∧ max id.toNat 128 ≤ h.numParts.toNat ∧ FreeExtent h t first.toNat n.toNat
  | _ => True

/-- What the call returns when it is made now. -/
def Spec.Change.answer (t : PMap) : Change → Res GptError OpVal
  | .add _ id .. => .ok (.id id)
  | .remove id => .ok (.optId (if (PMap.get t id).isSome then some id else none))
  | .guid _ => .ok .unit

/-- What the change makes of a disk. -/
def Spec.Change.after (s : GptDisk) : Change → GptDisk
  | .add name id first n ty flags fresh _ => { s with partitions := PMap.insert id ⟨ty, fresh, first, first + n - 1, flags, name⟩ s.partitions }
  | .remove id => { s with partitions := PMap.remove s.partitions id }
  | .guid u => { s with guid := u }

theorem Spec.Change.Indep.symm {a b : Change} (h : a.Indep b) : b.Indep a := ⟨h.1.symm, fun x hx => h.2 x hx.symm⟩

theorem fits_end {h : Header} (hr : Range h) {t : PMap} {first n : UInt64} (h0 : n ≠ 0) (hf : FreeExtent h t first.toNat n.toNat) :
    1 ≤ n.toNat ∧ first.toNat + n.toNat ≤ h.lastUsable.toNat + 1 ∧ (first + n - 1).toNat + 1 = first.toNat + n.toNat := by
  have hn1 : 1 ≤ n.toNat := by
    rcases Nat.eq_zero_or_pos n.toNat with e | e
    · exact absurd (UInt64.toNat_inj.mp e) h0
    · exact e
  obtain ⟨-, hl, -⟩ := hf (first.toNat + n.toNat - 1) (by omega) (by omega)
  have hlast := hr.last
  refine ⟨hn1, by omega, ?_⟩
  have e1 : (first + n).toNat = first.toNat + n.toNat := u64_add_toNat (by omega)
  have e2 : (1 : UInt64) ≤ first + n := by rw [UInt64.le_iff_toNat_le, e1]; show 1 ≤ _; omega
  rw [UInt64.toNat_sub_of_le _ _ e2, e1]
  show _ - 1 + 1 = _
  omega

theorem change_step (m : Mode) {s : GptDisk} {h : Header} (hs : Ready h s) {c : Change} (hf : c.Fits h s.partitions) :
    c.op.step m s = (c.answer s.partitions, c.after s) := by
  cases c with
  | guid u => rfl
  | remove id =>
    show ((removePartition id : M GptDisk GptError _).mapOk OpVal.optId) s = _
    unfold Change.answer Change.after M.mapOk removePartition
    cases hg : PMap.get s.partitions id with
    | some p => simp only [hg, Option.isSome_some, if_true]
    | none =>
      have : PMap.remove s.partitions id = s.partitions :=
        PMap.ext (PMap.remove_sorted hs.table.keys id) hs.table.keys fun k => by
          rw [PMap.get_remove]
          split
          · rename_i e
            rw [e, hg]
          · rfl
      simp [this, hg]
  | add name id first n ty flags fresh fresh2 =>
    obtain ⟨h0, hid, hnt, hslots, hfree⟩ := hf
    obtain ⟨hn1, hle, -⟩ := fits_end hs.range h0 hfree
    have hlast := hs.range.last
    show ((addPartitionAt m name id first n ty flags fresh fresh2).mapOk OpVal.id) s = _
    unfold Change.answer Change.after M.mapOk
    have run := c76_add_partition_at m name id first n ty flags fresh fresh2 s h hs.header hs.range hs.table
    generalize addPartitionAt m name id first n ty flags fresh fresh2 s = xx at run ⊢
    rcases xx with ⟨r, t'⟩
    simp only at run
    cases run with
    | zero e => rcases e with e | e <;> contradiction
    | taken _ _ e => exact absurd e hnt
    | noSpace _ _ _ e => exact absurd hfree (e _ (Nat.le_refl _))
    | overflow _ _ _ _ _ _ _ e => omega
    | insert _ _ _ _ _ _ _ _ _ hi =>
      cases hi with
      | refused e => omega
      | rebuilt _ _ _ e => omega
      | failed _ _ _ _ e => omega
      | fits t _ hput => rw [put_eq hs.table.keys hput]

theorem change_ready {s : GptDisk} {h : Header} (hs : Ready h s) {c : Change} (hf : c.Fits h s.partitions) : Ready h (c.after s) := by
  cases c with
  | guid u => exact ⟨hs.header, hs.range, hs.table, hs.count⟩
  | remove id => exact ⟨hs.header, hs.range, tidy_remove hs.table id, hs.count⟩
  | add name id first n ty flags fresh fresh2 =>
    obtain ⟨h0, hid, hnt, hslots, hfree⟩ := hf
    obtain ⟨hn1, -, hend⟩ := fits_end hs.range h0 hfree
    exact ⟨hs.header, hs.range, tidy_insert hs.table hfree hn1 rfl hend, hs.count⟩

theorem change_fits {s : GptDisk} {h : Header} (hs : Ready h s) {a b : Change} (ha : a.Fits h s.partitions) (hab : a.Indep b)
    (hb : b.Fits h s.partitions) : b.Fits h (a.after s).partitions := by
  cases b with
  | guid u => trivial
  | remove id => trivial
  | add name id first n ty flags fresh fresh2 =>
    obtain ⟨h0, hid, hnt, hslots, hfree⟩ := hb
    cases a with
    | guid u => exact ⟨h0, hid, hnt, hslots, hfree⟩
    | remove j =>
      refine ⟨h0, hid, ?_, hslots, fun x hx1 hx2 => ?_⟩
      · rintro ⟨i, q, hm, e⟩
        exact hnt ⟨i, q, (PMap.mem_remove.mp hm).1, e⟩
      · obtain ⟨g1, g2, g3⟩ := hfree x hx1 hx2
        exact ⟨g1, g2, fun q ⟨i, hm, hu⟩ hc => g3 q ⟨i, (PMap.mem_remove.mp hm).1, hu⟩ hc⟩
    | add name' j first' n' ty' flags' fresh' fresh2' =>
      obtain ⟨h0', hid', hnt', hslots', hfree'⟩ := ha
      obtain ⟨hn1, hle, hend⟩ := fits_end hs.range h0' hfree'
      have hk := hs.table.keys
      refine ⟨h0, hid, ?_, hslots, fun x hx1 hx2 => ?_⟩
      · rintro ⟨i, q, hm, e, hu⟩
        have hm := (PMap.mem_iff_get (PMap.insert_sorted hk _ _)).mp hm
        rw [PMap.get_insert] at hm
        split at hm
        · rename_i e'
          exact hab.1 (congrArg some (e'.symm.trans (UInt32.toNat_inj.mp e)))
        · exact hnt ⟨i, q, (PMap.mem_iff_get hk).mpr hm, e, hu⟩
      · obtain ⟨g1, g2, g3⟩ := hfree x hx1 hx2
        refine ⟨g1, g2, fun q hq hc => ?_⟩
        rcases (used_insert hk).mp hq with ⟨rfl, -⟩ | ⟨i, -, hm, hu⟩
        · obtain ⟨c1, c2⟩ := hc
          simp only at c1 c2
          exact hab.2 x ⟨⟨c1, by omega⟩, hx1, hx2⟩
        · exact g3 q ⟨i, hm, hu⟩ hc

theorem change_answer {s : GptDisk} {a b : Change} (hab : a.Indep b) : b.answer (a.after s).partitions = b.answer s.partitions := by
  cases b with
  | guid u => rfl
  | add => rfl
  | remove id =>
    cases a with
    | guid u => rfl
    | remove j =>
      have : id ≠ j := fun e => hab.1 (congrArg some e.symm)
      unfold Change.answer Change.after
      simp only [PMap.get_remove, if_neg this]
    | add name' j first' n' ty' flags' fresh' fresh2' =>
      have : id ≠ j := fun e => hab.1 (congrArg some e.symm)
      unfold Change.answer Change.after
      simp only [PMap.get_insert, if_neg this]

theorem change_comm {s : GptDisk} (hk : PMap.Sorted s.partitions) {a b : Change} (hab : a.Indep b) : b.after (a.after s) = a.after (b.after s) := by
  have key : ∀ t t' : PMap, PMap.Sorted t → PMap.Sorted t' → (∀ k, PMap.get t k = PMap.get t' k) →
      ({ s with partitions := t } : GptDisk) = { s with partitions := t' } := fun t t' h h' e => by rw [PMap.ext h h' e]
  cases a with
  | guid u =>
    cases b with
    | guid v => exact absurd rfl hab.1
    | remove i => rfl
    | add => rfl
  | remove i =>
    cases b with
    | guid v => rfl
    | remove j =>
      refine key _ _ (PMap.remove_sorted (PMap.remove_sorted hk _) _) (PMap.remove_sorted (PMap.remove_sorted hk _) _) fun k => ?_
      simp only [Change.after, PMap.get_remove]
      grind
    | add name j first n ty flags fresh fresh2 =>
      have ne : i ≠ j := fun e => hab.1 (congrArg some e)
      refine key _ _ (PMap.insert_sorted (PMap.remove_sorted hk _) _ _) (PMap.remove_sorted (PMap.insert_sorted hk _ _) _) fun k => ?_
      simp only [Change.after, PMap.get_remove, PMap.get_insert]
      grind
  | add name' i first' n' ty' flags' fresh' fresh2' =>
    cases b with
    | guid v => rfl
    | remove j =>
      have ne : i ≠ j := fun e => hab.1 (congrArg some e)
      refine key _ _ (PMap.remove_sorted (PMap.insert_sorted hk _ _) _) (PMap.insert_sorted (PMap.remove_sorted hk _) _ _) fun k => ?_
      simp only [Change.after, PMap.get_remove, PMap.get_insert]
      grind
    | add name j first n ty flags fresh fresh2 =>
      have ne : i ≠ j := fun e => hab.1 (congrArg some e)
      refine key _ _ (PMap.insert_sorted (PMap.insert_sorted hk _ _) _ _) (PMap.insert_sorted (PMap.insert_sorted hk _ _) _ _) fun k => ?_
      simp only [Change.after, PMap.get_insert]
      grind

theorem changes_run (m : Mode) {h : Header} {L : List Change} {s : GptDisk} (hs : Ready h s) (hf : ∀ c ∈ L, c.Fits h s.partitions)
    (hp : L.Pairwise Change.Indep) :
    runOps m (L.map Change.op) s = L.foldl (fun s c => c.after s) s ∧ outcomes m (L.map Change.op) s = L.map (Change.answer s.partitions) ∧
      Ready h (L.foldl (fun s c => c.after s) s) := by
  induction L generalizing s with
  | nil => exact ⟨rfl, rfl, hs⟩
  | cons a L ih =>
    obtain ⟨p1, p2⟩ := List.pairwise_cons.mp hp
    have ha := hf a List.mem_cons_self
    have st := change_step m hs ha
    obtain ⟨i1, i2, i3⟩ := ih (change_ready hs ha) (fun c hc => change_fits hs ha (p1 c hc) (hf c (List.mem_cons_of_mem _ hc))) p2
    refine ⟨?_, ?_, i3⟩
    · rw [List.map_cons]
      show runOps m (L.map Change.op) (a.op.step m s).2 = _
      rw [st]
      exact i1
    · rw [List.map_cons]
      show (a.op.step m s).1 :: outcomes m (L.map Change.op) (a.op.step m s).2 = _
      rw [st]
      simp only
      rw [i2, List.map_cons]
      exact congrArg _ (List.map_congr_left fun c hc => change_answer (p1 c hc))

/-- **C142**, what is returned: each call returns what it would have returned as the first one. -/
theorem c142_answers (m : Mode) {h : Header} {L : List Change} {s : GptDisk} (hs : Ready h s) (hf : ∀ c ∈ L, c.Fits h s.partitions)
    (hp : L.Pairwise Change.Indep) :
    outcomes m (L.map Change.op) s = L.map (fun c => (c.op.step m s).1) ∧ Ready h (runOps m (L.map Change.op) s) := by
  obtain ⟨h1, h2, h3⟩ := changes_run m hs hf hp
  refine ⟨?_, by rw [h1]; exact h3⟩
  rw [h2]
  exact List.map_congr_left fun c hc => by rw [change_step m hs (hf c hc)]

/-- **C142**, the disk: independent changes made in another order lead to the same disk. -/
theorem c142_order (m : Mode) {h : Header} {L L' : List Change} {s : GptDisk} (hs : Ready h s) (hf : ∀ c ∈ L, c.Fits h s.partitions)
    (hp : L.Pairwise Change.Indep) (hl : L.Perm L') : runOps m (L.map Change.op) s = runOps m (L'.map Change.op) s := by
  have hp' : L'.Pairwise Change.Indep := hl.pairwise hp fun h => h.symm
  rw [(changes_run m hs hf hp).1, (changes_run m hs (fun c hc => hf c (hl.mem_iff.mpr hc)) hp').1]
  clear hp'
  induction hl generalizing s with
  | nil => rfl
  | cons a _ ih =>
    obtain ⟨p1, p2⟩ := List.pairwise_cons.mp hp
    have ha := hf a List.mem_cons_self
    exact ih (change_ready hs ha) (fun c hc => change_fits hs ha (p1 c hc) (hf c (List.mem_cons_of_mem _ hc))) p2
  | swap a b L =>
    obtain ⟨p1, p2⟩ := List.pairwise_cons.mp hp
    show L.foldl _ (a.after (b.after s)) = L.foldl _ (b.after (a.after s))
    rw [change_comm hs.table.keys (p1 a List.mem_cons_self)]
  | trans q _ ih1 ih2 =>
    rw [ih1 hs hf hp]
    exact ih2 hs (fun c hc => hf c (q.mem_iff.mpr hc)) (q.pairwise hp fun h => h.symm)

/-! ## The hypotheses are met -/

/-- Three changes of `sessDisk`: an addition, the removal of the partition it has, another disk GUID. -/
example (m : Mode) (u : Uuid) : ∃ h, Ready h (sessDisk m) ∧
    (∀ c ∈ [Change.add "b" 5 40 4 (exPart 0 0).partType 0 Uuid.nil Uuid.nil, .remove 1, .guid u], c.Fits h (sessDisk m).partitions) ∧
    [Change.add "b" 5 40 4 (exPart 0 0).partType 0 Uuid.nil Uuid.nil, .remove 1, .guid u].Pairwise Change.Indep := by
  obtain ⟨h, hs⟩ := sessDisk_ready m
  obtain ⟨L, hL, hsec⟩ := findFreeSectors_sections (ε := GptError) m (sessDisk m) hs.header hs.range hs.table
  have hL' : ((sessDisk m).findFreeSectors m : Res GptError _) = .ok [(36, 31)] := by cases m <;> decide +kernel
  obtain rfl := Res.ok.inj (hL.symm.trans hL')
  obtain ⟨h', e1, -, e3, -⟩ := c67_table (sessDisk_session m)
  have := hs.header
  rw [e1] at this
  cases this
  refine ⟨h, hs, ?_, ?_⟩
  · intro c hc
    rcases List.mem_cons.mp hc with rfl | hc
    · refine ⟨by decide, by decide, ?_, by rw [e3]; decide, hsec.inside List.mem_cons_self (by decide) (by decide)⟩
      rintro ⟨i, q, hm, hi, -⟩
      rw [sessDisk_partitions] at hm
      cases List.mem_singleton.mp hm
      exact absurd hi (by decide)
    · rcases List.mem_cons.mp hc with rfl | hc
      · trivial
      · cases List.mem_singleton.mp hc
        trivial
  · refine List.pairwise_cons.mpr ⟨?_, List.pairwise_cons.mpr ⟨?_, List.pairwise_singleton _ _⟩⟩
    · intro c hc
      rcases List.mem_cons.mp hc with rfl | hc
      · exact ⟨by simp [Change.key], fun x hx => hx.2⟩
      · cases List.mem_singleton.mp hc
        exact ⟨by simp [Change.key], fun x hx => hx.2⟩
    · intro c hc
      cases List.mem_singleton.mp hc
      exact ⟨by simp [Change.key], fun x hx => hx.2⟩

end Gpt
