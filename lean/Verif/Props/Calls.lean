import Verif.Props.Overflow
import Verif.Props.MapHistory
import Verif.Props.Disjoint
import Verif.Props.Limits
/-!
# C23, C55 and C59 call by call: exactly which calls break them
-/

namespace Gpt

open Spec GptDisk HeaderBuilder

/-! ## C55: slots -/

/-- A new entry with an id that is not in use. -/
theorem used_insert_length {t : PMap} {id : UInt32} {p : Partition} (hu : ∀ q, PMap.get t id = some q → q.partType.guid = Uuid.nil) :
    (used (PMap.insert id p t)).length = (used t).length + if p.partType.guid = Uuid.nil then 0 else 1 := by
  have hcons : ∀ (a : UInt32 × Partition) (r : PMap), (used (a :: r)).length = (if a.2.partType.guid = Uuid.nil then 0 else 1) + (used r).length := by
    intro a r
    unfold used
    rw [List.map_cons, List.filter_cons]
    by_cases h : a.2.partType.guid = Uuid.nil
    · simp [h]
    · simp [h]; omega
  induction t with
  | nil =>
    unfold PMap.insert
    rw [hcons]
    show _ + 0 = 0 + _
    simp only
    omega
  | cons a t ih =>
    obtain ⟨k, q⟩ := a
    unfold PMap.insert
    split
    · rw [hcons]
      simp only
      omega
    · split
      · rename_i h
        have := hu q (by rw [PMap.get_cons, if_pos h.symm])
        rw [hcons, hcons, if_pos this]
        simp only
        omega
      · rename_i h
        rw [hcons, hcons, ih fun q' hq' => hu q' (by rw [PMap.get_cons, if_neg fun e => h e.symm]; exact hq')]
        omega

theorem used_le (t : PMap) : (used t).length ≤ t.length := by
  unfold used
  exact (List.length_filter_le _ _).trans (by rw [List.length_map])

theorem used_remove_le (t : PMap) (k : UInt32) : (used (PMap.remove t k)).length ≤ (used t).length := by
  unfold used PMap.remove
  exact (List.Sublist.filter _ (List.Sublist.map _ List.filter_sublist)).length_le

theorem table_small {t : PMap} (hs : t.Pairwise (fun a b => a.1 < b.1)) (h0 : PMap.get t 0 = none) : t.length < 2 ^ 32 := by
  have := sorted_length hs 1 (by decide) fun e he => by
    by_contra hz
    have hz : e.1 = 0 := UInt32.toNat_inj.mp (by have : (0 : UInt32).toNat = 0 := rfl; omega)
    have : PMap.get t 0 = some e.2 := (PMap.mem_iff_get hs).mp (by rw [← hz]; exact he)
    rw [h0] at this
    cases this
  omega

/-- The calls that add an entry of this type. -/
def Spec.Adds (op : Op) (ty : PType) : Prop :=
  (∃ name size flags align fresh fresh2, op = .addPartition name size ty flags align fresh fresh2) ∨
  ∃ name id first length flags fresh fresh2, op = .addPartitionAt name id first length ty flags fresh fresh2

theorem inserted_enough {m : Mode} {id : UInt32} {p : Partition} {fresh2 : Uuid} {s s' : GptDisk} {h : Header} {i : UInt32}
    (hs : s.partitions.Pairwise (fun a b => a.1 < b.1)) (h0 : PMap.get s.partitions 0 = none) (hh : s.tryHeader = .ok h)
    (hle : (used s.partitions).length ≤ h.numParts.toNat)
    (hu : h.numPartsWouldChange id = false → ∀ q, PMap.get s.partitions id = some q → q.partType.guid = Uuid.nil)
    (hid : h.numPartsWouldChange id = true → id ≠ 0)
    (hi : Inserted m id p fresh2 s (.ok i) s') : i = id ∧ ∃ h', s'.tryHeader = .ok h' ∧
      (h'.numParts.toNat < (used s'.partitions).length ↔
        (used s.partitions).length = h.numParts.toNat ∧ p.partType.guid ≠ Uuid.nil ∧ h.numPartsWouldChange id = false) := by
  generalize hr : (Res.ok i : Res GptError UInt32) = r at hi
  cases hi with
  | panic => cases hr
  | refused => cases hr
  | plain h1 hh1 hc =>
    obtain rfl := Except.ok.inj (hh.symm.trans hh1)
    cases hr
    refine ⟨rfl, h, hh, ?_⟩
    show _ < (used (PMap.insert id p s.partitions)).length ↔ _
    rw [used_insert_length (hu hc)]
    split
    · rename_i e
      simp only [e, ne_eq, not_true_eq_false, false_and, and_false, iff_false]
      omega
    · rename_i e
      constructor
      · intro _; exact ⟨by omega, e, hc⟩
      · intro ⟨e1, _⟩; omega
  | rebuilt h1 r s' hh1 hc h3 h4 =>
    obtain rfl := Except.ok.inj (hh.symm.trans hh1)
    obtain ⟨⟨u, rfl⟩, e⟩ := Res.as_eq_ok.mp hr.symm
    refine ⟨e, ?_⟩
    rcases initHeaders_numParts h4 with ⟨-, hn⟩ | ⟨h', hh', hn⟩
    · exact absurd rfl hn
    · refine ⟨h', hh', ?_⟩
      have hp : s'.partitions = PMap.insert id p s.partitions := (initHeaders_same h4).partitions
      have hl := table_small (PMap.insert_sorted hs id p) (by
        rw [PMap.get_insert, if_neg fun e => hid hc e.symm]; exact h0)
      have hn : h'.numParts.toNat = max (PMap.insert id p s.partitions).length 128 := by
        rw [hn]
        show max (UInt32.ofNat (PMap.insert id p s.partitions).length).toNat 128 = _
        rw [u32_ofNat_toNat hl]
      have := used_le (PMap.insert id p s.partitions)
      rw [hp, hn, hc]
      constructor
      · intro hlt; omega
      · rintro ⟨-, -, h⟩; cases h

/-- **C55**, exactly: on a disk with enough slots, a successful call leads to more used partitions than slots if and only if all slots
were used and it added a used entry with a number of a slot (so that some other entry has a number behind them). -/
theorem c55_exact (m : Mode) (op : Op) (s : GptDisk) (h : Header) (v : OpVal) (hw : op.Wf)
    (hs : s.partitions.Pairwise (fun a b => a.1 < b.1)) (h0 : PMap.get s.partitions 0 = none) (hh : s.tryHeader = .ok h)
    (hle : (used s.partitions).length ≤ h.numParts.toNat) (hok : (op.step m s).1 = .ok v) :
    ∃ h', (op.step m s).2.tryHeader = .ok h' ∧
      (h'.numParts.toNat < (used (op.step m s).2.partitions).length ↔
        (used s.partitions).length = h.numParts.toNat ∧ 128 ≤ h.numParts.toNat ∧
        ∃ id ty, v = .id id ∧ id.toNat ≤ h.numParts.toNat ∧ Adds op ty ∧ ty.guid ≠ Uuid.nil) := by
  have hno : ∀ s' : GptDisk, (∀ ty, ¬ Adds op ty) → (∃ h', s'.tryHeader = .ok h' ∧ (used s'.partitions).length ≤ h'.numParts.toNat) →
      ∃ h', s'.tryHeader = .ok h' ∧ (h'.numParts.toNat < (used s'.partitions).length ↔
        (used s.partitions).length = h.numParts.toNat ∧ 128 ≤ h.numParts.toNat ∧
        ∃ id ty, v = .id id ∧ id.toNat ≤ h.numParts.toNat ∧ Adds op ty ∧ ty.guid ≠ Uuid.nil) := by
    rintro s' hna ⟨h', e1, e2⟩
    refine ⟨h', e1, fun hlt => by omega, ?_⟩
    rintro ⟨-, -, id, ty, -, -, ha, -⟩
    exact absurd ha (hna ty)
  have h00 : (0 : UInt32).toNat = 0 := rfl
  cases op with
  | addPartition name size ty flags align fresh fresh2 =>
    have hok : ((addPartition m name size ty flags align fresh fresh2).mapOk OpVal.id s).1 = .ok v := hok
    obtain ⟨i, hr0, hv0⟩ := M.mapOk_ok.mp hok
    subst hv0
    rcases addPartition_any m name size ty flags align fresh fresh2 s with ⟨-, hr⟩ | ⟨id, first, last, hp, hi⟩
    · rw [hr0] at hr; rcases hr with hr | hr <;> cases hr
    rw [hr0] at hi
    have hpick : h.numPartsWouldChange id = false → ∀ q, PMap.get s.partitions id = some q → q.partType.guid = Uuid.nil := by
      intro hc q hq
      have hc := (wouldChange_false h id).mp hc
      obtain ⟨r, g1, g2, g3⟩ := c24_next_id s hh hs (.inr (by omega))
      rcases hp with hp | ⟨hp, h1, hh1, ha⟩
      · rw [hp] at g1
        obtain ⟨-, -, g4, -⟩ := g2 id (Res.ok.inj g1).symm
        by_contra hne
        exact g4 ⟨id, q, PMap.mem_of_get hq, rfl, hne⟩
      · obtain rfl := Except.ok.inj (hh.symm.trans hh1)
        have e := add32_ok ha
        have h32 : (1 : UInt32).toNat = 1 := rfl
        have : id = 0 := by
          refine UInt32.toNat_inj.mp ?_
          have hlt := h.numParts.toNat_lt
          have : id.toNat = (h.numParts.toNat + 1) % 2 ^ 32 := by rw [e, UInt32.toNat_add, h32]
          rcases Nat.lt_or_ge (h.numParts.toNat + 1) (2 ^ 32) with hx | hx
          · rw [Nat.mod_eq_of_lt hx] at this; omega
          · rw [this, h00]; have : h.numParts.toNat + 1 = 2 ^ 32 := by omega
            rw [this, Nat.mod_self]
        rw [this, h0] at hq
        cases hq
    have hnz : h.numPartsWouldChange id = true → id ≠ 0 := by
      rintro hc rfl
      rcases hp with hp | ⟨hp, h1, hh1, ha⟩
      · exact c24_not_zero s hs hp rfl
      · obtain rfl := Except.ok.inj (hh.symm.trans hh1)
        have e := add32_ok ha
        have hn : h.numParts.toNat + 1 = 2 ^ 32 := by
          have hlt := h.numParts.toNat_lt
          have : (0 : UInt32).toNat = (h.numParts.toNat + 1) % 2 ^ 32 := by
            have := congrArg UInt32.toNat e
            rw [UInt32.toNat_add] at this
            exact this
          rw [h00] at this
          omega
        have := (wouldChange_iff h 0).mp hc
        rw [h00] at this
        omega
    obtain ⟨rfl, h', e1, e2⟩ := inserted_enough hs h0 hh hle hpick hnz hi
    refine ⟨h', e1, e2.trans ?_⟩
    rw [wouldChange_false]
    constructor
    · rintro ⟨a, b, c⟩
      exact ⟨a, by omega, i, ty, rfl, by omega, .inl ⟨_, _, _, _, _, _, rfl⟩, b⟩
    · rintro ⟨a, b, id', ty', hv, c, ha, d⟩
      cases hv
      rcases ha with ⟨_, _, _, _, _, _, ha⟩ | ⟨_, _, _, _, _, _, _, ha⟩
      · cases ha
        exact ⟨a, d, by omega⟩
      · cases ha
  | addPartitionAt name id first length ty flags fresh fresh2 =>
    have hok : ((addPartitionAt m name id first length ty flags fresh fresh2).mapOk OpVal.id s).1 = .ok v := hok
    obtain ⟨i, hr0, hv0⟩ := M.mapOk_ok.mp hok
    subst hv0
    rcases addPartitionAt_any m name id first length ty flags fresh fresh2 s with ⟨-, hr⟩ | ⟨hne, -, hun, -, hi⟩
    · rw [hr0] at hr; rcases hr with hr | hr | hr <;> cases hr
    rw [hr0] at hi
    have hpick : ∀ q, PMap.get s.partitions id = some q → q.partType.guid = Uuid.nil := by
      intro q hq
      rw [hq] at hun
      by_contra hne
      have := (isUsed_iff q).mpr hne
      simp [this] at hun
    obtain ⟨rfl, h', e1, e2⟩ := inserted_enough hs h0 hh hle (fun _ => hpick) (fun _ => hne) hi
    refine ⟨h', e1, e2.trans ?_⟩
    rw [wouldChange_false]
    constructor
    · rintro ⟨a, b, c⟩
      exact ⟨a, by omega, i, ty, rfl, by omega, .inr ⟨_, _, _, _, _, _, _, rfl⟩, b⟩
    · rintro ⟨a, b, id', ty', hv, c, ha, d⟩
      cases hv
      rcases ha with ⟨_, _, _, _, _, _, ha⟩ | ⟨_, _, _, _, _, _, _, ha⟩
      · cases ha
      · cases ha
        exact ⟨a, d, by omega⟩
  | removePartition id =>
    refine hno _ (by rintro ty (⟨_, _, _, _, _, _, ha⟩ | ⟨_, _, _, _, _, _, _, ha⟩) <;> cases ha) ?_
    show ∃ h', (removePartition (ε := GptError) id s).2.tryHeader = .ok h' ∧ (used (removePartition (ε := GptError) id s).2.partitions).length ≤ _
    unfold removePartition
    split
    · exact ⟨h, hh, (used_remove_le _ _).trans hle⟩
    · exact ⟨h, hh, hle⟩
  | removePartitionByGuid g =>
    refine hno _ (by rintro ty (⟨_, _, _, _, _, _, ha⟩ | ⟨_, _, _, _, _, _, _, ha⟩) <;> cases ha) ?_
    show ∃ h', (removePartitionByGuid (ε := GptError) g s).2.tryHeader = .ok h' ∧
      (used (removePartitionByGuid (ε := GptError) g s).2.partitions).length ≤ _
    unfold removePartitionByGuid
    split
    · exact ⟨h, hh, (used_remove_le _ _).trans hle⟩
    · exact ⟨h, hh, hle⟩
  | takePartitions =>
    refine hno _ (by rintro ty (⟨_, _, _, _, _, _, ha⟩ | ⟨_, _, _, _, _, _, _, ha⟩) <;> cases ha) ⟨h, hh, ?_⟩
    show (used []).length ≤ _
    exact Nat.zero_le _
  | updateGuid u r =>
    exact hno _ (by rintro ty (⟨_, _, _, _, _, _, ha⟩ | ⟨_, _, _, _, _, _, _, ha⟩) <;> cases ha) ⟨h, hh, hle⟩
  | updateDiskDevice d w =>
    exact hno _ (by rintro ty (⟨_, _, _, _, _, _, ha⟩ | ⟨_, _, _, _, _, _, _, ha⟩) <;> cases ha) ⟨h, hh, hle⟩
  | deviceMut d =>
    exact hno _ (by rintro ty (⟨_, _, _, _, _, _, ha⟩ | ⟨_, _, _, _, _, _, _, ha⟩) <;> cases ha) ⟨h, hh, hle⟩
  | updatePartitions pp r =>
    refine hno _ (by rintro ty (⟨_, _, _, _, _, _, ha⟩ | ⟨_, _, _, _, _, _, _, ha⟩) <;> cases ha) ?_
    have hok : ((updatePartitions m pp r).mapOk (fun _ => OpVal.unit) s).1 = .ok v := hok
    obtain ⟨u, hr0, -⟩ := M.mapOk_ok.mp hok
    rcases updatePartitions_any m pp r s with ⟨-, hr | ⟨hr, -⟩⟩ | ⟨hz, h1, -, -, e⟩
    · rw [hr0] at hr; cases hr
    · rw [hr0] at hr; cases hr
    rcases hx : initHeaders m r (s.withParts pp) with ⟨q, s'⟩
    rw [e, hx] at hr0
    obtain rfl : q = .ok u := hr0
    rw [step_updatePartitions, e, hx]
    rcases initHeaders_numParts hx with ⟨-, hn⟩ | ⟨h', hh', hn⟩
    · exact absurd rfl hn
    refine ⟨h', hh', ?_⟩
    have hp : s'.partitions = pp := (initHeaders_same hx).partitions
    have hn : h'.numParts.toNat = max pp.length 128 := by
      rw [hn]
      show max (UInt32.ofNat pp.length).toNat 128 = _
      rw [u32_ofNat_toNat (table_small hw hz)]
    have := used_le pp
    show (used s'.partitions).length ≤ _
    rw [hp, hn]
    omega
  | writeInplace =>
    refine hno _ (by rintro ty (⟨_, _, _, _, _, _, ha⟩ | ⟨_, _, _, _, _, _, _, ha⟩) <;> cases ha) ?_
    have hm := writeInplace_mem m s
    show ∃ h', (writeInplace m s).2.tryHeader = .ok h' ∧ (used (writeInplace m s).2.partitions).length ≤ _
    rw [hm.partitions]
    rcases hm.headers with ⟨h1, h2⟩ | ⟨h1, ph, ph', hh1, hp, hsb, hpr, _⟩
    · exact ⟨h, (tryHeader_congr h1 h2).trans hh, hle⟩
    · obtain rfl := Except.ok.inj (hh.symm.trans hh1)
      have hn : ph'.numParts = h.numParts := by rw [(sameBut_fields hsb).1]; exact (build_numParts hp).1
      exact ⟨ph', tryHeader_of_primary hpr, by rw [hn]; exact hle⟩

/-- All 128 slots used by the ids 2 to 129: `add_partition` takes id 1, and there are more used partitions than slots. -/
example (m : Mode) : ∃ h', (gapAdd.step m gapDisk).2.tryHeader = .ok h' ∧ h'.numParts.toNat < (used (gapAdd.step m gapDisk).2.partitions).length := by
  have hn : (used gapDisk.partitions).length = 128 := by decide +kernel
  obtain ⟨h', e1, e2⟩ := c55_exact m gapAdd gapDisk _ (.id 1) trivial gapTable_sorted (by decide +kernel) (tryHeader_of_primary rfl)
    (by rw [hn]; decide) (gap_add m).1
  exact ⟨h', e1, e2.mpr ⟨by rw [hn]; decide, by decide, 1, _, rfl, by decide, .inl ⟨_, _, _, _, _, _, rfl⟩, by decide⟩⟩

/-! ## C59: the plain map -/

/-- The call would change the table: the GUID of a new entry is new, the table given is another. -/
def Spec.Changes (s : GptDisk) : Op → Prop
  | .addPartition _ _ _ _ _ fresh _ => ∀ x ∈ s.partitions, x.2.partGuid ≠ fresh
  | .addPartitionAt _ _ _ _ _ _ fresh _ => ∀ x ∈ s.partitions, x.2.partGuid ≠ fresh
  | .updatePartitions pp _ => pp ≠ s.partitions
  | _ => True

/-- **C59**, exactly: a call that does not panic does to the table what it does to a plain map, if and only if it is not an add or
update (with something new) that returns a header error. -/
theorem c59_exact (m : Mode) (op : Op) (s : GptDisk) (hs : s.partitions.Pairwise (fun a b => a.1 < b.1)) (hw : op.Wf)
    (hc : Changes s op) (hp : (op.step m s).1 ≠ .panic) :
    MapStep op (op.step m s).1 (mapOf s.partitions) (mapOf (op.step m s).2.partitions) ↔
      op = .writeInplace ∨ ∀ e, (op.step m s).1 ≠ .err (.header e) := by
  constructor
  · intro h
    by_contra hcon
    rw [not_or] at hcon
    obtain ⟨hnw, hcon⟩ := hcon
    obtain ⟨e, he⟩ := Classical.not_forall.mp hcon
    have he : (op.step m s).1 = .err (.header e) := Classical.not_not.mp he
    have hsame : mapOf (op.step m s).2.partitions = mapOf s.partitions := by
      rw [he] at h
      generalize mapOf (op.step m s).2.partitions = t' at h
      generalize mapOf s.partitions = t at h
      generalize hr : (Res.err (.header e) : Res GptError OpVal) = r at h
      cases h <;> first | rfl | cases hr
    have hsame : (op.step m s).2.partitions = s.partitions :=
      PMap.ext (step_sorted m op s hs hw) hs fun k => congrFun hsame k
    obtain ⟨x1, x2, x3⟩ := c29_exact m s (.header e) hs
    cases op with
    | addPartition name size ty flags align fresh fresh2 =>
      exact (x1 name size ty flags align fresh fresh2 _ hc (Prod.ext (M.mapOk_err.mp he) rfl)).mp hsame e rfl
    | addPartitionAt name id first length ty flags fresh fresh2 =>
      exact (x2 name id first length ty flags fresh fresh2 _ hc (Prod.ext (M.mapOk_err.mp he) rfl)).mp hsame e rfl
    | updatePartitions pp fresh => exact (x3 pp fresh _ hc (Prod.ext (M.mapOk_err.mp he) rfl)).mp hsame e rfl
    | writeInplace => exact hnw rfl
    | removePartition id =>
      have : (removePartition (ε := GptError) id s).1 = .err (.header e) := M.mapOk_err.mp he
      unfold removePartition at this
      split at this <;> cases this
    | removePartitionByGuid g =>
      have : (removePartitionByGuid (ε := GptError) g s).1 = .err (.header e) := M.mapOk_err.mp he
      unfold removePartitionByGuid at this
      split at this <;> cases this
    | takePartitions => cases he
    | updateGuid u r => cases he
    | updateDiskDevice d w => cases he
    | deviceMut d => cases he
  · intro h
    rcases step_lax m op s hs with hl | ⟨hr, v, hl⟩
    · exact hl
    · rcases hr with hr | ⟨e, hr⟩
      · exact absurd hr hp
      · rcases h with rfl | h
        · have : (Op.writeInplace.step m s).2.partitions = s.partitions := (writeInplace_mem m s).partitions
          rw [hr, this]
          exact .failed
        · exact absurd hr (h e)

/-- The call of `c59_fails`. -/
example : ¬ MapStep (.addPartitionAt "x" 200 80 5 (exPart 0 0).partType 0 ⟨1, 2, 3, 4⟩ Uuid.nil) (.err (.header .toSmallForBackup))
    (mapOf exDiskChange.partitions)
    (mapOf (addPartitionAt .debug "x" 200 80 5 (exPart 0 0).partType 0 ⟨1, 2, 3, 4⟩ Uuid.nil exDiskChange).2.partitions) := by
  have h1 : ((Op.addPartitionAt "x" 200 80 5 (exPart 0 0).partType 0 ⟨1, 2, 3, 4⟩ Uuid.nil).step .debug exDiskChange).1 =
    .err (.header .toSmallForBackup) := by decide +kernel
  intro h
  have h : MapStep (.addPartitionAt "x" 200 80 5 (exPart 0 0).partType 0 ⟨1, 2, 3, 4⟩ Uuid.nil)
      ((Op.addPartitionAt "x" 200 80 5 (exPart 0 0).partType 0 ⟨1, 2, 3, 4⟩ Uuid.nil).step .debug exDiskChange).1
      (mapOf exDiskChange.partitions) (mapOf ((Op.addPartitionAt "x" 200 80 5 (exPart 0 0).partType 0 ⟨1, 2, 3, 4⟩ Uuid.nil).step .debug
        exDiskChange).2.partitions) := by rw [h1]; exact h
  rcases (c59_exact .debug (.addPartitionAt "x" 200 80 5 (exPart 0 0).partType 0 ⟨1, 2, 3, 4⟩ Uuid.nil) exDiskChange (by decide) trivial
      (by show ∀ x ∈ exDiskChange.partitions, _; decide) (by rw [h1]; simp)).mp h with h | h
  · cases h
  · exact h _ h1

/-! ## C23: disjoint partitions in the usable range -/

/-- **C23**, exactly, for explicit extents: when `add_partition_at` succeeds and the number of slots stays, the table is still disjoint and
in range if and only if the extent was free (or the entry is an unused one). -/
theorem c23_exact_at {m : Mode} {name : String} {id id' : UInt32} {first length : UInt64} {ty : PType} {flags : UInt64}
    {fresh fresh2 : Uuid} {s s' : GptDisk} {h : Header} (hh : s.tryHeader = .ok h) (ht : Tidy h s.partitions)
    (hc : max id.toNat 128 ≤ h.numParts.toNat)
    (hok : addPartitionAt m name id first length ty flags fresh fresh2 s = (.ok id', s')) : s'.tryHeader = .ok h ∧
      (Tidy h s'.partitions ↔ ty.guid = Uuid.nil ∨ FreeExtent h s.partitions first.toNat length.toNat) := by
  have h1 : (1 : UInt64).toNat = 1 := rfl
  rcases addPartitionAt_any m name id first length ty flags fresh fresh2 s with ⟨-, hr⟩ | ⟨hne, hlen, hun, -, hi⟩
  · rw [hok] at hr; rcases hr with hr | hr | hr <;> cases hr
  rw [hok] at hi
  have hun : ∀ q, (id, q) ∈ s.partitions → q.partType.guid = Uuid.nil := by
    intro q hq
    rw [PMap.get_of_mem ht.keys hq] at hun
    by_contra hne
    have := (isUsed_iff q).mpr hne
    simp [this] at hun
  have hlen1 : 1 ≤ length.toNat := by
    rcases Nat.eq_zero_or_pos length.toNat with e | e
    · exact absurd (UInt64.toNat_inj.mp e) hlen
    · exact e
  have hs' : s' = s.withParts (PMap.insert id ⟨ty, fresh, first, first + length - 1, flags, name⟩ s.partitions) := by
    generalize hr : (Res.ok id' : Res GptError UInt32) = r at hi
    simp only at hi
    cases hi with
    | panic => cases hr
    | refused => cases hr
    | plain => rfl
    | rebuilt h2 r s2 hh2 hc2 =>
      obtain rfl := Except.ok.inj (hh.symm.trans hh2)
      rw [(wouldChange_false h id).mpr hc] at hc2
      cases hc2
  subst hs'
  refine ⟨hh, ?_⟩
  show Tidy h (PMap.insert id ⟨ty, fresh, first, first + length - 1, flags, name⟩ s.partitions) ↔ _
  generalize hp : (⟨ty, fresh, first, first + length - 1, flags, name⟩ : Partition) = p
  have p1 : p.firstLba = first := by rw [← hp]
  have p2 : p.lastLba = first + length - 1 := by rw [← hp]
  have p3 : p.partType = ty := by rw [← hp]
  rw [← p3]
  constructor
  · intro hT
    by_cases hu : p.partType.guid = Uuid.nil
    · exact .inl hu
    · refine .inr fun x hx1 hx2 => ?_
      have hU : Used (PMap.insert id p s.partitions) p := (used_insert ht.keys).mpr (.inl ⟨rfl, hu⟩)
      have ho := hT.order p hU
      have hin := hT.inside p hU
      rw [p1, p2] at ho hin
      have hf := first.toNat_lt
      have hl := length.toNat_lt
      have hlast : (first + length - 1).toNat + 1 = first.toNat + length.toNat := by
        rw [UInt64.toNat_sub, UInt64.toNat_add, h1] at ho ⊢
        omega
      have hcov : Covers p x := by
        unfold Covers
        rw [p1, p2]
        omega
      refine ⟨by omega, by omega, fun q hq hcq => ?_⟩
      obtain ⟨j, hj, hqu⟩ := hq
      have hji : j ≠ id := by
        rintro rfl
        exact hqu (hun q hj)
      have hk := PMap.insert_sorted ht.keys id p
      refine hT.apart id j p q ?_ ?_ hji.symm hu hqu x ⟨hcov, hcq⟩
      · rw [PMap.mem_iff_get hk, PMap.get_insert, if_pos rfl]
      · rw [PMap.mem_iff_get hk, PMap.get_insert, if_neg hji]
        exact PMap.get_of_mem ht.keys hj
  · rintro (hu | hf)
    · have hold : ∀ q, Used (PMap.insert id p s.partitions) q → Used s.partitions q := by
        intro q hq
        rcases (used_insert ht.keys).mp hq with ⟨-, hc⟩ | ⟨i, -, hm, hu'⟩
        · exact absurd hu hc
        · exact ⟨i, hm, hu'⟩
      have hk := PMap.insert_sorted ht.keys id p
      have hget : ∀ i q, (i, q) ∈ PMap.insert id p s.partitions → q.partType.guid ≠ Uuid.nil → (i, q) ∈ s.partitions := by
        intro i q hi hq
        rw [PMap.mem_iff_get hk, PMap.get_insert] at hi
        split at hi
        · obtain rfl := Option.some.inj hi
          exact absurd hu hq
        · exact PMap.mem_of_get hi
      exact ⟨hk, fun q hq => ht.order q (hold q hq), fun q hq => ht.inside q (hold q hq),
        fun i j q r hi hj hij hq hr x => ht.apart i j q r (hget i q hi hq) (hget j r hj hr) hij hq hr x⟩
    · have hend := (hf (first.toNat + length.toNat - 1) (by omega) (by omega)).2.1
      have hlt := h.lastUsable.toNat_lt
      refine tidy_insert ht hf hlen1 (by rw [p1]) ?_
      rw [p2, UInt64.toNat_sub, UInt64.toNat_add, h1]
      have hf := first.toNat_lt
      have hl := length.toNat_lt
      omega

/-- The call of `c22_fails`: blocks 55 to 64, where 60 to 69 belong to another partition. -/
example : ∃ s', addPartitionAt .debug "x" 3 55 10 (exPart 0 0).partType 0 Uuid.nil Uuid.nil exDisk = (.ok 3, s') ∧
    ¬ Tidy exHeader s'.partitions := by
  have h1 : (addPartitionAt .debug "x" 3 55 10 (exPart 0 0).partType 0 Uuid.nil Uuid.nil exDisk).1 = .ok 3 := by decide +kernel
  refine ⟨_, Prod.ext h1 rfl, ?_⟩
  rw [(c23_exact_at (h := exHeader) rfl exTable_tidy (by decide) (Prod.ext h1 rfl)).2]
  rintro (h | h)
  · exact absurd h (by decide)
  · exact (h 60 (by decide) (by decide)).2.2 (exPart 60 69) ⟨2, by decide, by decide⟩ (by unfold Spec.Covers; decide)

/-- Alignments that do not wrap, extents that are free, tables that are tidy. -/
structure Spec.OrderlyCall (m : Mode) (s : GptDisk) (h : Header) (op : Op) : Prop where
  align : ∀ name size ty flags align fresh fresh2, op = .addPartition name size ty flags align fresh fresh2 →
    m = .debug ∨ ∀ a, align = some a → a.toNat ≤ 2 ^ 63
  at_free : ∀ name id first length ty flags fresh fresh2, op = .addPartitionAt name id first length ty flags fresh fresh2 →
    FreeExtent h s.partitions first.toNat length.toNat
  table : ∀ pp fresh, op = .updatePartitions pp fresh → Tidy h pp

theorem within_iff {h h' : Header} {t : PMap} {n : Nat} (ht : Tidy h t) (h1 : h'.firstUsable.toNat = max h.firstUsable.toNat n)
    (h2 : h.lastUsable.toNat ≤ h'.lastUsable.toNat) : Tidy h' t ↔ ∀ p, Used t p → n ≤ p.firstLba.toNat := by
  constructor
  · intro hT p hp
    have := (hT.inside p hp).1
    omega
  · intro hn
    exact ⟨ht.keys, ht.order, fun p hp => by have := ht.inside p hp; have := hn p hp; omega, ht.apart⟩

/-- The usable range of a header rebuilt for a table. -/
structure Ranged (lb : LbSize) (h h' : Header) : Prop where
  first : h'.firstUsable.toNat = max h.firstUsable.toNat (2 + blocksFor (h'.numParts.toNat * 128) lb)
  last : h.lastUsable.toNat ≤ h'.lastUsable.toNat

theorem ranged_refl {lb : LbSize} {h : Header} (hn : NeatHeader lb h) : Ranged lb h h :=
  ⟨by have := hn.first; omega, Nat.le_refl _⟩

theorem init_ranged {m : Mode} {fresh : Uuid} {s s' : GptDisk} {h : Header} {t : PMap} {u : Unit} (hh : s.tryHeader = .ok h)
    (hn : NeatHeader s.config.lbSize h) (hx : initHeaders m fresh (s.withParts t) = (.ok u, s')) :
    s'.partitions = t ∧ ∃ h', s'.tryHeader = .ok h' ∧ (h'.numParts.toNat * 128 < 2 ^ 32 → Ranged s.config.lbSize h h') := by
  refine ⟨(initHeaders_same hx).partitions, ?_⟩
  rcases initHeaders_any hx with ⟨-, -, hc⟩ | ⟨bak, h1, -, hb, hp, -⟩
  · exact absurd rfl hc
  · refine ⟨h1, tryHeader_of_primary hp, fun hs => ?_⟩
    have hb' : (s.withParts t).initBuilder bak fresh = ((((fromHeader h).setNumParts (UInt32.ofNat t.length)).setBackupLba
        bak).setDiskGuid s.guid).setPrimary true := by
      unfold initBuilder
      rw [show (s.withParts t).tryHeader = .ok h from hh]
      rfl
    have hf : ((s.withParts t).initBuilder bak fresh).firstUsable = h.firstUsable := by rw [hb']; rfl
    have hl : ((s.withParts t).initBuilder bak fresh).lastUsable = h.lastUsable := by rw [hb']; rfl
    have hps : ((s.withParts t).initBuilder bak fresh).partSize = h.partSize := by rw [hb']; rfl
    have hnum := (build_numParts hb).1
    obtain ⟨-, n2, n3⟩ := build_neat hb (hps.trans hn.size) (by rw [← hnum]; exact hs) (by rw [hl]; exact hn.last)
    exact ⟨by rw [n2, hf, hnum]; rfl, by rw [← hl]; exact n3⟩

theorem inserted_ranged {m : Mode} {id i : UInt32} {p : Partition} {fresh2 : Uuid} {s s' : GptDisk} {h : Header}
    (hi : Inserted m id p fresh2 s (.ok i) s') (hh : s.tryHeader = .ok h) (hn : NeatHeader s.config.lbSize h) :
    s'.partitions = PMap.insert id p s.partitions ∧
      ∃ h', s'.tryHeader = .ok h' ∧ (h'.numParts.toNat * 128 < 2 ^ 32 → Ranged s.config.lbSize h h') := by
  generalize hr : (Res.ok i : Res GptError UInt32) = r at hi
  cases hi with
  | panic => cases hr
  | refused => cases hr
  | plain => exact ⟨rfl, h, hh, fun _ => ranged_refl hn⟩
  | rebuilt h1 r s' hh1 hw hc hx =>
    obtain ⟨⟨u, rfl⟩, -⟩ := Res.as_eq_ok.mp hr.symm
    exact init_ranged hh hn hx

/-- **C23**, exactly, for orderly calls: after a successful call the used partitions are disjoint and in range if and only if they all
start behind the array for the new number of slots. -/
theorem c23_exact {m : Mode} {op : Op} {s : GptDisk} {h : Header} {v : OpVal} (hh : s.tryHeader = .ok h)
    (hn : NeatHeader s.config.lbSize h) (ht : Tidy h s.partitions) (ho : OrderlyCall m s h op) (hok : (op.step m s).1 = .ok v) :
    ∃ h', (op.step m s).2.tryHeader = .ok h' ∧ (h'.numParts.toNat * 128 < 2 ^ 32 →
      (Tidy h' (op.step m s).2.partitions ↔ ∀ p, Used (op.step m s).2.partitions p →
        2 + blocksFor (h'.numParts.toNat * 128) s.config.lbSize ≤ p.firstLba.toNat)) := by
  have fin : ∀ s' : GptDisk, Tidy h s'.partitions → (∃ h', s'.tryHeader = .ok h' ∧ (h'.numParts.toNat * 128 < 2 ^ 32 → Ranged s.config.lbSize h h')) →
      ∃ h', s'.tryHeader = .ok h' ∧ (h'.numParts.toNat * 128 < 2 ^ 32 →
      (Tidy h' s'.partitions ↔ ∀ p, Used s'.partitions p → 2 + blocksFor (h'.numParts.toNat * 128) s.config.lbSize ≤ p.firstLba.toNat)) := by
    rintro s' hT ⟨h', e1, e2⟩
    exact ⟨h', e1, fun hs => within_iff hT (e2 hs).first (e2 hs).last⟩
  have same : ∃ h', s.tryHeader = .ok h' ∧ (h'.numParts.toNat * 128 < 2 ^ 32 → Ranged s.config.lbSize h h') :=
    ⟨h, hh, fun _ => ranged_refl hn⟩
  have h1 : (1 : UInt64).toNat = 1 := rfl
  have hlast := hn.last
  cases op with
  | addPartition name size ty flags align fresh fresh2 =>
    have hok : ((addPartition m name size ty flags align fresh fresh2).mapOk OpVal.id s).1 = .ok v := hok
    obtain ⟨id, hr0, -⟩ := M.mapOk_ok.mp hok
    rcases hx : addPartition m name size ty flags align fresh fresh2 s with ⟨r, s'⟩
    rw [hx] at hr0
    obtain rfl : r = .ok id := hr0
    have hst : ((Op.addPartition name size ty flags align fresh fresh2).step m s).2 = s' := by
      show (addPartition m name size ty flags align fresh fresh2 s).2 = s'
      rw [hx]
    rw [hst]
    obtain ⟨-, -, -, start, n, hn1, hfree, -, -, hend, hins⟩ := addPartition_ok hh hn.range ht (ho.align _ _ _ _ _ _ _ rfl) hx
    have hia := insertPartition_any m name id start n ty flags fresh fresh2 s
    rw [hins] at hia
    have hpos : 1 ≤ n.toNat := by rw [hn1]; exact Nat.le_add_left 1 _
    have hsum : (start + n).toNat = start.toNat + n.toNat := u64_add_toNat (by omega)
    obtain ⟨e1, e2⟩ := inserted_ranged hia hh hn
    refine fin s' ?_ e2
    rw [e1]
    refine tidy_insert ht hfree hpos rfl ?_
    show (start + n - 1).toNat + 1 = start.toNat + n.toNat
    rw [u64_sub_toNat (by omega), hsum, h1]
    omega
  | addPartitionAt name id first length ty flags fresh fresh2 =>
    have hok : ((addPartitionAt m name id first length ty flags fresh fresh2).mapOk OpVal.id s).1 = .ok v := hok
    obtain ⟨i, hr0, -⟩ := M.mapOk_ok.mp hok
    have hfree := ho.at_free _ _ _ _ _ _ _ _ rfl
    rcases addPartitionAt_any m name id first length ty flags fresh fresh2 s with ⟨-, hr⟩ | ⟨-, hz, -, -, hi⟩
    · rw [hr0] at hr; rcases hr with hr | hr | hr <;> cases hr
    rw [hr0] at hi
    have hpos : 1 ≤ length.toNat := by
      rcases Nat.eq_zero_or_pos length.toNat with e | e
      · exact absurd (UInt64.toNat_inj.mp e) hz
      · exact e
    have hend := (hfree (first.toNat + length.toNat - 1) (by omega) (by omega)).2.1
    have hsum : (first + length).toNat = first.toNat + length.toNat := u64_add_toNat (by omega)
    obtain ⟨e1, e2⟩ := inserted_ranged hi hh hn
    refine fin (addPartitionAt m name id first length ty flags fresh fresh2 s).2 ?_ e2
    rw [e1]
    refine tidy_insert ht hfree hpos rfl ?_
    show (first + length - 1).toNat + 1 = first.toNat + length.toNat
    rw [u64_sub_toNat (by omega), hsum, h1]
    omega
  | removePartition id =>
    refine fin (removePartition (ε := GptError) id s).2 ?_ ?_
    all_goals
      unfold removePartition
      split
    · exact tidy_remove ht _
    · exact ht
    · exact same
    · exact same
  | removePartitionByGuid g =>
    refine fin (removePartitionByGuid (ε := GptError) g s).2 ?_ ?_
    all_goals
      unfold removePartitionByGuid
      split
    · exact tidy_remove ht _
    · exact ht
    · exact same
    · exact same
  | takePartitions => exact fin (takePartitions (ε := GptError) s).2 (tidy_nil h) same
  | updateGuid u r => exact fin (updateGuid (ε := GptError) u r s).2 ht same
  | updateDiskDevice d w => exact fin _ ht same
  | deviceMut d => exact fin _ ht same
  | updatePartitions pp r =>
    have hok : ((updatePartitions m pp r).mapOk (fun _ => OpVal.unit) s).1 = .ok v := hok
    obtain ⟨u, hr0, -⟩ := M.mapOk_ok.mp hok
    rcases updatePartitions_any m pp r s with ⟨-, hr | ⟨hr, -⟩⟩ | ⟨hz, h1, -, -, e⟩
    · rw [hr0] at hr; cases hr
    · rw [hr0] at hr; cases hr
    rcases hx : initHeaders m r (s.withParts pp) with ⟨q, s'⟩
    rw [e, hx] at hr0
    obtain rfl : q = .ok u := hr0
    rw [step_updatePartitions, e, hx]
    obtain ⟨e1, e2⟩ := init_ranged hh hn hx
    refine fin s' ?_ e2
    rw [e1]
    exact ho.table _ _ rfl
  | writeInplace =>
    have hm := writeInplace_mem m s
    refine fin (writeInplace m s).2 (by rw [hm.partitions]; exact ht) ?_
    rcases hm.headers with ⟨h1, h2⟩ | ⟨h1, ph, ph', hh1, hp, hsb, hpr, _⟩
    · exact ⟨h, (tryHeader_congr h1 h2).trans hh, fun _ => ranged_refl hn⟩
    · obtain rfl := Except.ok.inj (hh.symm.trans hh1)
      have hp : ((HeaderBuilder.fromHeader h).setPrimary true).build m s.config.lbSize = .ok ph := hp
      obtain ⟨-, n2, n3⟩ := build_neat hp hn.size hn.small hn.last
      obtain ⟨f1, f2, f3, f4, -⟩ := sameBut_fields hsb
      have hnum := (build_numParts hp).1
      exact ⟨ph', tryHeader_of_primary hpr, fun _ => ⟨by rw [f3, n2, f1, hnum]; rfl, by rw [f4]; exact n3⟩⟩

/-- An `add_partition` on a disk with two partitions. -/
example : ∃ h', ((Op.addPartition "x" 512 (exPart 0 0).partType 0 none Uuid.nil Uuid.nil).step .debug exDisk).2.tryHeader = .ok h' ∧
    (h'.numParts.toNat * 128 < 2 ^ 32 →
      (Tidy h' ((Op.addPartition "x" 512 (exPart 0 0).partType 0 none Uuid.nil Uuid.nil).step .debug exDisk).2.partitions ↔
        ∀ p, Used ((Op.addPartition "x" 512 (exPart 0 0).partType 0 none Uuid.nil Uuid.nil).step .debug exDisk).2.partitions p →
          2 + blocksFor (h'.numParts.toNat * 128) .lb512 ≤ p.firstLba.toNat)) :=
  c23_exact (m := .debug) (op := .addPartition "x" 512 (exPart 0 0).partType 0 none Uuid.nil Uuid.nil) (s := exDisk) (h := exHeader)
    (v := .id 3) rfl ⟨by decide, by decide, by decide, by decide, by decide⟩ exTable_tidy
    ⟨fun _ _ _ _ _ _ _ _ => .inl rfl, (fun _ _ _ _ _ _ _ _ h => by cases h), (fun _ _ h => by cases h)⟩ (by decide +kernel)

/-- The 129th partition: the first one now starts in the array. -/
example (m : Mode) : ∃ s h, addPartition m "x" 512 (exPart 0 0).partType 0 none Uuid.nil Uuid.nil growDisk = (.ok 129, s) ∧
    s.tryHeader = .ok h ∧ ¬ Tidy h s.partitions := by
  obtain ⟨s, h, e1, e2, e3, e4⟩ := grow_add m
  refine ⟨s, h, e1, e2, fun hT => ?_⟩
  have := (hT.inside (exPart 34 34) ⟨1, by rw [e4]; decide +kernel, by decide⟩).1
  rw [e3] at this
  exact absurd this (by decide)

end Gpt
