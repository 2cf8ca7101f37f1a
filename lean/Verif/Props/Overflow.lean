import Verif.Props.Reach
/-!
# Enough slots for the used partitions: C55
-/

namespace Gpt

open Spec GptDisk

/-- **C55**, the claim. -/
def C55 : Prop := ∀ (m : Mode) (s : GptDisk), Reach m anyCall s →
  (∀ h, s.tryHeader = .ok h → (used s.partitions).length ≤ h.numParts.toNat) ∧
  (writeInplace m s).1 ≠ .err .overflowPartitionCount

/-- Every id names a slot. -/
def Spec.Slots (s : GptDisk) : Prop := ∃ h, s.tryHeader = .ok h ∧ s.partitions.Pairwise (fun a b => a.1 < b.1) ∧
  ∀ k p, (k, p) ∈ s.partitions → 1 ≤ k.toNat ∧ k.toNat ≤ h.numParts.toNat

/-- Calls that name no id beyond the table, do not fail while rebuilding the headers, and come when the table holds fewer than
`2^32 - 1` entries. -/
structure Spec.TameCall (m : Mode) (s : GptDisk) (op : Op) : Prop where
  clean : op ≠ .writeInplace → (op.step m s).1 ≠ .panic ∧ ∀ e, (op.step m s).1 ≠ .err (.header e)
  small : s.partitions.length < 2 ^ 32 - 1
  at_id : ∀ name id first length ty flags fresh fresh2, op = .addPartitionAt name id first length ty flags fresh fresh2 →
    ∀ h, s.tryHeader = .ok h → id.toNat ≤ max h.numParts.toNat 128
  table : ∀ pp fresh, op = .updatePartitions pp fresh → pp.length < 2 ^ 32 ∧ ∀ k p, (k, p) ∈ pp → k.toNat ≤ max pp.length 128

theorem PMap.insert_length_new {t : PMap} {k : UInt32} {p : Partition} (h : PMap.get t k = none) :
    (PMap.insert k p t).length = t.length + 1 := by
  rw [PMap.get_none_iff] at h
  induction t with
  | nil => rfl
  | cons a t ih =>
    unfold PMap.insert
    split
    · rfl
    · split
      · rename_i he
        exact absurd (show (k, a.2) ∈ a :: t by rw [he]; exact List.mem_cons_self) (h _)
      · rw [List.length_cons, ih fun q hq => h q (List.mem_cons_of_mem _ hq), List.length_cons]

theorem inserted_slots {m : Mode} {id : UInt32} {p : Partition} {fresh2 : Uuid} {s s' : GptDisk} {r : Res GptError UInt32} {h : Header}
    (hi : Inserted m id p fresh2 s r s') (hh : s.tryHeader = .ok h) (hs : PMap.Sorted s.partitions)
    (hk : ∀ k p, (k, p) ∈ s.partitions → 1 ≤ k.toNat ∧ k.toNat ≤ h.numParts.toNat) (h0 : id ≠ 0)
    (hlen : s.partitions.length < 2 ^ 32 - 1)
    (hid : id.toNat ≤ max h.numParts.toNat 128 ∨ (id.toNat = h.numParts.toNat + 1 ∧ h.numParts.toNat ≤ s.partitions.length))
    (hp : r ≠ .panic) (he : ∀ e, r ≠ .err (.header e)) : Slots s' := by
  have hpos : 1 ≤ id.toNat := by
    have : id.toNat ≠ 0 := fun hc => h0 (UInt32.toNat_inj.mp (by rw [hc]; rfl))
    omega
  cases hi with
  | panic => exact absurd rfl hp
  | refused => exact ⟨h, hh, hs, hk⟩
  | plain h1 hh1 hw =>
    obtain rfl := Except.ok.inj (hh.symm.trans hh1)
    rw [wouldChange_false] at hw
    refine ⟨h, hh, PMap.insert_sorted hs _ _, ?_⟩
    intro k q hm
    rcases PMap.mem_insert_subset hm with e | e
    · obtain rfl : k = id := congrArg Prod.fst e
      exact ⟨hpos, by omega⟩
    · exact hk k q e
  | rebuilt h1 r s1 hh1 hw hc hx =>
    obtain rfl := Except.ok.inj (hh.symm.trans hh1)
    rw [wouldChange_iff] at hw
    have hr : r = .ok () := by
      cases r with
      | ok u => rfl
      | err e =>
        obtain ⟨e', rfl⟩ := initHeaders_err hx
        exact absurd rfl (he e')
      | panic => exact absurd rfl hp
    subst hr
    rcases initHeaders_numParts hx with ⟨-, hc⟩ | ⟨h', hh', hn⟩
    · exact absurd rfl hc
    have hpp : s'.partitions = PMap.insert id p s.partitions := (initHeaders_same hx).partitions
    have hle : (PMap.insert id p s.partitions).length ≤ s.partitions.length + 1 := PMap.insert_length _ _
    have hn' : h'.numParts.toNat = max (PMap.insert id p s.partitions).length 128 := by
      rw [hn]
      show max (UInt32.ofNat (PMap.insert id p s.partitions).length).toNat 128 = _
      rw [u32_ofNat_toNat (by omega)]
    refine ⟨h', hh', by rw [hpp]; exact PMap.insert_sorted hs _ _, ?_⟩
    have hbound : max h.numParts.toNat id.toNat ≤ h'.numParts.toNat := by
      rw [hn']
      rcases hid with hid | ⟨hid, hfull⟩
      · omega
      · have hnew : PMap.get s.partitions id = none := by
          rw [PMap.get_none_iff]
          intro q hq
          have := (hk _ _ hq).2
          omega
        have : (PMap.insert id p s.partitions).length = s.partitions.length + 1 := PMap.insert_length_new hnew
        omega
    intro k q hm
    rw [hpp] at hm
    rcases PMap.mem_insert_subset hm with e | e
    · obtain rfl : k = id := congrArg Prod.fst e
      exact ⟨hpos, by omega⟩
    · have := hk k q e
      omega

theorem created_header {m : Mode} {cfg : GptConfig} {guid : Option Uuid} {fresh fresh2 : Uuid} {d d' : Dev} {s : GptDisk}
    (h : createFromDevice m cfg guid fresh fresh2 d = (.ok s, d')) : ∃ h, s.tryHeader = .ok h := by
  unfold createFromDevice at h
  rcases hx : initHeaders m fresh2 (blankDisk cfg d (guid.getD fresh)) with ⟨r, s1⟩
  rw [hx] at h
  cases r with
  | err e => simp at h
  | panic => simp at h
  | ok u =>
    simp only [Prod.mk.injEq, Res.ok.injEq] at h
    obtain ⟨rfl, -⟩ := h
    rcases initHeaders_numParts hx with ⟨-, hc⟩ | ⟨h', hh', -⟩
    · exact absurd rfl hc
    · exact ⟨h', hh'⟩

theorem tame_slots {m : Mode} {s : GptDisk} (h : Reach m (TameCall m) s) : Slots s := by
  induction h with
  | created h =>
    obtain ⟨h1, h2⟩ := created_header h
    exact ⟨h1, h2, by rw [created_table h]; exact List.Pairwise.nil, by rw [created_table h]; simp⟩
  | opened h => exact opened_table h
  | createdFile h =>
    obtain ⟨g, hg, rfl⟩ := createFile_ok h
    obtain ⟨h1, h2⟩ := created_header hg
    refine ⟨h1, h2, ?_, ?_⟩
    · show g.partitions.Pairwise _
      rw [created_table hg]; exact List.Pairwise.nil
    · show ∀ k p, (k, p) ∈ g.partitions → _
      rw [created_table hg]; simp
  | openedFile h =>
    obtain ⟨g, hg, rfl⟩ := openFile_ok h
    have := opened_table hg
    exact this
  | @step s op hr hw ho ih =>
    obtain ⟨h, hh, hs, hk⟩ := ih
    have hrem : ∀ k, Slots (s.withParts (PMap.remove s.partitions k)) := fun k =>
      ⟨h, hh, PMap.remove_sorted hs k, fun i p hm => hk i p (PMap.mem_remove.mp hm).1⟩
    cases op with
    | addPartition name size ty flags align fresh fresh2 =>
      have hcl := ho.clean (by simp)
      show Slots (addPartition m name size ty flags align fresh fresh2 s).2
      rcases addPartition_any m name size ty flags align fresh fresh2 s with ⟨e, -⟩ | ⟨id, first, last, hpick, hi⟩
      · rw [e]; exact ⟨h, hh, hs, hk⟩
      · have h0 := pickId_ne_zero hs hpick (.inr ho.small)
        refine inserted_slots hi hh hs hk h0 ho.small ?_ (fun hc => hcl.1 (M.mapOk_panic.mpr hc)) (fun e hc => hcl.2 e (M.mapOk_err.mpr hc))
        rcases hpick with hpick | ⟨hpick, h1, hh1, hadd⟩
        · left
          by_cases hne : s.partitions = []
          · unfold findNextPartitionId at hpick
            rw [if_pos hne] at hpick
            obtain rfl : (1 : UInt32) = id := by simpa using hpick
            have : (1 : UInt32).toNat = 1 := rfl
            omega
          · obtain ⟨r, h1, h2, -⟩ := c24_next_id s hh hs (.inl hne)
            rw [hpick] at h1
            obtain rfl := (Res.ok.inj h1).symm
            have := h2 id rfl
            omega
        · right
          obtain rfl := Except.ok.inj (hh.symm.trans hh1)
          have hne : s.partitions ≠ [] := by
            intro he
            unfold findNextPartitionId at hpick
            rw [if_pos he] at hpick
            simp at hpick
          obtain ⟨r, h1, -, h3⟩ := c24_next_id s hh hs (.inl hne)
          rw [hpick] at h1
          have hlen := taken_length (h3.mp (Res.ok.inj h1).symm)
          have hsm := ho.small
          have h32 : (1 : UInt32).toNat = 1 := rfl
          exact ⟨by rw [add32_ok hadd, u32_add_toNat (by omega), h32], hlen⟩
    | addPartitionAt name id first length ty flags fresh fresh2 =>
      have hcl := ho.clean (by simp)
      show Slots (addPartitionAt m name id first length ty flags fresh fresh2 s).2
      rcases addPartitionAt_any m name id first length ty flags fresh fresh2 s with ⟨e, -⟩ | ⟨h0, -, -, -, hi⟩
      · rw [e]; exact ⟨h, hh, hs, hk⟩
      · exact inserted_slots hi hh hs hk h0 ho.small (.inl (ho.at_id _ _ _ _ _ _ _ _ rfl h hh))
          (fun hc => hcl.1 (M.mapOk_panic.mpr hc)) (fun e hc => hcl.2 e (M.mapOk_err.mpr hc))
    | removePartition id =>
      show Slots (removePartition (ε := GptError) id s).2
      unfold removePartition
      split
      · exact hrem _
      · exact ⟨h, hh, hs, hk⟩
    | removePartitionByGuid g =>
      show Slots (removePartitionByGuid (ε := GptError) g s).2
      unfold removePartitionByGuid
      split
      · exact hrem _
      · exact ⟨h, hh, hs, hk⟩
    | takePartitions => exact ⟨h, hh, List.Pairwise.nil, fun k p hm => by cases hm⟩
    | updateGuid u r => exact ⟨h, hh, hs, hk⟩
    | updateDiskDevice d w => exact ⟨h, hh, hs, hk⟩
    | deviceMut d => exact ⟨h, hh, hs, hk⟩
    | updatePartitions pp r =>
      have hcl := ho.clean (by simp)
      rcases updatePartitions_any m pp r s with ⟨e, -⟩ | ⟨h0, h1, -, -, e⟩
      · rw [step_updatePartitions, e]; exact ⟨h, hh, hs, hk⟩
      · rcases hx : initHeaders m r (s.withParts pp) with ⟨q, s'⟩
        obtain ⟨hl, hids⟩ := ho.table _ _ rfl
        have hq : q = .ok () := by
          have e1 : (updatePartitions m pp r s).1 = q := by rw [e, hx]
          cases q with
          | ok u => rfl
          | err er =>
            obtain ⟨e', rfl⟩ := initHeaders_err hx
            exact absurd (M.mapOk_err.mpr e1) (hcl.2 e')
          | panic => exact absurd (M.mapOk_panic.mpr e1) hcl.1
        subst hq
        rw [step_updatePartitions, e, hx]
        rcases initHeaders_numParts hx with ⟨-, hc⟩ | ⟨h', hh', hn⟩
        · exact absurd rfl hc
        have hpp : s'.partitions = pp := (initHeaders_same hx).partitions
        refine ⟨h', hh', by rw [hpp]; exact hw, ?_⟩
        rw [hpp, hn]
        show ∀ k p, (k, p) ∈ pp → 1 ≤ k.toNat ∧ k.toNat ≤ max (UInt32.ofNat pp.length).toNat 128
        rw [u32_ofNat_toNat hl]
        intro k p hm
        refine ⟨?_, hids k p hm⟩
        have : k.toNat ≠ 0 := fun hc => by
          obtain rfl : k = 0 := UInt32.toNat_inj.mp (by rw [hc]; rfl)
          exact PMap.get_none_iff.mp h0 p hm
        omega
    | writeInplace =>
      have hm := writeInplace_mem m s
      show Slots (writeInplace m s).2
      rcases hm.headers with ⟨h1, h2⟩ | ⟨h0, ph, ph', hh0, hp, hsb, hpr, _⟩
      · exact ⟨h, (tryHeader_congr h1 h2).trans hh, by rw [hm.partitions]; exact hs, by rw [hm.partitions]; exact hk⟩
      · obtain rfl := Except.ok.inj (hh.symm.trans hh0)
        have hn : ph'.numParts = h.numParts := by rw [(sameBut_fields hsb).1]; exact (build_numParts hp).1
        exact ⟨ph', tryHeader_of_primary hpr, by rw [hm.partitions]; exact hs, by rw [hm.partitions, hn]; exact hk⟩
  | @cloned s _ ih =>
    obtain ⟨h, hh, hs, hk⟩ := ih
    exact ⟨h, (tryHeader_lossy rfl rfl).trans hh, hs, hk⟩
  | @moved s d w _ ih =>
    obtain ⟨h, hh, hs, hk⟩ := ih
    exact ⟨h, (tryHeader_lossy rfl rfl).trans hh, hs, hk⟩

/-- Tables whose ids name different slots have no more entries than slots. -/
theorem slots_length {t : PMap} {n : Nat} (hs : PMap.Sorted t) (hk : ∀ k p, (k, p) ∈ t → 1 ≤ k.toNat ∧ k.toNat ≤ n) : t.length ≤ n := by
  have hnd : (t.map fun e => e.1.toNat).Nodup := by
    unfold List.Nodup
    rw [List.pairwise_map]
    refine List.Pairwise.imp ?_ hs
    intro a b hab
    rw [UInt32.lt_iff_toNat_lt] at hab
    omega
  have hsub : (t.map fun e => e.1.toNat) ⊆ List.range' 1 n := by
    intro j hj
    obtain ⟨⟨k, p⟩, hm, rfl⟩ := List.mem_map.mp hj
    have := hk k p hm
    rw [List.mem_range'_1]
    simp only
    omega
  have := (List.Nodup.subperm hnd hsub).length_le
  simpa using this

/-- **C55**, partial. Missing: calls that name ids beyond the table, and adds or updates that panic or fail with a header error,
for which it is false (`c55_fails`), and tables of `2^32 - 1` entries. -/
theorem c55_partial (m : Mode) (s : GptDisk) (h : Reach m (TameCall m) s) :
    (∃ h, s.tryHeader = .ok h ∧ (used s.partitions).length ≤ h.numParts.toNat) ∧
    (writeInplace m s).1 ≠ .err .overflowPartitionCount := by
  obtain ⟨h, hh, hs, hk⟩ := tame_slots h
  have hlen := slots_length hs hk
  have hu : (used s.partitions).length ≤ h.numParts.toNat := by
    have := List.length_filter_le (fun p : Partition => p.partType.guid != Uuid.nil) (s.partitions.map Prod.snd)
    rw [List.length_map] at this
    exact Nat.le_trans this hlen
  refine ⟨⟨h, hh, hu⟩, ?_⟩
  intro he
  rcases writeInplace_errs he with ⟨hc, -⟩ | ⟨-, h1, ph, hh1, hp, hc⟩
  · cases hc
  · obtain rfl := Except.ok.inj (hh.symm.trans hh1)
    have e1 : ph.numParts = h.numParts := (build_numParts hp).1
    rw [usedParts_eq] at hc
    rcases hc with hc | ⟨b, hb, hc⟩
    · rw [e1] at hc; omega
    · have e2 : b.numParts = ph.numParts := (build_numParts hb).1
      rw [e2, e1] at hc; omega

/-! Writing more partitions than there are slots. -/

theorem writeEntries_overflow {m : Mode} {lb : LbSize} {ph : Header} {bh : Option Header} (hp : ph.NoWrap lb)
    (hb : ∀ b, bh = some b → b.NoWrap lb ∧ b.numParts = ph.numParts) (parts : List Partition) {idx next : Nat} {d : Dev}
    (hf : d.faults = []) (hi : idx ≤ ph.numParts.toNat) (hl : ph.numParts.toNat < idx + parts.length) (hr : Room ph lb d.cap)
    (hrb : ∀ b, bh = some b → Room b lb d.cap) :
    (writeEntries m lb ph bh parts idx next d).1 = .err .overflowPartitionCount := by
  induction parts generalizing idx next d with
  | nil => rw [List.length_nil] at hl; omega
  | cons p ps ih =>
    rw [List.length_cons] at hl
    unfold writeEntries
    by_cases hx : idx ≥ ph.numParts.toNat
    · rw [if_pos hx]; rfl
    rw [if_neg hx]
    simp only [M.bind_apply, M.mapErr_apply]
    obtain ⟨r1, r2⟩ := slot_room hr hp (idx := idx) (by omega)
    have e1 := writeToDevice_nil m p hf r1 r2
    have fo := Partition.writeToDevice_follows m p d r1
    rcases hx : Partition.writeToDevice m p (UInt64.ofNat idx) ph.partStart lb ph.partSize d with ⟨r, d1⟩
    rw [hx] at e1
    simp only at e1
    subst e1
    simp only [Res.mapErr_ok]
    have hf1 : d1.faults = [] := by have := fo.faults hf; rw [hx] at this; exact this
    have hc1 : d1.cap = d.cap := by have := fo.cap; rw [hx] at this; exact this
    cases bh with
    | none => exact ih hf1 (by omega) (by omega) (by rw [hc1]; exact hr) (by simp)
    | some b =>
      obtain ⟨b1, b2⟩ := hb b rfl
      simp only
      rw [if_neg (by rw [b2]; omega)]
      split
      · obtain ⟨r3, r4⟩ := slot_room (hrb b rfl) b1 (idx := idx) (by rw [b2]; omega)
        simp only [M.bind_apply, M.mapErr_apply]
        have e1 := writeToDevice_nil m p hf1 r3 (by rw [hc1]; exact r4)
        have fo := Partition.writeToDevice_follows m p d1 r3
        rcases hx : Partition.writeToDevice m p (UInt64.ofNat idx) b.partStart lb b.partSize d1 with ⟨r, d2⟩
        rw [hx] at e1
        simp only at e1
        subst e1
        simp only [Res.mapErr_ok]
        have hf2 : d2.faults = [] := by have := fo.faults hf1; rw [hx] at this; exact this
        have hc2 : d2.cap = d.cap := by have := fo.cap; rw [hx] at this; exact this.trans hc1
        exact ih hf2 (by omega) (by omega) (by rw [hc2]; exact hr) (by rw [hc2]; exact hrb)
      · exact ih hf1 (by omega) (by omega) (by rw [hc1]; exact hr) (by rw [hc1]; exact hrb)

theorem writeRest_err {m : Mode} {lb : LbSize} {ph : Header} {bh : Option Header} {parts : List Partition} {sync : Bool}
    {s : GptDisk} {e : GptError} (he : (writeEntries m lb ph bh parts 0 0 s.device).1 = .err e) :
    (writeRest m lb ph bh parts sync s).1 = .err e := by
  unfold writeRest
  rw [M.bind_apply, onDev_apply, he]
  rfl

/-- On a sane disk with more used partitions than slots, `write_inplace` fails after writing the first ones. -/
theorem write_overflow {m : Mode} {s : GptDisk} {h : Header} {k B : Nat} (hs : SaneDisk s h k B) (hw : s.config.writable = true)
    (hover : h.numParts.toNat < (used s.partitions).length) (hf : s.device.faults = [])
    (hcap : (B + 1) * s.config.lbSize.usize ≤ s.device.cap) : (writeInplace m s).1 = .err .overflowPartitionCount := by
  have g := geo_sane hs.sane hs.fits s.config
  obtain ⟨hB, hkB⟩ := sane_bounds hs.sane
  have hpos := lb_pos s.config.lbSize
  have hlen3 : 3 * s.config.lbSize.usize ≤ s.device.data.length :=
    (Nat.mul_le_mul_right _ (by omega)).trans hs.fits
  have s1 := g.sep
  have s2 := g.sepB
  have s3 := g.fits
  have hlen := hs.length
  have hcap' : B * s.config.lbSize.usize + s.config.lbSize.usize ≤ s.device.cap := by
    rw [Nat.add_mul, Nat.one_mul] at hcap; exact hcap
  rw [writeInplace_sane m hs, if_neg (by simp [hw]), findBackupLba_nil_any hf hs.length, if_neg (by omega)]
  simp only
  have okOf : ∀ (h' : Header) (o : Nat), h'.partSize = 128 → h'.arrayStart s.config.lbSize = o →
      h'.numParts = h.numParts → o + h.numParts.toNat * 128 ≤ B * s.config.lbSize.usize →
      h'.NoWrap s.config.lbSize ∧ GptDisk.Room h' s.config.lbSize s.device.cap := by
    intro h' o a2 a3 a4 a6
    have hal : h'.arrayLen = h.numParts.toNat * 128 := by unfold Header.arrayLen; rw [a2, a4]; rfl
    refine ⟨?_, ?_⟩
    · unfold Header.NoWrap; rw [hal, a3]; omega
    · unfold GptDisk.Room; rw [hal, a3]; omega
  have hnp : (rebuiltP k B h).numParts = h.numParts := rfl
  rw [hnp] at s1 s2
  obtain ⟨p1, p2⟩ := okOf (rebuiltP k B h) _ rfl g.start rfl (by omega)
  refine writeRest_err (writeEntries_overflow p1 ?_ _ ?_ (Nat.zero_le _) ?_ p2 ?_)
  · intro b hb
    obtain ⟨b1, b2, b3, b4, b5, b6, b7⟩ := g.bak b hb
    exact ⟨(okOf b _ b3 b6 b4 s2).1, b4⟩
  · exact hf
  · rw [Nat.zero_add]; exact hover
  · intro b hb
    obtain ⟨b1, b2, b3, b4, b5, b6, b7⟩ := g.bak b hb
    exact (okOf b _ b3 b6 b4 s2).2

/-- 128 used entries with the ids 2 to 129. -/
def gapTable : PMap := (List.range' 2 128).map fun i => (UInt32.ofNat i, exPart 40 40)

/-- The created disk with that table. -/
def gapDisk : GptDisk := reinit (madeDisk (GptConfig.new.setWritable true) dev100 32 99 Uuid.nil) (createdP 32 99 Uuid.nil) 32 99 gapTable

def gapAdd : Op := .addPartition "x" 512 (exPart 0 0).partType 0 none Uuid.nil Uuid.nil

theorem gap_add (m : Mode) : (gapAdd.step m gapDisk).1 = .ok (.id 1) ∧ (used (gapAdd.step m gapDisk).2.partitions).length = 129 := by
  cases m <;> exact ⟨by decide +kernel, by decide +kernel⟩

theorem gapTable_sorted : PMap.Sorted gapTable := by
  unfold PMap.Sorted
  decide +kernel

theorem gapDisk_reach (m : Mode) : Reach m anyCall gapDisk :=
  made_reach m (GptConfig.new.setWritable true) (d := dev100) rfl (by show 0 < 2 ^ 64; decide) (by rw [dev100_length]; decide) enough512
    (by rw [dev100_length]; rfl) gapTable_sorted (by decide +kernel) (by decide +kernel) _ trivial

theorem add_keeps (m : Mode) (name : String) (size : UInt64) (ty : PType) (flags : UInt64) (align : Option UInt64) (fresh fresh2 : Uuid)
    (s : GptDisk) (hc : s.config.changePartitionCount = false) :
    ∃ t, ((Op.addPartition name size ty flags align fresh fresh2).step m s).2 = s.withParts t := by
  show ∃ t, (addPartition m name size ty flags align fresh fresh2 s).2 = s.withParts t
  rcases addPartition_any m name size ty flags align fresh fresh2 s with ⟨e, -⟩ | ⟨id, first, last, -, hi⟩
  · exact ⟨s.partitions, e⟩
  · generalize (addPartition m name size ty flags align fresh fresh2 s).2 = s' at hi
    generalize (addPartition m name size ty flags align fresh fresh2 s).1 = r at hi
    cases hi with
    | panic => exact ⟨s.partitions, rfl⟩
    | refused => exact ⟨s.partitions, rfl⟩
    | plain => exact ⟨_, rfl⟩
    | rebuilt h r s' _ _ h3 _ => rw [hc] at h3; cases h3

/-- What `gapAdd` does: the headers stay, and there are 129 used entries. -/
theorem gap_step (m : Mode) : ∃ t, (gapAdd.step m gapDisk).2 = gapDisk.withParts t ∧ (used t).length = 129 := by
  obtain ⟨h1, h2⟩ := gap_add m
  obtain ⟨t, e⟩ := add_keeps m "x" 512 (exPart 0 0).partType 0 none Uuid.nil Uuid.nil gapDisk rfl
  refine ⟨t, e, ?_⟩
  have e : (gapAdd.step m gapDisk).2 = gapDisk.withParts t := e
  rw [e] at h2
  exact h2

/-- The claim is false, in both builds: 128 entries with the ids 2 to 129 are accepted for 128 slots, the next `add_partition`
uses id 1, and then the write fails. -/
theorem c55_fails (m : Mode) : ∃ s h, Reach m anyCall s ∧ s.tryHeader = .ok h ∧ h.numParts.toNat < (used s.partitions).length ∧
    (writeInplace m s).1 = .err .overflowPartitionCount := by
  obtain ⟨t, e, ht⟩ := gap_step m
  have hr := Reach.step gapAdd (gapDisk_reach m) trivial trivial
  rw [e] at hr
  have hz : dev100.data.length / (GptConfig.new.setWritable true).lbSize.usize = 99 + 1 := by rw [dev100_length]; rfl
  have hs := madeDisk_sane (cfg := GptConfig.new.setWritable true) (d := dev100) (k := 32) (B := 99) (g := Uuid.nil)
    (by rw [dev100_length]; decide) enough512 hz (by decide)
  have hs2 := reinit_sane hs gapTable
  have hs3 : SaneDisk (gapDisk.withParts t) _ 32 99 := ⟨hs2.header, hs2.sane, hs2.fits, hs2.length⟩
  have hlt : 128 < (used (gapDisk.withParts t).partitions).length := by
    show 128 < (used t).length
    rw [ht]; decide
  refine ⟨_, _, hr, tryHeader_of_primary rfl, hlt, write_overflow hs3 rfl hlt rfl ?_⟩
  show 100 * 512 ≤ 51200
  decide

theorem c55_claim_fails : ¬ C55 := by
  intro hC
  obtain ⟨s, h, hr, hh, hlt, -⟩ := c55_fails .debug
  have := (hC _ _ hr).1 h hh
  omega

theorem full_tame (m : Mode) (cfg : GptConfig) {d : Dev} {n : Nat} (hn : n ≤ 128) (hf : d.faults = []) (hpos : d.pos < 2 ^ 64)
    (hlen : d.data.length < 2 ^ 64) (hk : JustEnough cfg.lbSize (128 * 128) 32) (hz : d.data.length / cfg.lbSize.usize = 99 + 1) :
    TameCall m (madeDisk cfg d 32 99 Uuid.nil) (.updatePartitions (fullTable 40 n) Uuid.nil) := by
  have hs := madeDisk_sane (g := Uuid.nil) hlen hk hz (by decide)
  have hu := updatePartitions_sane (m := m) (fresh := Uuid.nil) (pp := fullTable 40 n) hs rfl (by rw [fullTable_length]; exact hn)
    (fullTable_zero _ (by omega)) hf hpos hz
  refine ⟨fun _ => ?_, by show 0 < _; decide, fun _ _ _ _ _ _ _ _ he => (by cases he), fun pp fresh he => ?_⟩
  · show ((updatePartitions m _ _).mapOk _ _).1 ≠ _ ∧ ∀ e, ((updatePartitions m _ _).mapOk _ _).1 ≠ _
    unfold M.mapOk
    rw [hu]
    exact ⟨by simp, by simp⟩
  · cases he
    rw [fullTable_length]
    refine ⟨by omega, ?_⟩
    intro k p hm
    unfold fullTable at hm
    obtain ⟨i, hi, he⟩ := List.mem_map.mp hm
    rw [List.mem_range'_1] at hi
    obtain rfl : UInt32.ofNat i = k := congrArg Prod.fst he
    rw [u32_ofNat_toNat (by omega)]
    omega

/-- A tame history: the table with the ids 1 to 128. -/
example (m : Mode) : ∃ s, Reach m (TameCall m) s ∧ (used s.partitions).length = 128 := by
  have hlen : dev100.data.length < 2 ^ 64 := by rw [dev100_length]; decide
  have hz : dev100.data.length / (GptConfig.new.setWritable true).lbSize.usize = 99 + 1 := by rw [dev100_length]; rfl
  refine ⟨_, made_reach m (GptConfig.new.setWritable true) (d := dev100) (pp := fullTable 40 128) rfl (by show 0 < 2 ^ 64; decide)
    hlen enough512 hz (fullTable_sorted _ (by decide)) (by rw [fullTable_length]) (fullTable_zero _ (by decide)) _
    (full_tame m _ (Nat.le_refl _) rfl (by show 0 < 2 ^ 64; decide) hlen enough512 hz), ?_⟩
  show (used (fullTable 40 128)).length = 128
  decide +kernel

end Gpt
