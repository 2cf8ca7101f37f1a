import Verif.Props.Image
import Verif.Props.Session
/-!
# C89: growing the partition array
-/

namespace Gpt

open Spec GptDisk

/-! ### A write whose primary header and array come first -/

/-- The primary header is in block 1, its array from block 2 on; the backup array and header come later, in any arrangement. -/
structure Front (lb : LbSize) (ph : Header) (bh : Option Header) : Prop where
  sig : ph.signature = efiPart
  reserved : ph.reserved = 0
  size : ph.partSize = 128
  cur : ph.currentLba.toNat = 1
  start : ph.partStart = 2
  far : ∀ b, bh = some b → 2 * lb.usize + ph.numParts.toNat * 128 ≤ b.arrayStart lb ∧
    2 * lb.usize + ph.numParts.toNat * 128 ≤ b.currentLba.toNat * lb.usize ∧ b.partSize = 128 ∧ b.numParts = ph.numParts

section
variable {lb : LbSize} {ph : Header} {bh : Option Header} {parts : List Partition}

theorem Front.arrayStart (f : Front lb ph bh) : ph.arrayStart lb = 2 * lb.usize := by
  unfold Header.arrayStart
  rw [f.start]
  rfl

theorem Front.arrayLen (f : Front lb ph bh) : ph.arrayLen = ph.numParts.toNat * 128 := by
  unfold Header.arrayLen
  rw [f.size]
  rfl

/-- The writes before the primary header that touch its array put the table there; they touch nothing before it. -/
theorem Front.covers (f : Front lb ph bh) (hl : parts.length ≤ ph.numParts.toNat) {x : Bytes} {w : Write}
    (hw : w ∈ arrayPlan lb ph bh parts ++ backupW lb bh x) {i : Nat} (hc : w.Covers i) (hi : i < 2 * lb.usize + ph.numParts.toNat * 128) :
    2 * lb.usize ≤ i ∧ byteAt w.2 (i - w.1) = byteAt (tableBytes parts ph.numParts.toNat) (i - 2 * lb.usize) := by
  unfold arrayPlan at hw
  rw [List.append_assoc, List.append_assoc, List.mem_append, List.mem_append, List.mem_append] at hw
  rcases hw with hw | hw | hw | hw
  · obtain ⟨j, hj, rfl | ⟨b, rfl, rfl⟩⟩ := mem_entryPlan hw
    · obtain ⟨h1, h2, h3⟩ := slotW_covers f.arrayStart f.size hl hj hc
      exact ⟨h1, h3⟩
    · obtain ⟨a1, a2, a3, a4⟩ := f.far b rfl
      obtain ⟨h1, -⟩ := slotW_covers rfl a3 hl hj hc
      omega
  · simp only [List.mem_singleton] at hw
    subst hw
    obtain ⟨h1, h2, h3⟩ := zeroW_covers f.arrayStart f.size rfl hc
    exact ⟨h1, h3⟩
  · rw [List.mem_map] at hw
    obtain ⟨b, hb, rfl⟩ := hw
    rw [Option.mem_toList] at hb
    obtain ⟨a1, a2, a3, a4⟩ := f.far b hb
    obtain ⟨h1, -⟩ := zeroW_covers rfl a3 rfl hc
    omega
  · unfold backupW at hw
    rw [List.mem_map] at hw
    obtain ⟨b, hb, rfl⟩ := hw
    rw [Option.mem_toList] at hb
    obtain ⟨a1, a2, a3, a4⟩ := f.far b hb
    have h1 : b.currentLba.toNat * lb.usize ≤ i := hc.1
    omega

theorem Front.array (f : Front lb ph bh) (hl : parts.length ≤ ph.numParts.toNat) (data x : Bytes) {i : Nat}
    (h1 : 2 * lb.usize ≤ i) (h2 : i < 2 * lb.usize + ph.numParts.toNat * 128) :
    byteAt (applyWrites data (arrayPlan lb ph bh parts ++ backupW lb bh x)) i =
      byteAt (tableBytes parts ph.numParts.toNat) (i - 2 * lb.usize) := by
  refine byteAt_applyWrites_inside (fun w hw hc => (f.covers hl hw hc h2).2) (.inl ?_)
  rcases array_covered (parts := parts) f.arrayStart f.size rfl h1 h2 with ⟨j, hj, hc⟩ | hc
  · exact ⟨_, List.mem_append_left _ (by
      unfold arrayPlan
      exact List.mem_append_left _ (List.mem_append_left _ (slotW_mem 0 hj))), hc⟩
  · exact ⟨_, List.mem_append_left _ (by
      unfold arrayPlan
      exact List.mem_append_left _ (List.mem_append_right _ (List.mem_singleton_self _))), hc⟩

theorem Front.slice_array (f : Front lb ph bh) (hl : parts.length ≤ ph.numParts.toNat) {data : Bytes} (x : Bytes)
    (hfit : 2 * lb.usize + ph.numParts.toNat * 128 ≤ data.length) :
    slice (applyWrites data (arrayPlan lb ph bh parts ++ backupW lb bh x)) (2 * lb.usize) (ph.numParts.toNat * 128) =
      tableBytes parts ph.numParts.toNat := by
  refine slice_eq_of_byteAt (hfit.trans (length_applyWrites _ _)) (tableBytes_length hl) fun i hi => ?_
  rw [f.array hl _ _ (by omega) (by omega), Nat.add_sub_cancel_left]

/-- The content after all writes. -/
theorem Front.final (f : Front lb ph bh) (hl : parts.length ≤ ph.numParts.toNat) {data : Bytes}
    (hfit : 2 * lb.usize + ph.numParts.toNat * 128 ≤ data.length) :
    let out := applyWrites data (writePlan lb ph bh parts data)
    slice out lb.usize lb.usize = ph.block (crc32 (tableBytes parts ph.numParts.toNat)) lb ∧
    slice out (2 * lb.usize) (ph.numParts.toNat * 128) = tableBytes parts ph.numParts.toNat ∧
    (∀ i, i < lb.usize → byteAt out i = byteAt data i) ∧
    (∀ i, 2 * lb.usize + ph.numParts.toNat * 128 ≤ i →
      (∀ b, bh = some b → (i < b.arrayStart lb ∨ b.arrayStart lb + ph.numParts.toNat * 128 ≤ i) ∧
        (i < b.currentLba.toNat * lb.usize ∨ (b.currentLba.toNat + 1) * lb.usize ≤ i)) → byteAt out i = byteAt data i) ∧
    (∀ b, bh = some b → slice out (b.currentLba.toNat * lb.usize) lb.usize =
      b.block (crc32 (slice (applyWrites data (arrayPlan lb ph bh parts)) (b.arrayStart lb) (ph.numParts.toNat * 128))) lb) ∧
    data.length ≤ out.length := by
  intro out
  have hpos := lb_pos lb
  have eout : out = patchW (applyWrites data (arrayPlan lb ph bh parts ++ backupW lb bh (applyWrites data (arrayPlan lb ph bh parts))))
      (lb.usize, ph.block (crc32 (tableBytes parts ph.numParts.toNat)) lb) := by
    show applyWrites data (writePlan lb ph bh parts data) = _
    unfold writePlan
    rw [applyWrites_append, applyWrites_cons, applyWrites_nil]
    congr 1
    unfold headerW
    rw [f.cur, Nat.one_mul, f.arrayStart, f.arrayLen, f.slice_array hl _ hfit]
  have hlen : data.length ≤ out.length := length_applyWrites _ _
  have byte : ∀ i, ¬ (lb.usize ≤ i ∧ i < 2 * lb.usize) → byteAt out i = byteAt (applyWrites data
      (arrayPlan lb ph bh parts ++ backupW lb bh (applyWrites data (arrayPlan lb ph bh parts)))) i := by
    intro i hi
    rw [eout, byteAt_patchW, if_neg]
    simp only [Header.block_length]
    omega
  refine ⟨?_, ?_, ?_, ?_, ?_, hlen⟩
  · refine slice_eq_of_byteAt (by omega) (Header.block_length ..) fun i hi => ?_
    rw [eout, byteAt_patchW, if_pos (by simp only [Header.block_length]; omega)]
    simp only [Nat.add_sub_cancel_left]
  · refine slice_eq_of_byteAt (by omega) (tableBytes_length hl) fun i hi => ?_
    rw [byte _ (by omega), f.array hl _ _ (by omega) (by omega), Nat.add_sub_cancel_left]
  · intro i hi
    rw [byte _ (by omega)]
    refine byteAt_applyWrites_outside fun w hw hc => ?_
    have := (f.covers hl hw hc (by omega)).1
    omega
  · intro i hi hb
    rw [byte _ (by omega)]
    refine byteAt_applyWrites_outside fun w hw hc => ?_
    unfold arrayPlan at hw
    rw [List.append_assoc, List.append_assoc, List.mem_append, List.mem_append, List.mem_append] at hw
    rcases hw with hw | hw | hw | hw
    · obtain ⟨j, hj, rfl | ⟨b, rfl, rfl⟩⟩ := mem_entryPlan hw
      · obtain ⟨h1, h2, -⟩ := slotW_covers f.arrayStart f.size hl hj hc
        omega
      · obtain ⟨h1, h2, -⟩ := slotW_covers rfl (f.far b rfl).2.2.1 hl hj hc
        have := (hb b rfl).1
        omega
    · simp only [List.mem_singleton] at hw
      subst hw
      obtain ⟨h1, h2, -⟩ := zeroW_covers f.arrayStart f.size rfl hc
      omega
    · rw [List.mem_map] at hw
      obtain ⟨b, hm, rfl⟩ := hw
      rw [Option.mem_toList] at hm
      obtain ⟨h1, h2, -⟩ := zeroW_covers rfl (f.far b hm).2.2.1 (by rw [(f.far b hm).2.2.2]) hc
      have := (hb b hm).1
      omega
    · unfold backupW at hw
      rw [List.mem_map] at hw
      obtain ⟨b, hm, rfl⟩ := hw
      rw [Option.mem_toList] at hm
      have h2 := (hb b hm).2
      obtain ⟨c1, c2⟩ := hc
      unfold headerW at c1 c2
      simp only [Header.block_length] at c1 c2
      rw [Nat.add_mul, Nat.one_mul] at h2
      omega
  · rintro b rfl
    obtain ⟨a1, a2, a3, a4⟩ := f.far b rfl
    have hal : b.arrayLen = ph.numParts.toNat * 128 := by unfold Header.arrayLen; rw [a3, a4]; rfl
    have e : applyWrites data (arrayPlan lb ph (some b) parts ++ backupW lb (some b) (applyWrites data (arrayPlan lb ph (some b) parts))) =
        patchW (applyWrites data (arrayPlan lb ph (some b) parts)) (headerW lb b (applyWrites data (arrayPlan lb ph (some b) parts))) := by
      rw [applyWrites_append]; rfl
    have hge := length_patchW_ge (data := applyWrites data (arrayPlan lb ph (some b) parts))
      (w := headerW lb b (applyWrites data (arrayPlan lb ph (some b) parts))) (by exact Header.block_ne_nil _ _ _)
    have hlo : b.currentLba.toNat * lb.usize + lb.usize ≤ out.length := by
      rw [eout, e]
      refine Nat.le_trans ?_ (length_patchW _ _)
      unfold headerW at hge
      simp only [Header.block_length] at hge
      exact hge
    refine slice_eq_of_byteAt hlo (Header.block_length ..) fun i hi => ?_
    rw [byte _ (by omega), e, byteAt_patchW, if_pos (by unfold headerW; simp only [Header.block_length]; omega)]
    unfold headerW
    simp only [Nat.add_sub_cancel_left, hal]

end

/-! ## C89 -/

/-- The count asked for when the headers are rebuilt. -/
def Spec.countFor (t : PMap) : Nat := max 128 (t.length % 2 ^ 32)

/-- The calls that may ask for more slots. -/
def Spec.AsksForSlots : Op → Prop
  | .addPartition .. | .addPartitionAt .. | .updatePartitions .. => True
  | .removePartition .. | .removePartitionByGuid .. | .takePartitions | .updateGuid .. | .updateDiskDevice .. | .deviceMut .. |
    .writeInplace => False

/-- `s` is a disk as this library lays it out: the usable blocks fill the space between the arrays, the backup header is in the last
block, the device works. A call of `add_partition`, `add_partition_at` or `update_partitions` gives the table `t` and headers with another
number of slots, for which the array takes more blocks than before, and the disk is written. -/
structure Spec.Growth (m : Mode) (s : GptDisk) (h : Header) (k k' B : Nat) (t : PMap) (op : Op) (s1 s2 : GptDisk) : Prop where
  disk : SaneDisk s h k B
  full : h.lastUsable.toNat + k + 1 = B
  last : s.device.data.length / s.config.lbSize.usize - 1 = B
  faults : s.device.faults = []
  pos : s.device.pos < 2 ^ 64
  small : s.device.data.length < 2 ^ 63
  backup : s.config.readonlyBackup = false
  fits : countFor t * 128 < 2 ^ 32
  blocks : JustEnough s.config.lbSize (countFor t * 128) k'
  grows : k < k'
  asks : AsksForSlots op
  done : ∃ v, op.step m s = (.ok v, s1)
  table : s1.partitions = t
  changed : ∀ h', s1.tryHeader = .ok h' → h'.numParts ≠ h.numParts
  written : writeInplace m s1 = (.ok (), s2)

section
variable {m : Mode} {s s1 s2 : GptDisk} {h : Header} {k k' B : Nat} {t : PMap} {op : Op}

/-- The headers after growing. -/
structure Grown (s s1 : GptDisk) (h : Header) (k k' B : Nat) (t : PMap) (h1 h2 : Header) : Prop where
  state : s1 = { s with partitions := t, primaryHeader := .ok h1, backupHeader := .ok h2 }
  size : h1.partSize = 128 ∧ h2.partSize = 128
  count : h1.numParts.toNat = countFor t
  sameCount : h2.numParts = h1.numParts
  cur : h1.currentLba = 1 ∧ h1.backupLba.toNat = B
  start : h1.partStart = 2
  first : h1.firstUsable.toNat = max h.firstUsable.toNat (2 + k')
  last : h1.lastUsable = h.lastUsable
  room : h1.firstUsable.toNat ≤ h1.lastUsable.toNat
  guid : h1.diskGuid = s.guid
  backupCur : h2.currentLba.toNat = B
  backupStart : h2.partStart.toNat = B - k

theorem growth_rebuilt (g : Growth m s h k k' B t op s1 s2) : Rebuilt m { s with partitions := t } h (.ok ()) s1 := by
  have hh := header_ok_iff.mp g.disk.header
  obtain ⟨v, hv⟩ := g.done
  have ins : ∀ {id : UInt32} {p : Partition} {f2 : Uuid} {r : Res GptError UInt32}, Inserted m id p f2 s r s1 → (∃ i, r = .ok i) →
      Rebuilt m { s with partitions := t } h (.ok ()) s1 := by
    rintro id p f2 r hi ⟨i, rfl⟩
    have key : ∀ r', Res.ok (ε := GptError) i = r' → Inserted m id p f2 s r' s1 → Rebuilt m { s with partitions := t } h (.ok ()) s1 := by
      intro r' e hi
      cases hi with
      | panic => cases e
      | refused => cases e
      | plain h' a b => exact absurd rfl (g.changed h (by exact hh))
      | rebuilt h' r0 _ a b c d =>
        have hr := rebuilt_run (m := m) (s := s.withParts (PMap.insert id p s.partitions)) f2 hh g.faults g.pos g.disk.length
        have ht := (initHeaders_same d).partitions
        rw [g.table] at ht
        rw [d] at hr
        cases r0 with
        | ok =>
          rw [ht]
          exact hr
        | err => cases e
        | panic => cases e
    exact key _ rfl hi
  cases op with
  | addPartition name size ty flags align f1 f2 =>
    have e2 : (addPartition m name size ty flags align f1 f2 s).2 = s1 := congrArg Prod.snd hv
    have e1 : ∃ i, (addPartition m name size ty flags align f1 f2 s).1 = .ok i := by
      have : ((addPartition m name size ty flags align f1 f2).mapOk OpVal.id s).1 = .ok v := congrArg Prod.fst hv
      unfold M.mapOk at this
      cases hx : (addPartition m name size ty flags align f1 f2 s).1 with
      | ok i => exact ⟨i, rfl⟩
      | err => rw [hx] at this; cases this
      | panic => rw [hx] at this; cases this
    rcases addPartition_any m name size ty flags align f1 f2 s with ⟨-, a⟩ | ⟨_, _, _, -, a⟩
    · obtain ⟨i, e1⟩ := e1
      rw [e1] at a
      rcases a with a | a <;> cases a
    · rw [e2] at a
      exact ins a e1
  | addPartitionAt name id first length ty flags f1 f2 =>
    have e2 : (addPartitionAt m name id first length ty flags f1 f2 s).2 = s1 := congrArg Prod.snd hv
    have e1 : ∃ i, (addPartitionAt m name id first length ty flags f1 f2 s).1 = .ok i := by
      have : ((addPartitionAt m name id first length ty flags f1 f2).mapOk OpVal.id s).1 = .ok v := congrArg Prod.fst hv
      unfold M.mapOk at this
      cases hx : (addPartitionAt m name id first length ty flags f1 f2 s).1 with
      | ok i => exact ⟨i, rfl⟩
      | err => rw [hx] at this; cases this
      | panic => rw [hx] at this; cases this
    rcases addPartitionAt_any m name id first length ty flags f1 f2 s with ⟨-, a⟩ | ⟨-, -, -, -, a⟩
    · obtain ⟨i, e1⟩ := e1
      rw [e1] at a
      rcases a with a | a | a <;> cases a
    · rw [e2] at a
      exact ins a e1
  | updatePartitions pp f =>
    have e : updatePartitions m pp f s = (.ok (), s1) := by
      have e2 : (updatePartitions m pp f s).2 = s1 := congrArg Prod.snd hv
      have : ((updatePartitions m pp f).mapOk (fun _ => OpVal.unit) s).1 = .ok v := congrArg Prod.fst hv
      unfold M.mapOk at this
      cases hx : (updatePartitions m pp f s).1 with
      | ok i => exact Prod.ext hx e2
      | err => rw [hx] at this; cases this
      | panic => rw [hx] at this; cases this
    have hu := (c87_update m s s1 h pp f _ g.disk.header g.faults g.pos g.disk.length).mp e
    have ht := g.table
    cases hu with
    | goes _ _ _ _ hr =>
      have : s1.partitions = pp := by cases hr <;> rfl
      rw [← ht, this]
      exact hr
  | removePartition | removePartitionByGuid | takePartitions | updateGuid | updateDiskDevice | deviceMut | writeInplace => exact g.asks.elim

theorem growth_headers (g : Growth m s h k k' B t op s1 s2) : ∃ h1 h2, Grown s s1 h k k' B t h1 h2 ∧
    Built m s.config.lbSize (backupFrom h1) (.ok h2) ∧ Built m s.config.lbSize (primaryAgain h1) (.ok h1) := by
  have hr := growth_rebuilt g
  obtain ⟨hB, hkB⟩ := sane_bounds g.disk.sane
  have hsane := g.disk.sane
  have hfull := g.full
  have hgrows := g.grows
  have e128 : (128 : UInt32).toNat = 128 := rfl
  have e1 : (1 : UInt64).toNat = 1 := rfl
  have e2 : (2 : UInt64).toNat = 2 := rfl
  cases hr with
  | primary c l h1 b1 b2 b3 b4 b5 =>
    have := g.backup
    rw [show s.config.readonlyBackup = true from b5] at this
    cases this
  | both c l h1 h2 b1 b2 b3 b4 b5 b6 =>
    have hc : c.toNat = countFor t := b2
    have hl : l.toNat = B := b3.trans g.last
    have hp1 : (if h.currentLba < h.backupLba then h.currentLba else h.backupLba) = 1 := by
      apply UInt64.toNat_inj.mp
      rcases hsane.lbas with ⟨x, y⟩ | ⟨x, y⟩
      · rw [if_pos (by rw [UInt64.lt_iff_toNat_lt]; omega), x]; rfl
      · rw [if_neg (by rw [UInt64.lt_iff_toNat_lt]; omega), y]; rfl
    cases b4 with
    | header kk _ a1 a2 a3 a4 a5 a6 =>
      have hnp : (primaryFrom { s with partitions := t } h c l).numParts.toNat * (primaryFrom { s with partitions := t } h c l).partSize.toNat % 2 ^ 32
          = countFor t * 128 := by
        show c.toNat * h.partSize.toNat % 2 ^ 32 = _
        rw [hc, hsane.entry, e128, Nat.mod_eq_of_lt g.fits]
      rw [hnp] at a3
      obtain rfl := justEnough_unique a3 g.blocks
      have q1 : h1.currentLba = 1 := a6.current.trans hp1
      have q2 : h1.backupLba = l := a6.backup
      have q3 : h1.firstUsable.toNat = max h.firstUsable.toNat (2 + kk) := a6.first
      have q4 : h1.lastUsable.toNat = h.lastUsable.toNat := by
        rw [a6.last]
        show max h.lastUsable.toNat (l.toNat - (kk + 1)) = _
        omega
      have q5 : h1.partSize = 128 := a6.entry.trans hsane.entry
      have q6 : h1.numParts.toNat = countFor t := by rw [a6.count]; exact hc
      have q7 : h1.partStart = 2 := by
        apply UInt64.toNat_inj.mp
        rw [a6.start]
        show ((if h.currentLba < h.backupLba then h.currentLba else h.backupLba).toNat + 1) % 2 ^ 64 = _
        rw [hp1]; rfl
      have q8 : h1.firstUsable.toNat ≤ h1.lastUsable.toNat := by
        rw [a6.first, a6.last]; exact a4.2
      have hagain : Built m s.config.lbSize (primaryAgain h1) (.ok h1) := by
        have hlt : h1.currentLba < h1.backupLba := by rw [UInt64.lt_iff_toNat_lt, q1, q2, hl, e1]; omega
        have p1 : (primaryAgain h1).primaryLba = 1 := by
          show (if h1.currentLba < h1.backupLba then h1.currentLba else h1.backupLba) = 1
          rw [if_pos hlt, q1]
        have p2 : (primaryAgain h1).backupLba = l := by
          show (if h1.currentLba < h1.backupLba then h1.backupLba else h1.currentLba) = l
          rw [if_pos hlt, q2]
        have p3 : (primaryAgain h1).numParts.toNat * (primaryAgain h1).partSize.toNat = countFor t * 128 := by
          show h1.numParts.toNat * h1.partSize.toNat = _
          rw [q6, q5, e128]
        refine .header kk h1 (by rw [p1, p2, hl, e1]; omega) (fun _ => by rw [p3]; exact g.fits)
          (by rw [p3, Nat.mod_eq_of_lt g.fits]; exact a3) ⟨?_, ?_⟩ (fun _ => ?_) ?_
        · rw [p2, hl]; omega
        · show max h1.firstUsable.toNat (2 + kk) ≤ max h1.lastUsable.toNat _
          omega
        · show (primaryAgain h1).primaryLba.toNat ≠ _
          rw [p1, e1]; decide
        · refine ⟨a6.signature, a6.revision, a6.size, a6.zeros, ?_, ?_, ?_, ?_, rfl, ?_, rfl, rfl⟩
          · rw [q1]; exact p1.symm
          · rw [q2]; exact p2.symm
          · show _ = max h1.firstUsable.toNat (2 + kk)
            omega
          · show _ = max h1.lastUsable.toNat _
            rw [p2, hl, q4]; omega
          · show _ = ((primaryAgain h1).primaryLba.toNat + 1) % 2 ^ 64
            rw [p1, q7]; rfl
      refine ⟨h1, h2, ?_, b6, hagain⟩
      cases b6 with
      | header k2 _ c1 c2 c3 c4 c5 c6 =>
        have hnp2 : (backupFrom h1).numParts.toNat * (backupFrom h1).partSize.toNat % 2 ^ 32 = countFor t * 128 := by
          show h1.numParts.toNat * h1.partSize.toNat % 2 ^ 32 = _
          rw [q6, q5, e128, Nat.mod_eq_of_lt g.fits]
        rw [hnp2] at c3
        obtain rfl := justEnough_unique c3 a3
        have w1 : h2.lastUsable.toNat = h.lastUsable.toNat := by
          rw [c6.last]
          show max h1.lastUsable.toNat (h1.backupLba.toNat - (k2 + 1)) = _
          rw [q2, hl, q4]; omega
        refine ⟨rfl, ⟨q5, c6.entry.trans q5⟩, q6, c6.count, ⟨q1, by rw [q2]; exact hl⟩, q7, q3, UInt64.toNat_inj.mp q4, q8,
          a6.guid, ?_, ?_⟩
        · rw [c6.current]
          show h1.backupLba.toNat = B
          rw [q2]; exact hl
        · rw [c6.start]
          show (h2.lastUsable.toNat + 1) % 2 ^ 64 = _
          rw [w1, Nat.mod_eq_of_lt (by omega)]; omega

/-- Where things are. -/
theorem growth_geo (g : Growth m s h k k' B t op s1 s2) {h1 h2 : Header} (hg : Grown s s1 h k k' B t h1 h2) :
    h1.numParts.toNat = countFor t ∧ (B + 1) * s.config.lbSize.usize ≤ s.device.data.length ∧
    2 * s.config.lbSize.usize + countFor t * 128 ≤ (2 + k') * s.config.lbSize.usize ∧
    (2 + k') * s.config.lbSize.usize ≤ (B - k) * s.config.lbSize.usize ∧
    (B - k) * s.config.lbSize.usize ≤ B * s.config.lbSize.usize ∧
    k * s.config.lbSize.usize < countFor t * 128 ∧ h2.arrayStart s.config.lbSize = (B - k) * s.config.lbSize.usize ∧
    (B - k) * s.config.lbSize.usize + k * s.config.lbSize.usize = B * s.config.lbSize.usize := by
  obtain ⟨hB, hkB⟩ := sane_bounds g.disk.sane
  have h3 := hg.first
  have h4 := hg.room
  have h5 := congrArg UInt64.toNat hg.last
  have h6 := g.full
  have h7 := g.grows
  have h8 := g.blocks.enough
  refine ⟨hg.count, g.disk.fits, ?_, Nat.mul_le_mul_right _ (by omega), Nat.mul_le_mul_right _ (by omega), ?_, ?_, ?_⟩
  · rw [Nat.add_mul]; omega
  · apply Nat.lt_of_not_le
    intro hle
    have := g.blocks.minimal k hle
    omega
  · unfold Header.arrayStart
    rw [hg.backupStart]
  · rw [← Nat.add_mul]
    congr 1
    omega

theorem growth_writes (g : Growth m s h k k' B t op s1 s2) : ∃ h1 h2, Grown s s1 h k k' B t h1 h2 ∧
    WriteHeaders m s1 h1 h1 (some h2) ∧ Front s.config.lbSize h1 (some h2) ∧ (Spec.used t).length ≤ h1.numParts.toNat ∧
    s2.device.data = applyWrites s.device.data (writePlan s.config.lbSize h1 (some h2) (Spec.used t) s.device.data) := by
  obtain ⟨h1, h2, hg, b2, b1⟩ := growth_headers g
  obtain ⟨g1, g2, g3, g4, g5, g6, g7, g8⟩ := growth_geo g hg
  have hst := hg.state
  have hlen := g.small
  have hcfg : s1.config = s.config := by rw [hst]
  have hpt : s1.partitions = t := by rw [hst]
  have hdv : s1.device = s.device := by rw [hst]
  have e128 : (128 : UInt32).toNat = 128 := rfl
  have hfits := g.fits
  have hcl : B * s.config.lbSize.usize + s.config.lbSize.usize ≤ s.device.data.length := by
    rw [Nat.add_mul, Nat.one_mul] at g2; exact g2
  have hsig := built_sig b1
  have a1 : h1.arrayStart s.config.lbSize = 2 * s.config.lbSize.usize := by unfold Header.arrayStart; rw [hg.start]; rfl
  have hw : WriteHeaders m s1 h1 h1 (some h2) := by
    refine ⟨by rw [hst]; rfl, by rw [hcfg]; exact b1, ?_, ?_, (fun hn => by cases hn), ?_⟩
    · rw [hcfg, slotOf_eq, a1, hg.size.1, e128, g1]; omega
    · rw [hg.size.1, e128, g1]; omega
    · rintro _ ⟨⟩
      refine ⟨by rw [hcfg]; exact g.backup, by rw [hcfg]; exact b2, ?_⟩
      rw [hcfg, slotOf_eq, g7, hg.size.2, e128, hg.sameCount, g1]; omega
  have hroom := image_rest hw g.written
  have hf := (image_run hw).ok g.written
  rw [List.take_of_length_le hroom, hcfg, hpt, hdv] at hf
  rw [hpt] at hroom
  refine ⟨h1, h2, hg, hw, ⟨hsig.1, hsig.2, hg.size.1, by rw [hg.cur.1]; rfl, hg.start, ?_⟩, hroom, hf⟩
  rintro _ ⟨⟩
  rw [g1]
  refine ⟨by rw [g7]; omega, ?_, hg.size.2, hg.sameCount⟩
  rw [hg.backupCur]; omega

/-- **C89**: after growing, the primary array holds the new table, whatever was in these blocks before. -/
theorem c89_primary (g : Growth m s h k k' B t op s1 s2) :
    ArrayHolds s2.device.data (2 * s.config.lbSize.usize) (countFor t) (Spec.used t) ∧
    k * s.config.lbSize.usize < countFor t * 128 := by
  obtain ⟨h1, h2, hg, hw, f, hroom, e⟩ := growth_writes g
  obtain ⟨g1, g2, g3, g4, g5, g6, g7, g8⟩ := growth_geo g hg
  have hlen : B * s.config.lbSize.usize ≤ s.device.data.length := (Nat.mul_le_mul_right _ (by omega)).trans g2
  have hfit : 2 * s.config.lbSize.usize + h1.numParts.toNat * 128 ≤ s.device.data.length := by rw [g1]; omega
  obtain ⟨f1, f2, f3, f4, f5, f6⟩ := f.final hroom hfit
  rw [← e] at f2 f6
  refine ⟨arrayHolds_of_bytes (by omega) fun i hi1 hi2 => ?_, g6⟩
  rw [List.take_of_length_le (by omega), ← g1, ← f2, byteAt_slice, if_pos (by omega)]
  congr 1
  omega

/-- **C89**: the disk can be opened and has the new table. -/
theorem c89_reopens (g : Growth m s h k k' B t op s1 s2) (m' : Mode) (cfg : GptConfig) (d : Dev) (hd : d.data = s2.device.data)
    (hf : d.faults = []) (hp : d.pos < 2 ^ 64) (hlen : d.data.length < 2 ^ 64) (hlb : cfg.lbSize = s.config.lbSize)
    (hv : cfg.onlyValidHeaders = false) :
    ∃ s3 d3 h3, openFromDevice m' cfg d = (.ok s3, d3) ∧ s3.header (ε := Empty) = .ok h3 ∧ h3.numParts.toNat = countFor t ∧
      s3.guid = s.guid ∧ Numbered (Spec.used t) s3.partitions := by
  obtain ⟨h1, h2, hg, hw, f, hroom, e⟩ := growth_writes g
  obtain ⟨g1, g2, g3, g4, g5, g6, g7, g8⟩ := growth_geo g hg
  have hfits := g.fits
  have hlen' : B * s.config.lbSize.usize ≤ s.device.data.length := (Nat.mul_le_mul_right _ (by omega)).trans g2
  have hfit : 2 * s.config.lbSize.usize + h1.numParts.toNat * 128 ≤ s.device.data.length := by rw [g1]; omega
  obtain ⟨f1, f2, f3, f4, f5, f6⟩ := f.final hroom hfit
  rw [← e, ← hd] at f1 f2 f6
  rw [← hlb] at f1 f2 hfit
  obtain ⟨x, p, -, o⟩ := open_primary (m := m') (cfg := cfg) (d := d) (P := h1) (ps := Spec.used t) hf hp hlen f.sig f.reserved f.start f.size
    (by rw [g1]; exact hfits) hroom (fun p hp => used_isUsed hp) (by omega) f1 f2 (fun h => by rw [hv] at h; cases h)
  exact ⟨_, _, _, o, rfl, g1, hg.guid, numbered_numberFrom (by omega)⟩

/-- **C89**: the backup header, in block `B`, is valid and describes an array that starts `k` blocks before it and does not end
before it: the last entries of the backup array have been overwritten by the header. -/
theorem c89_backup (g : Growth m s h k k' B t op s1 s2) :
    ∃ b, ValidAt s2.device.data (B * s.config.lbSize.usize) ∧ HeaderAt s2.device.data (B * s.config.lbSize.usize) b ∧
      b.partStart.toNat = B - k ∧ b.numParts.toNat = countFor t ∧ b.partSize = 128 ∧
      B * s.config.lbSize.usize < b.partStart.toNat * s.config.lbSize.usize + countFor t * 128 := by
  obtain ⟨h1, h2, hg, hw, f, hroom, e⟩ := growth_writes g
  obtain ⟨g1, g2, g3, g4, g5, g6, g7, g8⟩ := growth_geo g hg
  have hlen' : B * s.config.lbSize.usize + s.config.lbSize.usize ≤ s.device.data.length := by
    rw [Nat.add_mul, Nat.one_mul] at g2; exact g2
  have hfit : 2 * s.config.lbSize.usize + h1.numParts.toNat * 128 ≤ s.device.data.length := by rw [g1]; omega
  obtain ⟨f1, f2, f3, f4, f5, f6⟩ := f.final hroom hfit
  have f5 := f5 h2 rfl
  rw [← e] at f5 f6
  rw [hg.backupCur] at f5
  have hsig := built_sig (hw.some h2 rfl).2.1
  have hr := read_block hsig.1 hsig.2 (by omega) f5
  obtain ⟨a1, a2⟩ := ((readHeaderAt_spec _ _).1 _).mp hr
  refine ⟨_, a1, a2, hg.backupStart, ?_, hg.size.2, ?_⟩
  · show h2.numParts.toNat = _
    rw [hg.sameCount, g1]
  · show _ < h2.partStart.toNat * _ + _
    rw [hg.backupStart]; omega

/-- **C89**: nothing changes outside the primary header and array, the backup array and the backup header. -/
theorem c89_outside (g : Growth m s h k k' B t op s1 s2) (i : Nat)
    (hi : i < s.config.lbSize.usize ∨ (2 * s.config.lbSize.usize + countFor t * 128 ≤ i ∧ i < (B - k) * s.config.lbSize.usize)) :
    byteAt s2.device.data i = byteAt s.device.data i := by
  obtain ⟨h1, h2, hg, hw, f, hroom, e⟩ := growth_writes g
  obtain ⟨g1, g2, g3, g4, g5, g6, g7, g8⟩ := growth_geo g hg
  have hlen' : B * s.config.lbSize.usize ≤ s.device.data.length := (Nat.mul_le_mul_right _ (by omega)).trans g2
  have hfit : 2 * s.config.lbSize.usize + h1.numParts.toNat * 128 ≤ s.device.data.length := by rw [g1]; omega
  obtain ⟨f1, f2, f3, f4, f5, f6⟩ := f.final hroom hfit
  rw [e]
  rcases hi with hi | ⟨hi1, hi2⟩
  · exact f3 i hi
  · refine f4 i (by rw [g1]; exact hi1) ?_
    rintro _ ⟨⟩
    rw [g7, hg.backupCur]
    exact ⟨.inl hi2, .inl (by omega)⟩

/-- **C89**: a used partition that starts behind the longer array keeps its data. Missing from the full claim: one that starts
before that. -/
theorem c89_partial (g : Growth m s h k k' B t op s1 s2) (ht : Tidy h s.partitions) (p : Partition) (hp : Used s.partitions p)
    (hfirst : 2 + k' ≤ p.firstLba.toNat) (x : Nat) (hx : HasByte s.config.lbSize p x) :
    byteAt s2.device.data x = byteAt s.device.data x := by
  obtain ⟨h1, h2, hg, -⟩ := growth_headers g
  obtain ⟨g1, g2, g3, g4, g5, g6, g7, g8⟩ := growth_geo g hg
  obtain ⟨start, len, b1, b2, b3, b4⟩ := hx
  have c1 := (c10_bytes_start _ _ _).mp b1
  obtain ⟨c2, c3⟩ := (c10_bytes_len _ _ _).mp b2
  have hin := ht.inside p hp
  have hfull := g.full
  have e1 : (2 + k') * s.config.lbSize.usize ≤ p.firstLba.toNat * s.config.lbSize.usize := Nat.mul_le_mul_right _ hfirst
  have e2 : p.firstLba.toNat * s.config.lbSize.usize + (p.lastLba.toNat - p.firstLba.toNat + 1) * s.config.lbSize.usize ≤
      (B - k) * s.config.lbSize.usize := by
    rw [← Nat.add_mul]
    exact Nat.mul_le_mul_right _ (by omega)
  exact c89_outside g x (.inr ⟨by omega, by omega⟩)

/-- Byte `r` of slot `j` of an array that holds `ps`. -/
def Spec.slotByte (ps : List Partition) (j r : Nat) : UInt8 := match ps[j]? with
  | some p => byteAt (p.asBytes 128) r
  | none => 0

/-- **C89**, exactly: a used partition keeps its data if and only if those of its bytes that lie in the longer array were the bytes of the
new table already. -/
theorem c89_exact (g : Growth m s h k k' B t op s1 s2) (ht : Tidy h s.partitions) (p : Partition) (hp : Used s.partitions p) :
    (∀ x, HasByte s.config.lbSize p x → byteAt s2.device.data x = byteAt s.device.data x) ↔
      ∀ j r, j < countFor t → r < 128 → HasByte s.config.lbSize p (2 * s.config.lbSize.usize + 128 * j + r) →
        byteAt s.device.data (2 * s.config.lbSize.usize + 128 * j + r) = slotByte (Spec.used t) j r := by
  have harr : ∀ j r, j < countFor t → r < 128 → byteAt s2.device.data (2 * s.config.lbSize.usize + 128 * j + r) = slotByte (Spec.used t) j r := by
    intro j r hj hr
    have h1 := congrArg (byteAt · r) ((c89_primary g).1 j hj)
    simp only [byteAt_slice, if_pos hr] at h1
    rw [h1]
    unfold slotByte
    cases (Spec.used t)[j]? with
    | some q => rfl
    | none =>
      simp only
      unfold byteAt zeros
      rw [List.getElem?_replicate_of_lt hr]
      rfl
  constructor
  · intro h0 j r hj hr hx
    rw [← h0 _ hx]
    exact harr j r hj hr
  · intro h0 x hx
    obtain ⟨h1, h2, hg, -⟩ := growth_headers g
    obtain ⟨g1, g2, g3, g4, g5, g6, g7, g8⟩ := growth_geo g hg
    have hx' := hx
    obtain ⟨start, len, b1, b2, b3, b4⟩ := hx'
    have c1 := (c10_bytes_start _ _ _).mp b1
    obtain ⟨c2, c3⟩ := (c10_bytes_len _ _ _).mp b2
    have hin := ht.inside p hp
    have hfull := g.full
    have hsf := g.disk.sane.first
    have e1 : (2 + k) * s.config.lbSize.usize ≤ p.firstLba.toNat * s.config.lbSize.usize := Nat.mul_le_mul_right _ (by omega)
    have e3 : (2 + k) * s.config.lbSize.usize = 2 * s.config.lbSize.usize + k * s.config.lbSize.usize := Nat.add_mul _ _ _
    have e2 : p.firstLba.toNat * s.config.lbSize.usize + (p.lastLba.toNat - p.firstLba.toNat + 1) * s.config.lbSize.usize ≤
        (B - k) * s.config.lbSize.usize := by
      rw [← Nat.add_mul]
      exact Nat.mul_le_mul_right _ (by omega)
    rcases Nat.lt_or_ge x (2 * s.config.lbSize.usize + countFor t * 128) with hlt | hge
    · have hj : (x - 2 * s.config.lbSize.usize) / 128 < countFor t := by omega
      have hr : (x - 2 * s.config.lbSize.usize) % 128 < 128 := Nat.mod_lt _ (by decide)
      have ex : 2 * s.config.lbSize.usize + 128 * ((x - 2 * s.config.lbSize.usize) / 128) + (x - 2 * s.config.lbSize.usize) % 128 = x := by omega
      rw [← ex] at hx ⊢
      generalize (x - 2 * s.config.lbSize.usize) / 128 = j at hj hx ⊢
      generalize (x - 2 * s.config.lbSize.usize) % 128 = r at hr hx ⊢
      rw [harr j r hj hr, h0 j r hj hr hx]
    · exact c89_outside g x (.inr ⟨hge, by omega⟩)

end

/-- **C89**, the claim: growing the array of a disk laid out by this library keeps the data of its used partitions. -/
def C89 : Prop := ∀ (m : Mode) (s s1 s2 : GptDisk) (h : Header) (k k' B : Nat) (t : PMap) (op : Op),
  Growth m s h k k' B t op s1 s2 → Tidy h s.partitions → (∀ e ∈ s.partitions, e ∈ t) → Tidy h t →
  ∀ p, Used s.partitions p → ∀ x, HasByte s.config.lbSize p x → byteAt s2.device.data x = byteAt s.device.data x

/-- One block from block 34 + `i` on. -/
def growPart (i : Nat) : Partition := ⟨⟨⟨9, 9, 9, 9⟩, .none⟩, ⟨0, 0, 0, UInt64.ofNat i⟩, UInt64.ofNat (34 + i), UInt64.ofNat (34 + i), 0, "p"⟩

/-- The first `n` of them. -/
def growTable (n : Nat) : PMap := (List.range n).map fun i => (UInt32.ofNat (i + 1), growPart i)

/-- The header of a disk of 300 blocks. -/
def growHeader (first : UInt64) (n : UInt32) : Header :=
  { smallHeader with backupLba := 299, firstUsable := first, lastUsable := 266, numParts := n }

/-- Its backup. -/
def growBackup : Header := { growHeader 35 129 with currentLba := 299, backupLba := 1, partStart := 267 }

/-- A full table on a device of 300 blocks with content `z`. -/
def fullDisk89 (z : Bytes) : GptDisk where
  config := { GptConfig.new.setWritable true with changePartitionCount := true }
  device := ⟨z, 0, 153600, [], []⟩
  guid := ⟨1, 2, 3, 4⟩
  primaryHeader := .ok (growHeader 34 128)
  backupHeader := .error .invalidGptSignature
  partitions := growTable 128
  syncAll := false

def fullDisk89b (z : Bytes) : GptDisk :=
  { fullDisk89 z with partitions := growTable 129, primaryHeader := .ok (growHeader 35 129), backupHeader := .ok growBackup }

/-- One partition more, of one block, anywhere. -/
def growOp : Op := .addPartition "p" 512 ⟨⟨9, 9, 9, 9⟩, .none⟩ 0 none ⟨0, 0, 0, 128⟩ Uuid.nil

theorem mem_growTable {n : Nat} {i : UInt32} {p : Partition} (h : (i, p) ∈ growTable n) :
    ∃ j, j < n ∧ i = UInt32.ofNat (j + 1) ∧ p = growPart j := by
  simp only [growTable, List.mem_map, List.mem_range, Prod.mk.injEq] at h
  obtain ⟨j, hj, e1, e2⟩ := h
  exact ⟨j, hj, e1.symm, e2.symm⟩

theorem growTable_tidy (n : Nat) (hn : n ≤ 129) : Tidy (growHeader 34 128) (growTable n) := by
  have cov : ∀ j x, j < n → Covers (growPart j) x → x = 34 + j := by
    rintro j x hj ⟨h1, h2⟩
    have e1 : (growPart j).firstLba.toNat = 34 + j := ofNat64 (by omega)
    have e2 : (growPart j).lastLba.toNat = 34 + j := ofNat64 (by omega)
    omega
  have val : ∀ j, j < n → (growPart j).firstLba.toNat = 34 + j ∧ (growPart j).lastLba.toNat = 34 + j :=
    fun j hj => ⟨ofNat64 (by omega), ofNat64 (by omega)⟩
  refine ⟨?_, ?_, ?_, ?_⟩
  · unfold growTable
    rw [List.pairwise_map]
    refine List.Pairwise.imp_of_mem ?_ List.pairwise_lt_range
    intro a b ha hb hab
    rw [List.mem_range] at ha hb
    show UInt32.ofNat (a + 1) < UInt32.ofNat (b + 1)
    rw [UInt32.lt_iff_toNat_lt, UInt32.toNat_ofNat', UInt32.toNat_ofNat', Nat.mod_eq_of_lt (by omega), Nat.mod_eq_of_lt (by omega)]
    omega
  · rintro p ⟨i, hm, -⟩
    obtain ⟨j, hj, -, rfl⟩ := mem_growTable hm
    have := val j hj
    omega
  · rintro p ⟨i, hm, -⟩
    obtain ⟨j, hj, -, rfl⟩ := mem_growTable hm
    have := val j hj
    have e1 : (growHeader 34 128).firstUsable.toNat = 34 := rfl
    have e2 : (growHeader 34 128).lastUsable.toNat = 266 := rfl
    omega
  · rintro i j p q hi hj hij - - x ⟨c1, c2⟩
    obtain ⟨a, ha, rfl, rfl⟩ := mem_growTable hi
    obtain ⟨b, hb, rfl, rfl⟩ := mem_growTable hj
    have e1 := cov a x ha c1
    have e2 := cov b x hb c2
    obtain rfl : a = b := by omega
    exact hij rfl

theorem fullDisk89_sane (z : Bytes) (hz : z.length = 153600) : SaneDisk (fullDisk89 z) (growHeader 34 128) 32 299 := by
  have hl : (fullDisk89 z).device.data.length = 153600 := hz
  refine ⟨rfl, ⟨rfl, by decide, ⟨(show 128 * 128 ≤ 32 * 512 by decide), fun j hj => ?_⟩, .inl ⟨rfl, rfl⟩, by decide, by decide, by decide⟩, ?_, ?_⟩
  · have e : (growHeader 34 128).numParts.toNat * 128 = 16384 := rfl
    have e2 : LbSize.lb512.usize = 512 := rfl
    have hj : 16384 ≤ j * 512 := hj
    omega
  · rw [hl]; exact (by decide : 300 * 512 ≤ 153600)
  · rw [hl]; decide

theorem just33 : JustEnough .lb512 (129 * 128 % 2 ^ 32) 33 :=
  ⟨by decide, fun j hj => by
    have e : LbSize.lb512.usize = 512 := rfl
    rw [e] at hj; omega⟩

theorem fullDisk89_grows (m : Mode) (z : Bytes) (hz : z.length = 153600) :
    ∃ s2, Growth m (fullDisk89 z) (growHeader 34 128) 32 33 299 (growTable 129) growOp (fullDisk89b z) s2 := by
  have hl : (fullDisk89 z).device.data.length = 153600 := hz
  have hcf : countFor (growTable 129) = 129 := by decide +kernel
  have hp : Built m .lb512 (primaryFrom { fullDisk89 z with partitions := growTable 129 } (growHeader 34 128) 129 299) (.ok (growHeader 35 129)) := by
    rw [show primaryFrom { fullDisk89 z with partitions := growTable 129 } (growHeader 34 128) 129 299 =
      primaryFrom { fullDisk89 [] with partitions := growTable 129 } (growHeader 34 128) 129 299 from rfl]
    exact .header 33 _ (by decide) (fun _ => by decide) just33 (by unfold HasRoom; decide) (fun _ => by decide)
      ⟨by decide +kernel, rfl, rfl, ⟨rfl, rfl, rfl⟩, rfl, rfl, by decide, by decide, rfl, by decide, rfl, rfl⟩
  have hp2 : Built m .lb512 (primaryAgain (growHeader 35 129)) (.ok (growHeader 35 129)) :=
    .header 33 _ (by decide) (fun _ => by decide) just33 (by unfold HasRoom; decide) (fun _ => by decide)
      ⟨by decide +kernel, rfl, rfl, ⟨rfl, rfl, rfl⟩, rfl, rfl, by decide, by decide, rfl, by decide, rfl, rfl⟩
  have hb : Built m .lb512 (backupFrom (growHeader 35 129)) (.ok growBackup) :=
    .header 33 _ (by decide) (fun _ => by decide) just33 (by unfold HasRoom; decide) (fun _ => by decide)
      ⟨by decide +kernel, rfl, rfl, ⟨rfl, rfl, rfl⟩, rfl, rfl, by decide, by decide, rfl, by decide, rfl, rfl⟩
  have hadd : addPartition m "p" 512 ⟨⟨9, 9, 9, 9⟩, .none⟩ 0 none ⟨0, 0, 0, 128⟩ Uuid.nil (fullDisk89 z) = (.ok 129, fullDisk89b z) := by
    have htidy := growTable_tidy 128 (by decide)
    have ein : ∀ j, j < 128 → Used (growTable 128) (growPart j) := fun j hj =>
      ⟨UInt32.ofNat (j + 1), by
        simp only [growTable, List.mem_map, List.mem_range]
        exact ⟨j, hj, rfl⟩, show (⟨9, 9, 9, 9⟩ : Uuid) ≠ Uuid.nil by decide⟩
    have eval : ∀ j, j < 128 → (growPart j).firstLba.toNat = 34 + j ∧ (growPart j).lastLba.toNat = 34 + j :=
      fun j hj => ⟨ofNat64 (by omega), ofNat64 (by omega)⟩
    refine (c77_exact m "p" 512 ⟨⟨9, 9, 9, 9⟩, .none⟩ 0 none ⟨0, 0, 0, 128⟩ Uuid.nil (fullDisk89 z) (fullDisk89b z) (growHeader 34 128) (.ok 129) rfl
      ⟨by decide, by decide, by decide⟩ htidy (fun a h => by cases h) (by decide)
      ⟨rfl, show 0 < 2 ^ 64 by decide, by rw [hl]; decide⟩).mpr ?_
    have ins : Insert m (growHeader 34 128) (fullDisk89 z) 129 (growPart 128) (.ok 129) (fullDisk89b z) := by
      refine .rebuilt (growTable 129) (fullDisk89b z) (growHeader 35 129) (by decide) rfl ?_ rfl rfl rfl rfl rfl rfl (fun _ => by decide +kernel) fun _ => ?_
      · refine ⟨(growTable_tidy 129 (by decide)).keys, ?_, fun j q hj => ?_⟩
        · simp only [growTable, List.mem_map, List.mem_range]
          exact ⟨128, by decide, rfl⟩
        · constructor
          · intro hm
            obtain ⟨a, ha, rfl, rfl⟩ := mem_growTable hm
            rcases Nat.lt_or_ge a 128 with h | h
            · simp only [fullDisk89, growTable, List.mem_map, List.mem_range]
              exact ⟨a, h, rfl⟩
            · obtain rfl : a = 128 := by omega
              exact absurd rfl hj
          · intro hm
            obtain ⟨a, ha, rfl, rfl⟩ := mem_growTable (n := 128) hm
            simp only [growTable, List.mem_map, List.mem_range]
            exact ⟨a, by omega, rfl⟩
      · refine .both 129 299 (growHeader 35 129) growBackup ?_ hcf.symm ?_ hp rfl hb
        · show 3 * 512 ≤ (fullDisk89 z).device.data.length
          rw [hl]; decide
        · have e : ∀ n, n = 153600 → (299 : UInt64).toNat = n / LbSize.lb512.usize - 1 := by rintro n rfl; rfl
          exact e _ hl
    refine .insert 162 1 129 _ _ (by decide) (by decide) ?_ (fun a h => by cases h) ?_ ?_ ?_ ins
    · exact ⟨show 512 ≤ 1 * 512 by decide, fun j hj => by
        have hj : 512 ≤ j * 512 := hj
        have e : (1 : UInt64).toNat = 1 := rfl
        omega⟩
    · intro x hx1 hx2
      have e1 : (162 : UInt64).toNat = 162 := rfl
      have e2 : (1 : UInt64).toNat = 1 := rfl
      have e3 : (growHeader 34 128).firstUsable.toNat = 34 := rfl
      have e4 : (growHeader 34 128).lastUsable.toNat = 266 := rfl
      refine ⟨by omega, by omega, ?_⟩
      rintro p ⟨i, hm, -⟩ ⟨c1, c2⟩
      obtain ⟨j, hj, -, rfl⟩ := mem_growTable hm
      have := eval j hj
      omega
    · intro y _ hy
      have e1 : (162 : UInt64).toNat = 162 := rfl
      have e2 : (1 : UInt64).toNat = 1 := rfl
      have e3 : (growHeader 34 128).firstUsable.toNat = 34 := rfl
      have hfree := hy y (Nat.le_refl _) (by omega)
      by_contra hc
      have h34 := hfree.1
      refine hfree.2.2 (growPart (y - 34)) (ein _ (by omega)) ?_
      have := eval (y - 34) (by omega)
      constructor <;> omega
    · have e1 : (129 : UInt32).toNat = 129 := rfl
      have e2 : (growHeader 34 128).numParts.toNat = 128 := rfl
      refine ⟨by omega, by omega, fun h => by omega, fun j hj1 hj2 => ⟨UInt32.ofNat j, growPart (j - 1), ?_, ?_, ?_⟩⟩
      all_goals first
        | exact (show (⟨9, 9, 9, 9⟩ : Uuid) ≠ Uuid.nil by decide)
        | (show (UInt32.ofNat j, growPart (j - 1)) ∈ growTable 128
           simp only [growTable, List.mem_map, List.mem_range]
           exact ⟨j - 1, by omega, by rw [Nat.sub_add_cancel hj1]⟩)
        | (rw [UInt32.toNat_ofNat', Nat.mod_eq_of_lt (by omega)])
  have hwh : WriteHeaders m (fullDisk89b z) (growHeader 35 129) (growHeader 35 129) (some growBackup) := by
    refine ⟨rfl, hp2, ?_, by decide, (fun h => by cases h), ?_⟩
    · show slotOf .lb512 _ _ < _; decide
    · rintro _ ⟨⟩
      exact ⟨rfl, hb, by show slotOf .lb512 _ _ < _; decide⟩
  have hl1 : (fullDisk89b z).device.data.length = 153600 := hz
  have hused : (Spec.used (growTable 129)).length = 129 := by decide +kernel
  have hwr : (writeInplace m (fullDisk89b z)).1 = .ok () := by
    refine c88_succeeds m _ _ _ _ hwh rfl rfl (by rw [hl1]; exact Nat.le_refl _) (by rw [hl1]; exact (by decide : 3 * 512 ≤ 153600))
      (by rw [hl1]; decide) (by decide) ?_ ?_ (by rw [show (fullDisk89b z).partitions = growTable 129 from rfl, hused]; decide)
    · rw [hl1]; exact ⟨(by decide : slotOf .lb512 (growHeader 35 129) 129 ≤ 153600), (by decide : 2 * 512 ≤ 153600)⟩
    · rintro _ ⟨⟩
      rw [hl1]; exact ⟨(by decide : slotOf .lb512 growBackup 129 ≤ 153600), (by decide : 300 * 512 ≤ 153600)⟩
  rcases hx : writeInplace m (fullDisk89b z) with ⟨r, s2⟩
  rw [hx] at hwr
  simp only at hwr
  subst hwr
  refine ⟨s2, fullDisk89_sane z hz, rfl, ?_, rfl, show 0 < 2 ^ 64 by decide, by rw [hl]; decide, rfl, by rw [hcf]; decide, ?_, by decide, trivial, ⟨.id 129, ?_⟩, rfl, ?_, hx⟩
  · have e : ∀ n, n = 153600 → n / LbSize.lb512.usize - 1 = 299 := by rintro n rfl; rfl
    exact e _ hl
  · rw [hcf]; exact just33
  · show (M.mapOk OpVal.id _) (fullDisk89 z) = _
    unfold M.mapOk
    rw [hadd]
  · rintro h' ⟨⟩
    decide

/-- The claim is false: the 129th entry of the primary array goes to block 34, where the first partition's data is. -/
theorem c89_fails : ¬ C89 := by
  intro hC
  have hz : (List.replicate 153600 (0xFF : UInt8)).length = 153600 := List.length_replicate
  generalize hz' : List.replicate 153600 (0xFF : UInt8) = z at hz
  obtain ⟨s2, g⟩ := fullDisk89_grows .debug z hz
  have h1 := hC _ _ _ _ _ _ _ _ _ _ g (growTable_tidy 128 (by decide)) (fun e he => ?_) (growTable_tidy 129 (by decide)) (growPart 0)
    ⟨1, ?_, by decide⟩ 17408 ⟨17408, 512, rfl, rfl, by decide, by decide⟩
  · have h2 := (c89_primary g).1 128 (by decide +kernel)
    have h3 : (Spec.used (growTable 129))[128]? = some (growPart 128) := by decide +kernel
    rw [h3] at h2
    simp only at h2
    have h4 : byteAt (slice s2.device.data (2 * LbSize.lb512.usize + 128 * 128) 128) 0 = 9 := by
      rw [show slice s2.device.data (2 * LbSize.lb512.usize + 128 * 128) 128 = _ from h2]
      decide +kernel
    rw [byteAt_slice, if_pos (by decide)] at h4
    have h5 : byteAt s2.device.data 17408 = 9 := h4
    rw [h5] at h1
    have h6 : byteAt (fullDisk89 z).device.data 17408 = 0xFF := by
      show byteAt z 17408 = 0xFF
      rw [← hz']
      unfold byteAt
      rw [List.getElem?_replicate_of_lt (by decide)]
      rfl
    rw [h6] at h1
    exact absurd h1 (by decide)
  · obtain ⟨i, p⟩ := e
    obtain ⟨j, hj, rfl, rfl⟩ := mem_growTable he
    simp only [growTable, List.mem_map, List.mem_range]
    exact ⟨j, by omega, rfl⟩
  · show (1, growPart 0) ∈ growTable 128
    simp only [growTable, List.mem_map, List.mem_range]
    exact ⟨0, by decide, rfl⟩

/-- The hypotheses of `c89_partial` are met by the third partition, in block 36. -/
example (m : Mode) (z : Bytes) (hz : z.length = 153600) : ∃ s2, Growth m (fullDisk89 z) (growHeader 34 128) 32 33 299 (growTable 129) growOp (fullDisk89b z) s2 ∧
    byteAt s2.device.data 18432 = byteAt z 18432 := by
  obtain ⟨s2, g⟩ := fullDisk89_grows m z hz
  refine ⟨s2, g, c89_partial g (growTable_tidy 128 (by decide)) (growPart 2) ⟨3, ?_, by decide⟩ (by decide) 18432
    ⟨18432, 512, rfl, rfl, by decide, by decide⟩⟩
  show (3, growPart 2) ∈ growTable 128
  simp only [growTable, List.mem_map, List.mem_range]
  exact ⟨2, by decide, rfl⟩

/-- The first partition, in block 34, keeps its data just when its first 128 bytes were the entry of the 129th. -/
example (m : Mode) (z : Bytes) (hz : z.length = 153600) :
    ∃ s2, Growth m (fullDisk89 z) (growHeader 34 128) 32 33 299 (growTable 129) growOp (fullDisk89b z) s2 ∧
      (byteAt z 17408 ≠ 9 → ¬ ∀ x, HasByte .lb512 (growPart 0) x → byteAt s2.device.data x = byteAt z x) := by
  obtain ⟨s2, g⟩ := fullDisk89_grows m z hz
  refine ⟨s2, g, fun hne h => ?_⟩
  have hm : Used (fullDisk89 z).partitions (growPart 0) := by
    refine ⟨1, ?_, by decide⟩
    show (1, growPart 0) ∈ growTable 128
    simp only [growTable, List.mem_map, List.mem_range]
    exact ⟨0, by decide, rfl⟩
  have hb : HasByte .lb512 (growPart 0) 17408 := ⟨17408, 512, rfl, rfl, by decide, by decide⟩
  have e : 2 * (fullDisk89 z).config.lbSize.usize + 128 * 128 + 0 = 17408 := by
    have : (fullDisk89 z).config.lbSize.usize = 512 := rfl
    rw [this]
  have h1 := (c89_exact g (growTable_tidy 128 (by decide)) (growPart 0) hm).mp h 128 0 (by decide +kernel) (by decide)
  rw [e] at h1
  have h1 : byteAt z 17408 = slotByte (Spec.used (growTable 129)) 128 0 := h1 hb
  have h2 : slotByte (Spec.used (growTable 129)) 128 0 = 9 := by decide +kernel
  exact hne (h1.trans h2)

end Gpt
