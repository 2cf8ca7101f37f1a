import Verif.Props.Slots
import Verif.Props.Table
import Verif.Props.Reach
/-!
# Exactly when C19, C20, C28, C29, C56, C58 and C63 hold

For the claims of the placement and of the table that are false in general: the calls for which they hold.
-/

namespace Gpt

open Spec GptDisk

/-! ## C63, C20, C19: alignments -/

/-- Any success of the loop, with or without wrap-around. -/
theorem addPartitionLoop_somewhere {m : Mode} {name : String} {n : UInt64} {ty : PType} {flags : UInt64}
    {align : Option UInt64} {fresh fresh2 : Uuid} {L : List (UInt64 × UInt64)} {s s' : GptDisk} {id : UInt32}
    (h : addPartitionLoop m name n ty flags align fresh fresh2 L s = (.ok id, s')) :
    (∀ a, align = some a → a ≠ 0) ∧ PickId m s id ∧
    ∃ sec ∈ L, insertPartition m name id (sec.1 + UInt64.ofNat (offNat sec.1.toNat align)) n ty flags fresh fresh2 s = (.ok id, s') := by
  induction L with
  | nil => simp [addPartitionLoop] at h
  | cons sec rest ih =>
    obtain ⟨st, len⟩ := sec
    unfold addPartitionLoop at h
    simp only [M.bind_ok, M.lift_ok] at h
    obtain ⟨off, s1, ⟨ho, rfl⟩, need, s2, ⟨hn, rfl⟩, h⟩ := h
    split at h
    · simp only [M.bind_ok, M.lift_ok, M.get_ok] at h
      obtain ⟨start, s3, ⟨hs, rfl⟩, s4, s5, ⟨h4, h5⟩, id?, s6, ⟨hid, h6⟩, h⟩ := h
      subst h4 h5 h6
      have hoff := alignmentOffset_ok ho
      rw [alignmentOffset_eq m st hoff.1, Res.ok.injEq] at ho
      have hs' := add64_ok hs
      rw [← ho] at hs'
      have key : PickId m s6 id ∧ insertPartition m name id start n ty flags fresh fresh2 s6 = (.ok id, s') := by
        cases id? with
        | some i =>
          simp only [M.bind_ok, M.pure_ok] at h
          obtain ⟨i', s7, ⟨rfl, rfl⟩, h⟩ := h
          obtain rfl := (insertPartition_ok h).1
          exact ⟨.inl hid, h⟩
        | none =>
          simp only [M.bind_ok, M.lift_ok] at h
          obtain ⟨hd, s8, ⟨h1, rfl⟩, i', s9, ⟨h3, rfl⟩, h⟩ := h
          obtain rfl := (insertPartition_ok h).1
          exact ⟨.inr ⟨hid, hd, header_ok_iff.mp h1, h3⟩, h⟩
      rw [hs'] at key
      exact ⟨hoff.1, key.1, (st, len), by simp, key.2⟩
    · obtain ⟨ha, hp, sec, hm, h3⟩ := ih h
      exact ⟨ha, hp, sec, List.mem_cons_of_mem _ hm, h3⟩

/-- A success of `add_partition` with an alignment above every usable block puts the partition at that very block. -/
theorem addPartition_beyond {m : Mode} {name : String} {size : UInt64} {ty : PType} {flags a : UInt64}
    {fresh fresh2 : Uuid} {s s' : GptDisk} {id : UInt32} {h : Header} {p : Partition} (hh : s.tryHeader = .ok h)
    (hr : Range h) (ht : Tidy h s.partitions) (ha : h.lastUsable.toNat < a.toNat)
    (hok : addPartition m name size ty flags (some a) fresh fresh2 s = (.ok id, s')) (hp : (id, p) ∈ s'.partitions) :
    p.firstLba = a := by
  have h0 : size ≠ 0 := by rintro rfl; rw [addPartition_zero] at hok; simp at hok
  obtain ⟨L, hL, hsec⟩ := findFreeSectors_sections (ε := GptError) m s hh hr ht
  obtain ⟨n, hn, heq⟩ := addPartition_eq m name h0 ty flags (some a) fresh fresh2 s
  rw [heq L hL] at hok
  obtain ⟨-, -, sec, hm, hins⟩ := addPartitionLoop_somewhere hok
  obtain ⟨_, hpp, _⟩ := insertPartition_ok hins
  have hs' : PMap.Sorted s'.partitions := by rw [hpp]; exact PMap.insert_sorted ht.keys _ _
  rw [PMap.mem_iff_get hs', hpp, PMap.get_insert, if_pos rfl] at hp
  obtain rfl := Option.some.inj hp
  have hb := hsec.bound sec hm
  have hne := hsec.nonempty sec hm
  have hf := hr.first
  have hal := a.toNat_lt
  show sec.1 + UInt64.ofNat (offNat sec.1.toNat (some a)) = a
  have e : offNat sec.1.toNat (some a) = a.toNat - sec.1.toNat := by
    unfold offNat
    simp only
    rw [Nat.mod_eq_of_lt (a := sec.1.toNat) (by omega), Nat.mod_eq_of_lt (by omega)]
  apply UInt64.toNat_inj.mp
  have e2 : (UInt64.ofNat (offNat sec.1.toNat (some a))).toNat = a.toNat - sec.1.toNat := by
    rw [e]; exact u64_ofNat_toNat (by omega)
  rw [u64_add_toNat (by rw [e2]; omega), e2]
  omega

/-- **C63**, exactly: on disks with less than 2^63 blocks, a successful `add_partition` covers blocks that were free if and only if
overflow checks are on or the alignment is at most 2^63. With a larger alignment every success is misplaced. -/
theorem c63_exact {m : Mode} {name : String} {size : UInt64} {ty : PType} {flags : UInt64} {align : Option UInt64}
    {fresh fresh2 : Uuid} {s s' : GptDisk} {id : UInt32} {h : Header} {p : Partition} (hh : s.tryHeader = .ok h)
    (hr : Range h) (ht : Tidy h s.partitions) (hl : h.lastUsable.toNat < 2 ^ 63)
    (hok : addPartition m name size ty flags align fresh fresh2 s = (.ok id, s')) (hp : (id, p) ∈ s'.partitions) :
    (p.firstLba.toNat ≤ p.lastLba.toNat ∧ ∀ x, Covers p x → Free h s.partitions x) ↔
      m = .debug ∨ ∀ a, align = some a → a.toNat ≤ 2 ^ 63 := by
  refine ⟨?_, fun hm => c63_partial hh hr ht hm hok hp⟩
  rintro ⟨h1, h2⟩
  by_contra hc
  simp only [not_or, not_forall, Nat.not_le] at hc
  obtain ⟨-, a, rfl, ha⟩ := hc
  have hf := addPartition_beyond hh hr ht (by omega) hok hp
  have := (h2 p.firstLba.toNat ⟨Nat.le_refl _, h1⟩).2.1
  rw [hf] at this
  omega

/-- **C20**, exactly: likewise for the lowest aligned place. -/
theorem c20_exact {m : Mode} {name : String} {size : UInt64} {ty : PType} {flags : UInt64} {align : Option UInt64}
    {fresh fresh2 : Uuid} {s s' : GptDisk} {id : UInt32} {h : Header} {p : Partition} {n : Nat} (hh : s.tryHeader = .ok h)
    (hr : Range h) (ht : Tidy h s.partitions) (hl : h.lastUsable.toNat < 2 ^ 63)
    (hok : addPartition m name size ty flags align fresh fresh2 s = (.ok id, s')) (hp : (id, p) ∈ s'.partitions)
    (hn : JustEnough s.config.lbSize size.toNat n) :
    (FreeExtent h s.partitions p.firstLba.toNat n ∧ (∀ a, align = some a → a.toNat ∣ p.firstLba.toNat) ∧
      ∀ y, (∀ a, align = some a → a.toNat ∣ y) → FreeExtent h s.partitions y n → p.firstLba.toNat ≤ y) ↔
      m = .debug ∨ ∀ a, align = some a → a.toNat ≤ 2 ^ 63 := by
  refine ⟨?_, fun hm => c20_partial hh hr ht hm hok hp hn⟩
  rintro ⟨h1, -⟩
  by_contra hc
  simp only [not_or, not_forall, Nat.not_le] at hc
  obtain ⟨-, a, rfl, ha⟩ := hc
  have hf := addPartition_beyond hh hr ht (by omega) hok hp
  have h0 : size ≠ 0 := by rintro rfl; rw [addPartition_zero] at hok; simp at hok
  have hpos : 1 ≤ n := by
    rw [justEnough_unique hn (sizeLba_spec h0).1]
    exact Nat.le_add_left 1 _
  have := (h1 p.firstLba.toNat (Nat.le_refl _) (by omega)).2.1
  rw [hf] at this
  omega

/-- **C19**, exactly: on disks with less than 2^63 blocks and 2^32 - 2 slots at most, a successful `add_partition` does what it promises
if and only if, when all slots are in use, the id after them is not, and overflow checks are on or the alignment is at most 2^63. -/
theorem c19_exact {m : Mode} {name : String} {size : UInt64} {ty : PType} {flags : UInt64}
    {align : Option UInt64} {fresh fresh2 : Uuid} {s s' : GptDisk} {id : UInt32} {h : Header}
    (hh : s.tryHeader = .ok h) (hr : Range h) (ht : Tidy h s.partitions) (hl : h.lastUsable.toNat < 2 ^ 63)
    (hn : h.numParts.toNat < 2 ^ 32 - 1) (hok : addPartition m name size ty flags align fresh fresh2 s = (.ok id, s')) :
    Allocated h s s' id name size ty flags align fresh ↔
      NextFree h s.partitions ∧ (m = .debug ∨ ∀ a, align = some a → a.toNat ≤ 2 ^ 63) := by
  refine ⟨?_, fun hm => c19_partial hh hr ht hm.1 hn hm.2 hok⟩
  rintro ⟨h1, -, ⟨p, n, hp, -, -, -, -, hj, -, -, hfree, hal⟩, -⟩
  constructor
  · intro hall htk
    have h0 : size ≠ 0 := by rintro rfl; rw [addPartition_zero] at hok; simp at hok
    obtain ⟨L, hL, hsec⟩ := findFreeSectors_sections (ε := GptError) m s hh hr ht
    obtain ⟨n', hn', heq⟩ := addPartition_eq m name h0 ty flags align fresh fresh2 s
    rw [heq L hL] at hok
    obtain ⟨-, hpick, -⟩ := addPartitionLoop_somewhere hok
    have hne : s.partitions ≠ [] := by
      obtain ⟨i, q, hm, -⟩ := htk
      exact List.ne_nil_of_mem hm
    obtain ⟨r, g1, g2, g3⟩ := c24_next_id s hh ht.keys (.inl hne)
    have hnone := g3.mpr hall
    subst hnone
    rcases hpick with hpick | ⟨-, h', hh', hadd⟩
    · rw [hpick] at g1
      cases g1
    · rw [hh] at hh'
      obtain rfl := Except.ok.inj hh'
      have h32 : (1 : UInt32).toNat = 1 := rfl
      have hidn : id.toNat = h.numParts.toNat + 1 := by rw [add32_ok hadd, u32_add_toNat (by omega), h32]
      exact h1 (hidn ▸ htk)
  · by_contra hc
    simp only [not_or, not_forall, Nat.not_le] at hc
    obtain ⟨-, a, rfl, ha⟩ := hc
    have hf := addPartition_beyond hh hr ht (by omega) hok hp
    have h0 : size ≠ 0 := by rintro rfl; rw [addPartition_zero] at hok; simp at hok
    have hpos : 1 ≤ n := by
      rw [justEnough_unique hj (sizeLba_spec h0).1]
      exact Nat.le_add_left 1 _
    have := (hfree p.firstLba.toNat (Nat.le_refl _) (by omega)).2.1
    rw [hf] at this
    omega

/-- The disk of the examples: a release build places a partition with alignment 2^64 - 1 at block 2^64 - 1; the criterion says why. -/
example : ∃ s', addPartition .release "x" 17920 (exPart 0 0).partType 0 (some 0xFFFFFFFFFFFFFFFF) Uuid.nil Uuid.nil exDisk = (.ok 3, s') ∧
    ¬ Allocated exHeader exDisk s' 3 "x" 17920 (exPart 0 0).partType 0 (some 0xFFFFFFFFFFFFFFFF) Uuid.nil := by
  have h1 : (addPartition .release "x" 17920 (exPart 0 0).partType 0 (some 0xFFFFFFFFFFFFFFFF) Uuid.nil Uuid.nil exDisk).1 =
      .ok 3 := by decide +kernel
  refine ⟨_, Prod.ext h1 rfl, fun hA => ?_⟩
  rcases ((c19_exact rfl exHeader_range exTable_tidy (by decide) (by decide) (Prod.ext h1 rfl)).mp hA).2 with h | h
  · cases h
  · exact absurd (h _ rfl) (by decide)

/-! ## C28: the number of slots -/

theorem sorted_length {t : PMap} (hs : t.Pairwise (fun a b => a.1 < b.1)) (lo : Nat) (hlo : lo ≤ 2 ^ 32)
    (h : ∀ e ∈ t, lo ≤ e.1.toNat) : lo + t.length ≤ 2 ^ 32 := by
  induction t generalizing lo with
  | nil => simpa using hlo
  | cons e r ih =>
    rw [List.pairwise_cons] at hs
    have h1 := h e (by simp)
    have h2 := e.1.toNat_lt
    have := ih hs.2 (lo + 1) (by omega) fun x hx => by
      have := UInt32.lt_iff_toNat_lt.mp (hs.1 x hx)
      omega
    simp only [List.length_cons]
    omega

/-- **C28**, exactly: without permission a successful call changes the number of slots if and only if it is an `update_partitions` with
a table of fewer entries than slots, on a disk with more than 128 slots. -/
theorem c28_exact (m : Mode) (op : Op) (s : GptDisk) (h : Header) (v : OpVal) (hw : op.Wf) (hc : s.config.changePartitionCount = false)
    (hh : s.tryHeader = .ok h) (hok : (op.step m s).1 = .ok v) : ∃ h', (op.step m s).2.tryHeader = .ok h' ∧
      (h'.numParts ≠ h.numParts ↔
        128 < h.numParts.toNat ∧ ∃ pp fresh, op = .updatePartitions pp fresh ∧ pp.length < h.numParts.toNat) := by
  obtain ⟨h', e1, e2⟩ := c28_partial m op s h hc hh
  refine ⟨h', e1, ?_⟩
  by_cases hop : ∃ pp fresh, op = .updatePartitions pp fresh
  · obtain ⟨pp, fresh, rfl⟩ := hop
    have hu : (updatePartitions m pp fresh s).1 = .ok () := by
      have : (M.mapOk _ (updatePartitions m pp fresh) s).1 = .ok v := hok
      unfold M.mapOk at this
      cases hx : (updatePartitions m pp fresh s).1 with
      | ok u => rfl
      | err e => rw [hx] at this; cases this
      | panic => rw [hx] at this; cases this
    have e1' : (updatePartitions m pp fresh s).2.tryHeader = .ok h' := e1
    rcases updatePartitions_any m pp fresh s with ⟨h1, h2 | ⟨h2, -⟩⟩ | ⟨h0, _, hh0, hperm, heq⟩
    · rw [h2] at hu; cases hu
    · rw [h2] at hu; cases hu
    · rw [hh] at hh0
      obtain rfl := Except.ok.inj hh0
      have hlen : pp.length < 2 ^ 32 := by
        have := sorted_length (t := pp) hw 1 (by decide) fun e he => by
          by_contra hz
          have hz : e.1 = 0 := UInt32.toNat_inj.mp (by have : (0 : UInt32).toNat = 0 := rfl; omega)
          have : PMap.get pp 0 = some e.2 := (PMap.mem_iff_get hw).mp (by rw [← hz]; exact he)
          rw [h0] at this
          cases this
        omega
      have hle : max pp.length 128 ≤ h.numParts.toNat := by
        have := wouldChange_false h (UInt32.ofNat pp.length)
        rw [u32_ofNat_toNat hlen] at this
        rw [← this]
        cases hx : h.numPartsWouldChange (UInt32.ofNat pp.length) with
        | false => rfl
        | true => rw [hperm hx] at hc; simp at hc
      rcases hi : initHeaders m fresh (s.withParts pp) with ⟨r, s'⟩
      rw [heq, hi] at hu e1'
      simp only at hu e1'
      rcases initHeaders_numParts hi with ⟨-, h2⟩ | ⟨h2, h3, h4⟩
      · exact absurd hu h2
      · rw [e1'] at h3
        obtain rfl := Except.ok.inj h3
        have h4 : h'.numParts.toNat = max pp.length 128 := by
          rw [h4]
          show max (UInt32.ofNat pp.length).toNat 128 = _
          rw [u32_ofNat_toNat hlen]
        rw [ne_eq, ← UInt32.toNat_inj, h4]
        constructor
        · intro hne
          exact ⟨by omega, pp, fresh, rfl, by omega⟩
        · rintro ⟨g1, pp', fresh', g2, g3⟩
          cases g2
          omega
  · rcases e2 with e2 | ⟨pp, fresh, e, -⟩
    · constructor
      · intro hne; exact absurd e2 hne
      · rintro ⟨-, pp, fresh, e, -⟩
        exact absurd ⟨pp, fresh, e⟩ hop
    · exact absurd ⟨pp, fresh, e⟩ hop

/-- A disk with 256 slots loses half of them to an empty table. -/
example : ∃ h', ((Op.updatePartitions [] Uuid.nil).step .debug exWide).2.tryHeader = .ok h' ∧ h'.numParts ≠ exWideHeader.numParts := by
  have heq : updatePartitions .debug [] Uuid.nil exWide = initHeaders .debug Uuid.nil (exWide.withParts []) :=
    updatePartitions_eq rfl rfl (by decide)
  have hb : ∃ h, ((exWide.withParts []).initBuilder 399 Uuid.nil).build .debug .lb512 = .ok h ∧
      (∃ h2, backupOf .debug h .lb512 = .ok h2) := ⟨_, rfl, _, rfl⟩
  obtain ⟨h, hb, hbk, hb2⟩ := hb
  have hi := initHeaders_eq (s := exWide.withParts []) (fresh := Uuid.nil) bigDev_find hb (fun _ => hb2)
  obtain ⟨h', h1, h2⟩ := c28_exact .debug (.updatePartitions [] Uuid.nil) exWide exWideHeader .unit (by simp [Op.Wf]) rfl rfl
    (by simp only [Op.step, M.mapOk]; rw [heq, hi])
  exact ⟨h', h1, h2.mpr ⟨by decide, [], Uuid.nil, rfl, by decide⟩⟩

/-! ## C29: failed calls -/

theorem inserted_fresh {m : Mode} {id : UInt32} {p : Partition} {fresh2 : Uuid} {s s' : GptDisk} {e : GptError}
    (hs : s.partitions.Pairwise (fun a b => a.1 < b.1)) (hf : ∀ x ∈ s.partitions, x.2.partGuid ≠ p.partGuid)
    (hi : Inserted m id p fresh2 s (.err e) s') : s'.partitions = s.partitions ↔ ∀ e', e ≠ .header e' := by
  generalize hr : (Res.err e : Res GptError UInt32) = r at hi
  cases hi with
  | panic => cases hr
  | refused => cases hr; simp
  | plain => cases hr
  | rebuilt h r s' h1 h2 h3 h4 =>
    have hr := hr.symm
    rw [Res.as_eq_err] at hr
    subst hr
    obtain ⟨e', rfl⟩ := initHeaders_err h4
    have hp : s'.partitions = PMap.insert id p s.partitions := (initHeaders_same h4).partitions
    constructor
    · intro he
      exfalso
      have hm : (id, p) ∈ s'.partitions := by
        rw [hp, PMap.mem_iff_get (PMap.insert_sorted hs _ _), PMap.get_insert, if_pos rfl]
      rw [he] at hm
      exact hf _ hm rfl
    · intro he
      exact absurd rfl (he e')

/-- **C29**, exactly: a failed `add_partition` or `add_partition_at` (with a new GUID) leaves the table alone if and only if the error is
not one of the headers; so does a failed `update_partitions` with another table. -/
theorem c29_exact (m : Mode) (s : GptDisk) (e : GptError) (hs : s.partitions.Pairwise (fun a b => a.1 < b.1)) :
    (∀ name size ty flags align fresh fresh2 s', (∀ x ∈ s.partitions, x.2.partGuid ≠ fresh) →
      addPartition m name size ty flags align fresh fresh2 s = (.err e, s') →
      (s'.partitions = s.partitions ↔ ∀ e', e ≠ .header e')) ∧
    (∀ name id first length ty flags fresh fresh2 s', (∀ x ∈ s.partitions, x.2.partGuid ≠ fresh) →
      addPartitionAt m name id first length ty flags fresh fresh2 s = (.err e, s') →
      (s'.partitions = s.partitions ↔ ∀ e', e ≠ .header e')) ∧
    (∀ pp fresh s', pp ≠ s.partitions → updatePartitions m pp fresh s = (.err e, s') →
      (s'.partitions = s.partitions ↔ ∀ e', e ≠ .header e')) := by
  refine ⟨fun name size ty flags align fresh fresh2 s' hf h => ?_, fun name id first length ty flags fresh fresh2 s' hf h => ?_,
    fun pp fresh s' hne h => ?_⟩
  · rcases addPartition_any m name size ty flags align fresh fresh2 s with ⟨h1, h2⟩ | ⟨id, first, last, -, hi⟩
    · rw [h] at h1 h2
      simp only at h1 h2
      subst h1
      rcases h2 with h2 | h2 <;> cases h2
      simp
    · rw [h] at hi
      exact inserted_fresh hs hf hi
  · rcases addPartitionAt_any m name id first length ty flags fresh fresh2 s with ⟨h1, h2⟩ | ⟨-, -, -, -, hi⟩
    · rw [h] at h1 h2
      simp only at h1 h2
      subst h1
      rcases h2 with h2 | h2 | h2 <;> cases h2 <;> simp
    · rw [h] at hi
      exact inserted_fresh hs hf hi
  · rcases updatePartitions_any m pp fresh s with ⟨h1, h2⟩ | ⟨-, h0, -, -, heq⟩
    · rw [h] at h1 h2
      simp only at h1 h2
      subst h1
      rcases h2 with h2 | ⟨h2, -⟩ <;> cases h2
      simp
    · rw [h] at heq
      obtain ⟨e', rfl⟩ := initHeaders_err heq.symm
      have hp : s'.partitions = pp := (initHeaders_same heq.symm).partitions
      rw [hp]
      exact ⟨fun he => absurd he hne, fun he => absurd rfl (he e')⟩

/-- The call of `c29_fails`: the headers do not fit, the entry stays. -/
example : (addPartitionAt .debug "x" 200 80 5 (exPart 0 0).partType 0 ⟨1, 2, 3, 4⟩ Uuid.nil exDiskChange).1 = .err (.header .toSmallForBackup) ∧
    (addPartitionAt .debug "x" 200 80 5 (exPart 0 0).partType 0 ⟨1, 2, 3, 4⟩ Uuid.nil exDiskChange).2.partitions ≠ exDiskChange.partitions := by
  have h1 : (addPartitionAt .debug "x" 200 80 5 (exPart 0 0).partType 0 ⟨1, 2, 3, 4⟩ Uuid.nil exDiskChange).1 =
    .err (.header .toSmallForBackup) := by decide +kernel
  refine ⟨h1, fun h2 => ?_⟩
  exact ((c29_exact .debug exDiskChange (.header .toSmallForBackup) (by decide)).2.1 _ _ _ _ _ _ _ _ _ (by decide)
    (Prod.ext h1 rfl)).mp h2 _ rfl

/-! ## C56: entries behind 2^64 -/

/-- **C56**, exactly: a successful `write_to_device` writes the entry at its offset modulo 2^64. On a device of less than 2^64 bytes this
is its place if and only if the offset is less than 2^64; a larger offset succeeds in release builds only. -/
theorem c56_exact (m : Mode) (p : Partition) (i st : UInt64) (lb : LbSize) (sz : UInt32) (d d' : Dev)
    (hok : p.writeToDevice m i st lb sz d = (.ok (), d')) :
    StoredAt d.data d'.data ((st.toNat * lb.usize + i.toNat * sz.toNat) % 2 ^ 64) sz.toNat (byteAt (p.asBytes sz)) ∧
    (m = .debug → st.toNat * lb.usize + i.toNat * sz.toNat < 2 ^ 64) ∧
    (sz ≠ 0 → d'.data.length < 2 ^ 64 →
      (StoredAt d.data d'.data (st.toNat * lb.usize + i.toNat * sz.toNat) sz.toNat (byteAt (p.asBytes sz)) ↔
        st.toNat * lb.usize + i.toNat * sz.toNat < 2 ^ 64)) := by
  have hst : StoredAt d.data d'.data ((st.toNat * lb.usize + i.toNat * sz.toNat) % 2 ^ 64) sz.toNat (byteAt (p.asBytes sz)) ∧
      (m = .debug → st.toNat * lb.usize + i.toNat * sz.toNat < 2 ^ 64) := by
    unfold Partition.writeToDevice at hok
    simp only [M.bind_ok, M.lift_ok] at hok
    obtain ⟨a, d0, ⟨ha, e0⟩, b, d1, ⟨hb, e1⟩, c, d2, ⟨hc, e2⟩, _, d3, hseek, hw⟩ := hok
    subst e0 e1 e2
    obtain ⟨-, rfl, -⟩ := Dev.seekStart_ok hseek
    obtain ⟨hdata, -, -, -, -⟩ := Dev.writeAll_ok hw
    have ha' : checkedMul64 st lb.u64 = some a := by
      cases hx : checkedMul64 st lb.u64 with
      | none => rw [hx] at ha; cases ha
      | some x => rw [hx] at ha; cases ha; rfl
    have hb' : checkedMul64 i sz.toUInt64 = some b := by
      cases hx : checkedMul64 i sz.toUInt64 with
      | none => rw [hx] at hb; cases hb
      | some x => rw [hx] at hb; cases hb; rfl
    have f1 := (checkedMul64_some.mp ha').2
    have f2 := (checkedMul64_some.mp hb').2
    rw [lb_u64_toNat] at f1
    rw [UInt32.toNat_toUInt64] at f2
    have hc' := add64_ok hc
    have f3 : c.toNat = (st.toNat * lb.usize + i.toNat * sz.toNat) % 2 ^ 64 := by
      rw [hc', UInt64.toNat_add, f1, f2]
    constructor
    · rw [hdata, Dev.put_eq_patchW, ← f3]
      have := storedAt_patchW d2.data c.toNat (p.asBytes sz)
      rw [Partition.asBytes_length] at this
      exact this
    · rintro rfl
      unfold add64 at hc
      rw [arith_debug_ok] at hc
      have := hc.1
      rw [decide_eq_true_eq, f1, f2] at this
      exact this
  refine ⟨hst.1, hst.2, fun hz hl => ⟨fun h => ?_, fun h => ?_⟩⟩
  · have := h.length
    have hz' : sz.toNat ≠ 0 := fun h0 => hz (UInt32.toNat_inj.mp h0)
    rw [if_neg hz'] at this
    omega
  · have h1 := hst.1
    rwa [Nat.mod_eq_of_lt h] at h1

/-- Entry 4 of an array at block `2^55 - 1` goes to block 0 in a release build. -/
example : ∃ d', Partition.zero.writeToDevice .release 4 0x7fffffffffffff .lb512 128 ⟨[7], 0, 1024, [], []⟩ = (.ok (), d') ∧
    StoredAt [7] d'.data 0 128 (byteAt (Partition.zero.asBytes 128)) := by
  have h : (Partition.zero.writeToDevice .release 4 0x7fffffffffffff .lb512 128 ⟨[7], 0, 1024, [], []⟩).1 = .ok () := by
    rw [writeToDevice_fit _ _ _ (by decide) (by decide)]
    have ha : (add64 .release (0x7fffffffffffff * LbSize.lb512.u64) (4 * (128 : UInt32).toUInt64) : Res IoErr UInt64) = .ok 0 := by decide
    simp only [M.bind_apply, M.lift_apply, ha, Dev.seekStart_nil]
    rw [Dev.writeAll_nil rfl (by rw [Partition.asBytes_length]; decide)]
  generalize hx : Partition.zero.writeToDevice .release 4 0x7fffffffffffff .lb512 128 ⟨[7], 0, 1024, [], []⟩ = x at h
  obtain ⟨r, d'⟩ := x
  cases h
  have h2 := (c56_exact _ _ _ _ _ _ _ _ hx).1
  have h3 : ((0x7fffffffffffff : UInt64).toNat * LbSize.lb512.usize + (4 : UInt64).toNat * (128 : UInt32).toNat) % 2 ^ 64 = 0 := by decide
  rw [h3] at h2
  exact ⟨d', rfl, h2⟩

/-! ## C58: id 0 -/

/-- **C58**, exactly: `add_partition` returns id 0 if and only if this is a release build and all of 2^32 - 1 slots are in use. -/
theorem c58_exact {m : Mode} {name : String} {size : UInt64} {ty : PType} {flags : UInt64} {align : Option UInt64}
    {fresh fresh2 : Uuid} {s s' : GptDisk} {id : UInt32} {h : Header} (hh : s.tryHeader = .ok h)
    (hs : s.partitions.Pairwise (fun a b => a.1 < b.1)) (hok : addPartition m name size ty flags align fresh fresh2 s = (.ok id, s')) :
    id = 0 ↔ m = .release ∧ h.numParts.toNat = 2 ^ 32 - 1 ∧ ∀ j, 1 ≤ j → j ≤ h.numParts.toNat → Taken s.partitions j := by
  have hpick : PickId m s id := by
    rcases addPartition_any m name size ty flags align fresh fresh2 s with ⟨-, h2⟩ | ⟨id', first, last, hp, hi⟩
    · rw [hok] at h2
      rcases h2 with h2 | h2 <;> cases h2
    · rw [hok] at hi
      generalize hr : (Res.ok id : Res GptError UInt32) = r at hi
      have : id = id' := by
        cases hi with
        | panic => cases hr
        | refused => cases hr
        | plain => cases hr; rfl
        | rebuilt h r s' h1 h2 h3 h4 =>
          cases r with
          | ok u => cases hr; rfl
          | err e => cases hr
          | panic => cases hr
      rw [this]
      exact hp
  have h1 : (1 : UInt32).toNat = 1 := rfl
  have hlt := h.numParts.toNat_lt
  by_cases hne : s.partitions = []
  · have hid : id = 1 := by
      unfold PickId findNextPartitionId at hpick
      rw [if_pos hne] at hpick
      rcases hpick with hp | ⟨hp, -⟩
      · exact (Option.some.inj (Res.ok.inj hp)).symm
      · cases hp
    rw [hid]
    constructor
    · intro hc; cases hc
    · rintro ⟨-, hn, hall⟩
      obtain ⟨_, _, hm, -⟩ := hall 1 (by omega) (by omega)
      rw [hne] at hm
      simp at hm
  · obtain ⟨r, g1, g2, g3⟩ := c24_next_id s hh hs (.inl hne)
    rcases hpick with hp | ⟨hp, h', hh', hadd⟩
    · rw [hp] at g1
      have hsome := (Res.ok.inj g1).symm
      have hg := g2 id hsome
      constructor
      · rintro rfl
        exact absurd hg.1 (by decide)
      · rintro ⟨-, hn, hall⟩
        rw [g3.mpr hall] at hsome
        cases hsome
    · rw [hh] at hh'
      obtain rfl := Except.ok.inj hh'
      rw [hp] at g1
      have hall := g3.mp (Res.ok.inj g1).symm
      have hid := add32_ok hadd
      have hidn : id.toNat = (h.numParts.toNat + 1) % 2 ^ 32 := by rw [hid, UInt32.toNat_add, h1]
      constructor
      · rintro rfl
        have h0 : (0 : UInt32).toNat = 0 := rfl
        have hn : h.numParts.toNat = 2 ^ 32 - 1 := by omega
        refine ⟨?_, hn, hall⟩
        cases m with
        | release => rfl
        | debug =>
          unfold add32 at hadd
          rw [arith_debug_ok] at hadd
          have := hadd.1
          rw [decide_eq_true_eq] at this
          omega
      · rintro ⟨-, hn, -⟩
        apply UInt32.toNat_inj.mp
        rw [hidn, hn]
        rfl

/-- On the disk of the examples the id is 3. -/
example : ∃ s', addPartition .release "x" 512 (exPart 0 0).partType 0 none Uuid.nil Uuid.nil exDisk = (.ok 3, s') :=
  ⟨_, Prod.ext (by decide +kernel) rfl⟩

end Gpt
