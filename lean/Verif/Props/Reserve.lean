import Verif.Props.Growth
import Verif.Props.Uefi
/-!
# C125: another number of slots where the space for them is reserved
-/

namespace Gpt

open Spec GptDisk

/-- A sane disk whose backup header is in the last block of a working device; both ends of the usable range leave `k'` blocks for an array
with the slots the table `t` asks for (the UEFI specification reserves 16 KiB, i.e. 128 slots, however few there are). -/
structure Spec.Reserve (s : GptDisk) (h : Header) (k k' B : Nat) (t : PMap) : Prop where
  disk : SaneDisk s h k B
  last : s.device.data.length / s.config.lbSize.usize = B + 1
  faults : s.device.faults = []
  pos : s.device.pos < 2 ^ 64
  fits : countFor t * 128 < 2 ^ 32
  blocks : JustEnough s.config.lbSize (countFor t * 128) k'
  front : 2 + k' ≤ h.firstUsable.toNat
  behind : h.lastUsable.toNat + k' + 1 ≤ B

/-- `s1` is `s` with the table `t` and headers for as many slots as `t` asks for, in `k'` blocks at both ends. -/
structure Spec.Resized (s : GptDisk) (h : Header) (k' B : Nat) (t : PMap) (s1 : GptDisk) (h1 : Header) : Prop where
  sane : SaneDisk s1 h1 k' B
  count : h1.numParts.toNat = countFor t
  first : h1.firstUsable = h.firstUsable
  last : h1.lastUsable.toNat + k' + 1 = B
  guid : h1.diskGuid = s.guid
  table : s1.partitions = t
  config : s1.config = s.config
  device : s1.device = s.device

section
variable {m : Mode} {s s1 : GptDisk} {h h1 : Header} {k k' B : Nat} {t : PMap}

theorem reserve_init (r : Reserve s h k k' B t) (fresh : Uuid) :
    ∃ s1 h1, initHeaders m fresh (s.withParts t) = (.ok (), s1) ∧ Resized s h k' B t s1 h1 := by
  obtain ⟨hB64, hkB⟩ := sane_bounds r.disk.sane
  have hlastU := r.behind
  have hfront := r.front
  have hus := r.disk.sane.usable
  have hpos := lb_pos s.config.lbSize
  have hB := r.last
  have hlast : lastBlock s.device.data.length s.config.lbSize = B := by unfold lastBlock; omega
  have hfind := findBackupLba_nil (lb := s.config.lbSize) r.faults r.pos r.disk.length
  rw [hlast, if_neg (by rw [Nat.not_lt, ← Nat.le_div_iff_mul_le hpos]; omega)] at hfind
  have hN : (max32 (UInt32.ofNat t.length) minNumParts).toNat = countFor t := by
    rw [max32_toNat, UInt32.toNat_ofNat']
    show max (t.length % 2 ^ 32) 128 = max 128 (t.length % 2 ^ 32)
    omega
  generalize hn : max32 (UInt32.ofNat t.length) minNumParts = n at hN
  have hsane : SaneHeader s.config.lbSize k' B { h with diskGuid := s.guid, numParts := n } := by
    obtain ⟨a1, a2, a3, a4, a5, a6, a7⟩ := r.disk.sane
    exact ⟨a1, by show n.toNat * 128 < _; rw [hN]; exact r.fits, by show JustEnough _ (n.toNat * 128) _; rw [hN]; exact r.blocks, a4,
      r.front, a6, r.behind⟩
  have hb : (s.withParts t).initBuilder (UInt64.ofNat B) fresh =
      (HeaderBuilder.fromHeader { h with diskGuid := s.guid, numParts := n }).setPrimary true := by
    unfold initBuilder HeaderBuilder.fromMaybeHeader
    rw [show (s.withParts t).tryHeader = .ok h from header_try r.disk.header]
    simp only
    unfold HeaderBuilder.setPrimary HeaderBuilder.setDiskGuid HeaderBuilder.setBackupLba HeaderBuilder.setNumParts HeaderBuilder.fromHeader
    simp only [HeaderBuilder.mk.injEq, true_and, and_true]
    refine ⟨by rfl, ?_, hn⟩
    apply UInt64.toNat_inj.mp
    rw [ofNat64 hB64]
    rcases r.disk.sane.lbas with ⟨e1, e2⟩ | ⟨e1, e2⟩
    · rw [if_pos (UInt64.lt_iff_toNat_lt.mpr (by omega)), e2]
    · rw [if_neg (fun hc => by have := UInt64.lt_iff_toNat_lt.mp hc; omega), e1]
  have hbuild : ((s.withParts t).initBuilder (UInt64.ofNat B) fresh).build m s.config.lbSize =
      .ok (rebuiltP k' B { h with diskGuid := s.guid, numParts := n }) := by
    rw [hb]
    exact primaryOf_sane m hsane
  refine ⟨_, rebuiltP k' B { h with diskGuid := s.guid, numParts := n }, initHeaders_eq (s := s.withParts t) hfind hbuild (fun _ => backupOf_sane m hsane), ?_⟩
  have e : (rebuiltP k' B { h with diskGuid := s.guid, numParts := n }).lastUsable.toNat = B - k' - 1 := ofNat64 (by omega)
  obtain ⟨a1, a2, a3, a4, a5, a6, a7⟩ := hsane
  refine ⟨⟨rfl, ⟨rfl, a2, a3, .inl ⟨rfl, ofNat64 hB64⟩, a5, ?_, ?_⟩, r.disk.fits, r.disk.length⟩, hN, rfl, ?_, rfl, rfl, rfl, rfl⟩
  · rw [e]; show h.firstUsable.toNat ≤ _; omega
  · rw [e]; omega
  · rw [e]; omega

/-- **C125**: where the space is reserved, `update_partitions` with permission (or with no more slots than there are) succeeds and gives a sane
disk with the slots the new table asks for. -/
theorem c125_update (r : Reserve s h k k' B t) (h0 : PMap.get t 0 = none)
    (hperm : s.config.changePartitionCount = true ∨ countFor t ≤ h.numParts.toNat) (fresh : Uuid) :
    ∃ s1 h1, updatePartitions m t fresh s = (.ok (), s1) ∧ Resized s h k' B t s1 h1 := by
  rw [updatePartitions_eq h0 (header_try r.disk.header) fun hw => ?_]
  · exact reserve_init r fresh
  · rcases hperm with hp | hp
    · exact hp
    · rw [wouldChange_iff, UInt32.toNat_ofNat'] at hw
      unfold countFor at hp
      omega

/-- **C125**: where the space is reserved for the table that a successful call gives, the call leaves the headers alone or gives a sane disk
with the slots this table asks for. -/
theorem c125_calls (op : Op) (ha : AsksForSlots op) {v : OpVal} (hok : op.step m s = (.ok v, s1)) (r : Reserve s h k k' B s1.partitions) :
    (s1.primaryHeader = s.primaryHeader ∧ s1.backupHeader = s.backupHeader ∧ s1.device = s.device) ∨
    ∃ h1, Resized s h k' B s1.partitions s1 h1 := by
  have fin : ∀ {fresh : Uuid} {t : PMap}, initHeaders m fresh (s.withParts t) = (.ok (), s1) → ∃ h1, Resized s h k' B s1.partitions s1 h1 := by
    intro fresh t hi
    have ht : s1.partitions = t := (initHeaders_same hi).partitions
    rw [ht] at r ⊢
    obtain ⟨s2, h2, e, q⟩ := reserve_init (m := m) r fresh
    rw [hi] at e
    obtain rfl : s1 = s2 := (Prod.mk.inj e).2
    exact ⟨h2, q⟩
  have ins : ∀ {id : UInt32} {p : Partition} {f2 : Uuid} {x : Res GptError UInt32}, Inserted m id p f2 s x s1 → (∃ i, x = .ok i) →
      (s1.primaryHeader = s.primaryHeader ∧ s1.backupHeader = s.backupHeader ∧ s1.device = s.device) ∨
      ∃ h1, Resized s h k' B s1.partitions s1 h1 := by
    rintro id p f2 x hi ⟨i, rfl⟩
    have key : ∀ x, Res.ok (ε := GptError) i = x → Inserted m id p f2 s x s1 →
        (s1.primaryHeader = s.primaryHeader ∧ s1.backupHeader = s.backupHeader ∧ s1.device = s.device) ∨
        ∃ h1, Resized s h k' B s1.partitions s1 h1 := by
      intro x e hi
      cases hi with
      | panic => cases e
      | refused => cases e
      | plain h' a b => exact .inl ⟨rfl, rfl, rfl⟩
      | rebuilt h' r0 _ a b c d =>
        cases r0 with
        | ok => exact .inr (fin d)
        | err => cases e
        | panic => cases e
    exact key _ rfl hi
  cases op with
  | addPartition name size ty flags align f1 f2 =>
    have e2 : (addPartition m name size ty flags align f1 f2 s).2 = s1 := congrArg Prod.snd hok
    have e1 : ∃ i, (addPartition m name size ty flags align f1 f2 s).1 = .ok i := by
      have : ((addPartition m name size ty flags align f1 f2).mapOk OpVal.id s).1 = .ok v := congrArg Prod.fst hok
      unfold M.mapOk at this
      cases hx : (addPartition m name size ty flags align f1 f2 s).1 with
      | ok i => exact ⟨i, rfl⟩
      | err => rw [hx] at this; cases this
      | panic => rw [hx] at this; cases this
    rcases addPartition_any m name size ty flags align f1 f2 s with ⟨-, a⟩ | ⟨_, _, _, -, a⟩
    · obtain ⟨i, e1⟩ := e1
      rw [e1] at a
      rcases a with a | a <;> cases a
    · rw [e2] at a
      exact ins a e1
  | addPartitionAt name id first length ty flags f1 f2 =>
    have e2 : (addPartitionAt m name id first length ty flags f1 f2 s).2 = s1 := congrArg Prod.snd hok
    have e1 : ∃ i, (addPartitionAt m name id first length ty flags f1 f2 s).1 = .ok i := by
      have : ((addPartitionAt m name id first length ty flags f1 f2).mapOk OpVal.id s).1 = .ok v := congrArg Prod.fst hok
      unfold M.mapOk at this
      cases hx : (addPartitionAt m name id first length ty flags f1 f2 s).1 with
      | ok i => exact ⟨i, rfl⟩
      | err => rw [hx] at this; cases this
      | panic => rw [hx] at this; cases this
    rcases addPartitionAt_any m name id first length ty flags f1 f2 s with ⟨-, a⟩ | ⟨-, -, -, -, a⟩
    · obtain ⟨i, e1⟩ := e1
      rw [e1] at a
      rcases a with a | a | a <;> cases a
    · rw [e2] at a
      exact ins a e1
  | updatePartitions pp f =>
    have e : updatePartitions m pp f s = (.ok (), s1) := by
      have e2 : (updatePartitions m pp f s).2 = s1 := congrArg Prod.snd hok
      have : ((updatePartitions m pp f).mapOk (fun _ => OpVal.unit) s).1 = .ok v := congrArg Prod.fst hok
      unfold M.mapOk at this
      cases hx : (updatePartitions m pp f s).1 with
      | ok i => exact Prod.ext hx e2
      | err => rw [hx] at this; cases this
      | panic => rw [hx] at this; cases this
    rcases updatePartitions_any m pp f s with ⟨-, a⟩ | ⟨-, -, -, -, a⟩
    · rw [e] at a
      rcases a with a | ⟨a, -⟩ <;> cases a
    · rw [e] at a
      exact .inr (fin a.symm)
  | removePartition | removePartitionByGuid | takePartitions | updateGuid | updateDiskDevice | deviceMut | writeInplace => exact ha.elim

/-- **C125**: on a disk with fewer than 128 slots, without permission, nothing can be added, though there are free slots: no call succeeds, and
the disk stays as it was. -/
theorem c125_refused (op : Op) (ha : AsksForSlots op) (hh : s.tryHeader = .ok h) (hn : h.numParts.toNat < 128)
    (hc : s.config.changePartitionCount = false) : (∀ v, (op.step m s).1 ≠ .ok v) ∧ (op.step m s).2 = s := by
  have hw : ∀ id, h.numPartsWouldChange id = true := fun id => by rw [wouldChange_iff]; omega
  have ins : ∀ {id : UInt32} {p : Partition} {f2 : Uuid} {x : Res GptError UInt32} {s1 : GptDisk}, Inserted m id p f2 s x s1 →
      (∀ i, x ≠ .ok i) ∧ s1 = s := by
    intro id p f2 x s1 hi
    cases hi with
    | panic => exact ⟨(fun _ h => nomatch h), rfl⟩
    | refused => exact ⟨(fun _ h => nomatch h), rfl⟩
    | plain h' a b =>
      obtain rfl : h = h' := Except.ok.inj (hh.symm.trans a)
      rw [hw] at b
      cases b
    | rebuilt h' r0 _ a b c d => rw [hc] at c; cases c
  have map : ∀ {α : Type} (f : α → OpVal) (x : M GptDisk GptError α), (∀ i, (x s).1 ≠ .ok i) → (x s).2 = s →
      (∀ v, (x.mapOk f s).1 ≠ .ok v) ∧ (x.mapOk f s).2 = s := by
    intro α f x h1 h2
    unfold M.mapOk
    refine ⟨fun v hv => ?_, h2⟩
    cases hx : (x s).1 with
    | ok i => exact h1 i hx
    | err => rw [hx] at hv; cases hv
    | panic => rw [hx] at hv; cases hv
  cases op with
  | addPartition name size ty flags align f1 f2 =>
    rcases addPartition_any m name size ty flags align f1 f2 s with ⟨b, a⟩ | ⟨_, _, _, -, a⟩
    · refine map OpVal.id _ (fun i hi => ?_) b
      rw [hi] at a
      rcases a with a | a <;> cases a
    · exact map OpVal.id _ (ins a).1 (ins a).2
  | addPartitionAt name id first length ty flags f1 f2 =>
    rcases addPartitionAt_any m name id first length ty flags f1 f2 s with ⟨b, a⟩ | ⟨-, -, -, -, a⟩
    · refine map OpVal.id _ (fun i hi => ?_) b
      rw [hi] at a
      rcases a with a | a | a <;> cases a
    · exact map OpVal.id _ (ins a).1 (ins a).2
  | updatePartitions pp f =>
    rcases updatePartitions_any m pp f s with ⟨b, a⟩ | ⟨-, h', a1, a2, -⟩
    · refine map (fun _ => OpVal.unit) _ (fun i hi => ?_) b
      rw [hi] at a
      rcases a with a | ⟨a, -⟩ <;> cases a
    · obtain rfl : h = h' := Except.ok.inj (hh.symm.trans a1)
      have := a2 (hw _)
      rw [hc] at this
      cases this
  | removePartition | removePartitionByGuid | takePartitions | updateGuid | updateDiskDevice | deviceMut | writeInplace => exact ha.elim

/-- The calls that add one partition. -/
def Spec.AddsOne : Op → Prop
  | .addPartition .. | .addPartitionAt .. => True
  | .updatePartitions .. | .removePartition .. | .removePartitionByGuid .. | .takePartitions | .updateGuid .. | .updateDiskDevice .. |
    .deviceMut .. | .writeInplace => False

/-- **C125**: on a disk with fewer than 128 slots that reserves the space for 128, adding a partition with permission gives a sane disk with 128
slots, or fails and leaves the disk as it was (unlike C29 in general). -/
theorem c125_small (op : Op) (ha : AddsOne op) (r : Reserve s h k k' B s.partitions) (hn : h.numParts.toNat < 128) (hlen : s.partitions.length < 128) :
    ((∃ v, (op.step m s).1 = .ok v) → s.config.changePartitionCount = true ∧
      ∃ h1, Resized s h k' B (op.step m s).2.partitions (op.step m s).2 h1 ∧ h1.numParts = 128) ∧
    ((∀ v, (op.step m s).1 ≠ .ok v) → (op.step m s).2 = s) := by
  have hc : ∀ t : PMap, t.length ≤ 128 → countFor t = 128 := by
    intro t ht
    unfold countFor
    omega
  have ins : ∀ {id : UInt32} {p : Partition} {f2 : Uuid} {x : Res GptError UInt32} {s1 : GptDisk}, Inserted m id p f2 s x s1 →
      ((∃ i, x = .ok i) → s.config.changePartitionCount = true ∧ ∃ h1, Resized s h k' B s1.partitions s1 h1 ∧ h1.numParts = 128) ∧
      ((∀ i, x ≠ .ok i) → s1 = s) := by
    intro id p f2 x s1 hi
    cases hi with
    | panic => exact ⟨(fun ⟨_, h⟩ => nomatch h), fun _ => rfl⟩
    | refused => exact ⟨(fun ⟨_, h⟩ => nomatch h), fun _ => rfl⟩
    | plain h' a b =>
      obtain rfl : h = h' := Except.ok.inj ((header_try r.disk.header).symm.trans a)
      have : h.numPartsWouldChange id = true := by rw [wouldChange_iff]; omega
      rw [this] at b
      cases b
    | rebuilt h' r0 _ a b c d =>
      have hl : (PMap.insert id p s.partitions).length ≤ 128 := by
        have := PMap.insert_length (t := s.partitions) id p
        omega
      have e : countFor (PMap.insert id p s.partitions) = countFor s.partitions := by rw [hc _ hl, hc _ (by omega)]
      have r2 : Reserve s h k k' B (PMap.insert id p s.partitions) :=
        ⟨r.disk, r.last, r.faults, r.pos, by rw [e]; exact r.fits, by rw [e]; exact r.blocks, r.front, r.behind⟩
      obtain ⟨s2, h2, i1, q⟩ := reserve_init (m := m) r2 f2
      rw [d] at i1
      obtain ⟨rfl, rfl⟩ := Prod.mk.inj i1
      refine ⟨fun _ => ⟨c, h2, by rw [q.table]; exact q, UInt32.toNat_inj.mp (q.count.trans (hc _ hl))⟩, fun hno => absurd rfl (hno id)⟩
  have map : ∀ (x : M GptDisk GptError UInt32),
      ((∃ i, (x s).1 = .ok i) → s.config.changePartitionCount = true ∧ ∃ h1, Resized s h k' B (x s).2.partitions (x s).2 h1 ∧ h1.numParts = 128) ∧
        ((∀ i, (x s).1 ≠ .ok i) → (x s).2 = s) →
      ((∃ v, (x.mapOk OpVal.id s).1 = .ok v) → s.config.changePartitionCount = true ∧
        ∃ h1, Resized s h k' B (x.mapOk OpVal.id s).2.partitions (x.mapOk OpVal.id s).2 h1 ∧ h1.numParts = 128) ∧
      ((∀ v, (x.mapOk OpVal.id s).1 ≠ .ok v) → (x.mapOk OpVal.id s).2 = s) := by
    intro x hx
    unfold M.mapOk
    refine ⟨fun ⟨v, hv⟩ => hx.1 ?_, fun hno => hx.2 fun i hi => ?_⟩
    · cases h2 : (x s).1 with
      | ok i => exact ⟨i, rfl⟩
      | err => rw [h2] at hv; cases hv
      | panic => rw [h2] at hv; cases hv
    · rw [hi] at hno
      exact hno _ rfl
  cases op with
  | addPartition name size ty flags align f1 f2 =>
    rcases addPartition_any m name size ty flags align f1 f2 s with ⟨b, a⟩ | ⟨_, _, _, -, a⟩
    · refine map _ ⟨fun ⟨i, hi⟩ => ?_, fun _ => b⟩
      rw [hi] at a
      rcases a with a | a <;> cases a
    · exact map _ (ins a)
  | addPartitionAt name id first length ty flags f1 f2 =>
    rcases addPartitionAt_any m name id first length ty flags f1 f2 s with ⟨b, a⟩ | ⟨-, -, -, -, a⟩
    · refine map _ ⟨fun ⟨i, hi⟩ => ?_, fun _ => b⟩
      rw [hi] at a
      rcases a with a | a | a <;> cases a
    · exact map _ (ins a)
  | updatePartitions | removePartition | removePartitionByGuid | takePartitions | updateGuid | updateDiskDevice | deviceMut | writeInplace =>
    exact ha.elim

/-- **C125**: the resized disk can be written. This gives a disk by the rules with the new number of slots, and changes no byte of the old usable
range: no partition loses data. -/
theorem c125_write (q : Resized s h k' B t s1 h1) (ht : Tidy h t) (hro : s.config.readonlyBackup = false) (hw : s.config.writable = true)
    (hroom : (Spec.used t).length ≤ countFor t) (hsm : countFor t + 1 < 2 ^ 25) (hf : s.device.faults = [])
    (hcap : (B + 1) * s.config.lbSize.usize ≤ s.device.cap) (hB : s.device.data.length / s.config.lbSize.usize = B + 1)
    (hle : h.lastUsable.toNat + k' + 1 ≤ B) :
    ∃ s2, writeInplace m s1 = (.ok (), s2) ∧ Uefi s.config.lbSize s2.device.data (countFor t) k' B ∧
      ∀ i, h.firstUsable.toNat * s.config.lbSize.usize ≤ i → i < (h.lastUsable.toNat + 1) * s.config.lbSize.usize →
        byteAt s2.device.data i = byteAt s.device.data i := by
  have hl := q.last
  have ht1 : Tidy h1 s1.partitions := by
    rw [q.table]
    refine ⟨ht.keys, ht.order, fun p hp => ?_, ht.apart⟩
    have := ht.inside p hp
    rw [q.first]
    omega
  have hok := c62_write_succeeds m s1 h1 k' B q.sane (by rw [q.config]; exact hw) (by rw [q.table, q.count]; exact hroom)
    (by rw [q.device]; exact hf) (by rw [q.device, q.config]; exact hcap)
  have hx : writeInplace m s1 = (.ok (), (writeInplace m s1).2) := Prod.ext hok rfl
  refine ⟨_, hx, ?_, fun i b1 b2 => ?_⟩
  · have := c116_written q.sane ht1 (by rw [q.config]; exact hro) (by rw [q.device, q.config]; exact hB) (by rw [q.count]; exact hsm) hx
    rw [q.count, q.config] at this
    exact this
  · have hm : (h.lastUsable.toNat + 1) * s.config.lbSize.usize ≤ (h1.lastUsable.toNat + 1) * s.config.lbSize.usize :=
      Nat.mul_le_mul_right _ (by omega)
    rw [c32_user_blocks m s1 h1 k' B q.sane i (.inr ?_), q.device]
    rw [q.config, q.first]
    exact ⟨b1, by omega⟩

/-- **C125**: every write of a sane disk takes what was reserved behind the usable range: the usable range then ends at the array, however
short that is. -/
theorem c125_lost (hs : SaneDisk s h k B) (hx : writeInplace m s = (.ok (), s1)) :
    ∃ h1, SaneDisk s1 h1 k B ∧ h1.numParts = h.numParts ∧ h1.firstUsable = h.firstUsable ∧ h1.lastUsable.toNat + k + 1 = B := by
  have w := write_ok hs hx
  obtain ⟨hB64, hkB⟩ := sane_bounds hs.sane
  obtain ⟨a1, a2, a3, a4, a5, a6, a7⟩ := hs.sane
  have e : (rebuiltP k B h).lastUsable.toNat = B - k - 1 := ofNat64 (by omega)
  refine ⟨(rebuiltP k B h).sealed (Gpt.crc32 (tableBytes (Spec.used s.partitions) h.numParts.toNat)), ⟨?_, ?_, ?_, ?_⟩, rfl, rfl, ?_⟩
  · unfold GptDisk.header GptDisk.tryHeader
    rw [w.primary]
  · rw [w.rest.config]
    refine ⟨rfl, a2, a3, .inl ⟨rfl, ofNat64 hB64⟩, a5, ?_, ?_⟩
    · show h.firstUsable.toNat ≤ (rebuiltP k B h).lastUsable.toNat; omega
    · show (rebuiltP k B h).lastUsable.toNat + k + 1 ≤ B; omega
  · rw [w.rest.config, w.length]; exact hs.fits
  · rw [w.length]; exact hs.length
  · show (rebuiltP k B h).lastUsable.toNat + k + 1 = B; omega

/-- A write that is done makes the content reach its end. -/
theorem length_applyWrites_ge {data : Bytes} {ws : List Write} {w : Write} (hw : w ∈ ws) (hne : w.2 ≠ []) :
    w.1 + w.2.length ≤ (applyWrites data ws).length := by
  induction ws generalizing data with
  | nil => cases hw
  | cons a ws ih =>
    rw [applyWrites_cons]
    rcases List.mem_cons.mp hw with rfl | hw
    · exact (length_patchW_ge hne).trans (length_applyWrites _ _)
    · exact ih hw

/-- **C125**: and then it is too late to ask for more slots: a write after growing (C89) on a device that ends before the end of the new
backup array does not succeed. -/
theorem c125_stuck {op : Op} (hw : s.device.Works) (hg : ∀ s2, writeInplace m s1 = (.ok (), s2) → Growth m s h k k' B t op s1 s2)
    (hfree : (Spec.used t).length < countFor t) (hend : s.device.cap < (B - k) * s.config.lbSize.usize + countFor t * 128) :
    (writeInplace m s1).1 ≠ .ok () := by
  intro hok
  have hx : writeInplace m s1 = (.ok (), (writeInplace m s1).2) := Prod.ext hok rfl
  obtain ⟨h1, h2, g, -, -, -, e⟩ := growth_writes (hg _ hx)
  have hgeo := growth_geo (hg _ hx) g
  have hdv : s1.device = s.device := by rw [g.state]
  have hwk := Dev.works_frame.writeInplace m s1 (by rw [hdv]; exact hw)
  have hlen := hwk.1.length
  rw [hwk.2, hdv, e] at hlen
  have hmem : zeroW s.config.lbSize h2 (Spec.used t).length ∈ writePlan s.config.lbSize h1 (some h2) (Spec.used t) s.device.data := by
    unfold writePlan arrayPlan
    simp
  have e128 : (128 : UInt32).toNat = 128 := rfl
  have hz : (zeroW s.config.lbSize h2 (Spec.used t).length).1 + (zeroW s.config.lbSize h2 (Spec.used t).length).2.length =
      (B - k) * s.config.lbSize.usize + countFor t * 128 := by
    unfold zeroW
    simp only [zeros, List.length_replicate, g.size.2, g.sameCount, g.count, e128, hgeo.2.2.2.2.2.2.1]
    omega
  have hne : (zeroW s.config.lbSize h2 (Spec.used t).length).2 ≠ [] := by
    intro hn
    have := congrArg List.length hn
    unfold zeroW at this
    simp only [zeros, List.length_replicate, g.size.2, g.sameCount, g.count, e128, List.length_nil] at this
    omega
  have := length_applyWrites_ge (data := s.device.data) hmem hne
  omega

end

/-- The header of a disk of 80 blocks with 4 slots and 16 KiB reserved in front (or more); the usable range ends with block `last`. -/
def tinyHeader (last : UInt64) (n : UInt32) : Header :=
  { smallHeader with backupLba := 79, firstUsable := 34, lastUsable := last, numParts := n }

/-- Such a disk, with content `z`. -/
def tinyDisk (change : Bool) (last : UInt64) (z : Bytes) : GptDisk where
  config := { GptConfig.new.setWritable true with changePartitionCount := change }
  device := ⟨z, 0, 40960, [], []⟩
  guid := ⟨1, 2, 3, 4⟩
  primaryHeader := .ok (tinyHeader last 4)
  backupHeader := .error .invalidGptSignature
  partitions := []
  syncAll := false

theorem tinyDisk_sane (change : Bool) (z : Bytes) (hz : z.length = 40960) (last : UInt64) (h1 : 34 ≤ last.toNat) (h2 : last.toNat + 2 ≤ 79) :
    SaneDisk (tinyDisk change last z) (tinyHeader last 4) 1 79 := by
  have hl : (tinyDisk change last z).device.data.length = 40960 := hz
  refine ⟨rfl, ⟨rfl, (show 4 * 128 < 2 ^ 32 by decide), ⟨(show 4 * 128 ≤ 1 * 512 by decide), fun j hj => ?_⟩, .inl ⟨rfl, rfl⟩,
    (show 2 + 1 ≤ 34 by decide), h1, h2⟩, ?_, ?_⟩
  · have e : (tinyHeader last 4).numParts.toNat * 128 = 512 := rfl
    have hj : 512 ≤ j * 512 := hj
    omega
  · rw [hl]; exact (by decide : 80 * 512 ≤ 40960)
  · rw [hl]; decide

theorem tiny_just : JustEnough .lb512 (128 * 128) 32 :=
  ⟨by decide, fun j hj => by
    have e : LbSize.lb512.usize = 512 := rfl
    rw [e] at hj; omega⟩

/-- A table of one partition asks for 128 slots. -/
theorem tiny_reserve (change : Bool) (z : Bytes) (hz : z.length = 40960) :
    Reserve (tinyDisk change 46 z) (tinyHeader 46 4) 1 32 79 [(1, exPart 34 40)] := by
  have hl : (tinyDisk change 46 z).device.data.length = 40960 := hz
  refine ⟨tinyDisk_sane change z hz 46 (by decide) (by decide), ?_, rfl, (show 0 < 2 ^ 64 by decide), by decide, tiny_just, by decide, by decide⟩
  rw [hl]; exact (by decide : 40960 / 512 = 80)

/-- A disk with 4 slots and 16 KiB reserved at both ends is given a table of one partition, written, and then is by the rules with 128 slots,
whatever was on it. -/
example (m : Mode) (z : Bytes) (hz : z.length = 40960) :
    ∃ s1 s2, updatePartitions m [(1, exPart 34 40)] Uuid.nil (tinyDisk true 46 z) = (.ok (), s1) ∧ writeInplace m s1 = (.ok (), s2) ∧
      Uefi .lb512 s2.device.data 128 32 79 ∧ ∀ i, 34 * 512 ≤ i → i < 47 * 512 → byteAt s2.device.data i = byteAt z i := by
  have r := tiny_reserve true z hz
  obtain ⟨s1, h1, e, q⟩ := c125_update (m := m) r (by decide) (.inl rfl) Uuid.nil
  have ht : Tidy (tinyHeader 46 4) [(1, exPart 34 40)] := by
    refine ⟨by simp, ?_, ?_, ?_⟩
    · rintro p ⟨i, hm, -⟩
      obtain ⟨rfl, rfl⟩ := Prod.mk.inj (List.mem_singleton.mp hm)
      decide
    · rintro p ⟨i, hm, -⟩
      obtain ⟨rfl, rfl⟩ := Prod.mk.inj (List.mem_singleton.mp hm)
      decide
    · intro i j p q hi hj hne
      obtain ⟨rfl, rfl⟩ := Prod.mk.inj (List.mem_singleton.mp hi)
      obtain ⟨rfl, rfl⟩ := Prod.mk.inj (List.mem_singleton.mp hj)
      exact absurd rfl hne
  obtain ⟨s2, w, u, hb⟩ := c125_write (m := m) q ht rfl rfl (by decide) (by decide) rfl (show 80 * 512 ≤ 40960 by decide) r.last (by decide)
  exact ⟨s1, s2, e, w, u, hb⟩

/-- Without permission the same call is refused, and so is every other that would add something. -/
example (m : Mode) (z : Bytes) (pp : PMap) : (updatePartitions m pp Uuid.nil (tinyDisk false 46 z)).1 ≠ .ok () := by
  intro he
  refine (c125_refused (m := m) (s := tinyDisk false 46 z) (h := tinyHeader 46 4) (.updatePartitions pp Uuid.nil) trivial rfl (by decide) rfl).1
    OpVal.unit ?_
  show ((updatePartitions m pp Uuid.nil).mapOk (fun _ => OpVal.unit) _).1 = _
  unfold M.mapOk
  rw [he]

/-- What `add_partition` does with that disk. -/
example (m : Mode) (z : Bytes) (hz : z.length = 40960) (name : String) (size : UInt64) (ty : PType) (f1 f2 : Uuid) {v : OpVal} {s1 : GptDisk}
    (hok : (Op.addPartition name size ty 0 none f1 f2).step m (tinyDisk true 46 z) = (.ok v, s1)) :
    ∃ h1, s1.tryHeader = .ok h1 ∧ h1.numParts = 128 ∧ h1.lastUsable.toNat = 46 := by
  have r := tiny_reserve true z hz
  obtain ⟨-, h1, q, e⟩ := (c125_small (m := m) (s := tinyDisk true 46 z) (k' := 32) (Op.addPartition name size ty 0 none f1 f2) trivial
    ⟨r.disk, r.last, r.faults, r.pos, by show 128 * 128 < _; decide, tiny_just, r.front, r.behind⟩ (by decide) (show 0 < 128 by decide)).1
    (by rw [hok]; exact ⟨v, rfl⟩)
  rw [hok] at q
  have := q.last
  exact ⟨h1, header_try q.sane.header, e, by omega⟩

/-- If that disk is written before the table is replaced, the usable range ends with block 77 … -/
example (m : Mode) (z : Bytes) (hz : z.length = 40960) :
    ∃ s1 h1, writeInplace m (tinyDisk true 46 z) = (.ok (), s1) ∧ s1.tryHeader = .ok h1 ∧ h1.lastUsable.toNat = 77 ∧ h1.numParts = 4 := by
  have hs := tinyDisk_sane true z hz 46 (by decide) (by decide)
  have hok := c62_write_succeeds m _ _ _ _ hs rfl (show 0 ≤ 4 by decide) rfl (show 80 * 512 ≤ 40960 by decide)
  rcases hx : writeInplace m (tinyDisk true 46 z) with ⟨x, s1⟩
  rw [hx] at hok
  obtain rfl : x = .ok () := hok
  obtain ⟨h1, a, b, -, c⟩ := c125_lost hs hx
  exact ⟨s1, h1, rfl, header_try a.header, by omega, b⟩

theorem step_of_update {m : Mode} {pp : PMap} {f : Uuid} {s s1 : GptDisk} (hu : updatePartitions m pp f s = (.ok (), s1)) :
    (Op.updatePartitions pp f).step m s = (.ok .unit, s1) := by
  show (updatePartitions m pp f).mapOk (fun _ => OpVal.unit) s = _
  unfold M.mapOk
  rw [hu]

def tinyGrown (z : Bytes) : GptDisk :=
  { tinyDisk true 77 z with partitions := [(1, exPart 34 40)], primaryHeader := .ok (tinyHeader 77 128), backupHeader := .ok { tinyHeader 77 128 with currentLba := 79, backupLba := 1, partStart := 78 } }

theorem tiny_update (m : Mode) (z : Bytes) (hz : z.length = 40960) :
    updatePartitions m [(1, exPart 34 40)] Uuid.nil (tinyDisk true 77 z) = (.ok (), tinyGrown z) := by
  have hl : (tinyDisk true 77 z).device.data.length = 40960 := hz
  rw [updatePartitions_eq (h := tinyHeader 77 4) (by decide) rfl (fun _ => rfl)]
  have hf : findBackupLba LbSize.lb512 (tinyDisk true 77 z).device = (.ok 79, (tinyDisk true 77 z).device) := by
    have := findBackupLba_nil (lb := .lb512) (d := (tinyDisk true 77 z).device) rfl (show 0 < 2 ^ 64 by decide) (by rw [hl]; decide)
    rw [hl] at this
    exact this
  refine initHeaders_eq (s := (tinyDisk true 77 z).withParts [(1, exPart 34 40)]) (bak := 79) (h1 := tinyHeader 77 128)
    (h2 := { tinyHeader 77 128 with currentLba := 79, backupLba := 1, partStart := 78 }) hf ?_ fun _ => ?_
  · rw [show ((tinyDisk true 77 z).withParts [(1, exPart 34 40)]).initBuilder 79 Uuid.nil =
      ((tinyDisk true 77 []).withParts [(1, exPart 34 40)]).initBuilder 79 Uuid.nil from rfl]
    show HeaderBuilder.build m _ LbSize.lb512 = _
    cases m <;> decide +kernel
  · show backupOf m (tinyHeader 77 128) LbSize.lb512 = _
    cases m <;> decide +kernel

/-- … and replacing the table then still succeeds, but the disk cannot be written any more. -/
example (m : Mode) (z : Bytes) (hz : z.length = 40960) :
    updatePartitions m [(1, exPart 34 40)] Uuid.nil (tinyDisk true 77 z) = (.ok (), tinyGrown z) ∧
    (writeInplace m (tinyGrown z)).1 ≠ .ok () := by
  have hl : (tinyDisk true 77 z).device.data.length = 40960 := hz
  have hu := tiny_update m z hz
  refine ⟨hu, c125_stuck (s := tinyDisk true 77 z) (h := tinyHeader 77 4) (k := 1) (k' := 32) (B := 79) (t := [(1, exPart 34 40)])
    (op := .updatePartitions [(1, exPart 34 40)] Uuid.nil) ⟨rfl, (show 40960 < 2 ^ 64 by decide), ?_, (show 0 < 2 ^ 64 by decide)⟩ (fun s2 hx => ?_) (by decide)
    (show 40960 < 78 * 512 + 128 * 128 by decide)⟩
  · rw [hl]; exact Nat.le_refl _
  · refine ⟨tinyDisk_sane true z hz 77 (by decide) (by decide), by decide, ?_, rfl, (show 0 < 2 ^ 64 by decide), ?_, rfl, by decide, tiny_just,
      by decide, trivial, ⟨.unit, ?_⟩, rfl, ?_, hx⟩
    · rw [hl]; exact (by decide : 40960 / 512 - 1 = 79)
    · rw [hl]; decide
    · exact step_of_update hu
    · intro h' he
      obtain rfl : tinyHeader 77 128 = h' := Except.ok.inj he
      decide

end Gpt
