import Verif.Props.Ordinary
/-!
# Disks that are valid by the UEFI specification: C116

C67 is about tables that this library created. Here the table may come from any tool: all that is known is that the disk content meets
the format rules. The rules are stated on the bytes, without the model. Every such disk can be opened, used and written, what is written
meets the rules again, and what C67 leaves on a disk meets them too.
-/

namespace Gpt

open Spec GptDisk

/-- The type GUID at `off` is not zero: the slot that begins there is in use. -/
def Spec.InUse (c : Bytes) (off : Nat) : Prop := ∃ i, i < 16 ∧ byteAt c (off + i) ≠ 0

/-- A header by the rules in block `me`, for `n` entries of 128 bytes, that names `alt` as the block of the other header: signature and
checksum, revision 1.0, 92 bytes, reserved field and rest of the block zero, and the checksum of the array that it points to. -/
structure Spec.UefiHeader (lb : LbSize) (c : Bytes) (n me alt : Nat) : Prop where
  valid : ValidAt c (me * lb.usize)
  revision : num c (me * lb.usize + 8) 4 = 0x00010000
  size : num c (me * lb.usize + 12) 4 = 92
  reserved : num c (me * lb.usize + 20) 4 = 0
  current : num c (me * lb.usize + 24) 8 = me
  other : num c (me * lb.usize + 32) 8 = alt
  count : num c (me * lb.usize + 80) 4 = n
  entry : num c (me * lb.usize + 84) 4 = 128
  parts : num c (me * lb.usize + 88) 4 = (crc32 (slice c (num c (me * lb.usize + 72) 8 * lb.usize) (n * 128))).toNat
  rest : ∀ i, 92 ≤ i → i < lb.usize → byteAt c (me * lb.usize + i) = 0

/-- A disk by the rules, with `n` entries in `k` blocks and the backup header in block `B`: less than 4 GiB of entries
(also fewer than 128 of them), both headers, in the first and the last whole block behind the boot record, that agree; the arrays, with the same content, wholly
in front of and behind the usable blocks; the extents of the used slots inside the usable blocks and disjoint. -/
structure Spec.Uefi (lb : LbSize) (c : Bytes) (n k B : Nat) : Prop where
  blocks : c.length / lb.usize = B + 1
  small : n + 1 < 2 ^ 25
  array : JustEnough lb (n * 128) k
  primary : UefiHeader lb c n 1 B
  backup : UefiHeader lb c n B 1
  first : num c (1 * lb.usize + 40) 8 = num c (B * lb.usize + 40) 8
  last : num c (1 * lb.usize + 48) 8 = num c (B * lb.usize + 48) 8
  guid : slice c (1 * lb.usize + 56) 16 = slice c (B * lb.usize + 56) 16
  arrays : slice c (num c (1 * lb.usize + 72) 8 * lb.usize) (n * 128) = slice c (num c (B * lb.usize + 72) 8 * lb.usize) (n * 128)
  front : 2 ≤ num c (1 * lb.usize + 72) 8 ∧ num c (1 * lb.usize + 72) 8 + k ≤ num c (1 * lb.usize + 40) 8
  usable : num c (1 * lb.usize + 40) 8 ≤ num c (1 * lb.usize + 48) 8
  behind : num c (1 * lb.usize + 48) 8 < num c (B * lb.usize + 72) 8 ∧ num c (B * lb.usize + 72) 8 + k ≤ B
  inside : ∀ j, j < n → InUse c (num c (1 * lb.usize + 72) 8 * lb.usize + 128 * j) →
    num c (1 * lb.usize + 40) 8 ≤ num c (num c (1 * lb.usize + 72) 8 * lb.usize + 128 * j + 32) 8 ∧
    num c (num c (1 * lb.usize + 72) 8 * lb.usize + 128 * j + 32) 8 ≤ num c (num c (1 * lb.usize + 72) 8 * lb.usize + 128 * j + 40) 8 ∧
    num c (num c (1 * lb.usize + 72) 8 * lb.usize + 128 * j + 40) 8 ≤ num c (1 * lb.usize + 48) 8
  apart : ∀ i j, i < j → j < n → InUse c (num c (1 * lb.usize + 72) 8 * lb.usize + 128 * i) →
    InUse c (num c (1 * lb.usize + 72) 8 * lb.usize + 128 * j) →
    num c (num c (1 * lb.usize + 72) 8 * lb.usize + 128 * i + 40) 8 < num c (num c (1 * lb.usize + 72) 8 * lb.usize + 128 * j + 32) 8 ∨
    num c (num c (1 * lb.usize + 72) 8 * lb.usize + 128 * j + 40) 8 < num c (num c (1 * lb.usize + 72) 8 * lb.usize + 128 * i + 32) 8

/-- The calls of a session on a disk with `n` entries: as in C67, but `update_partitions` (which makes a table of 128 entries, C28) only if
there were 128. -/
def Spec.OrdinaryOn (n : Nat) (s : GptDisk) : Op → Prop
  | .updatePartitions pp f => n = 128 ∧ Ordinary s (.updatePartitions pp f)
  | op => Ordinary s op

/-- The states of a session that starts with opening `d`. -/
inductive Spec.Opening (m : Mode) (cfg : GptConfig) (n : Nat) (d : Dev) : GptDisk → Prop
  | start {s : GptDisk} {d' : Dev} : openFromDevice m cfg d = (.ok s, d') → Opening m cfg n d s
  | call {s : GptDisk} (op : Op) : Opening m cfg n d s → OrdinaryOn n s op → Opening m cfg n d (op.step m s).2
  | reopen {s s1 s2 : GptDisk} {d' : Dev} : Opening m cfg n d s → writeInplace m s = (.ok (), s1) →
      openFromDevice m cfg s1.device = (.ok s2, d') → Opening m cfg n d s2

/-- The setting: `d` is a working device below 2^60 bytes with a disk by the rules, and `s` is reached from it in a session under a
writable configuration that keeps the number of entries. -/
structure Spec.OnUefi (m : Mode) (cfg : GptConfig) (n k B : Nat) (d : Dev) (s : GptDisk) : Prop where
  works : d.Works
  small : d.data.length < 2 ^ 60
  disk : Uefi cfg.lbSize d.data n k B
  writable : cfg.writable = true
  count : cfg.changePartitionCount = false
  headers : cfg.onlyValidHeaders = true → cfg.readonlyBackup = false
  session : Opening m cfg n d s

/-! ## The invariant -/

/-- As `Sound`, for `n` entries and any usable range. -/
structure Steady (cfg : GptConfig) (n k B : Nat) (d0 : Dev) (h : Header) (s : GptDisk) : Prop where
  config : s.config = cfg
  sane : SaneDisk s h k B
  count : h.numParts.toNat = n
  table : Tidy h s.partitions
  ids : ∀ i p, (i, p) ∈ s.partitions → 1 ≤ i.toNat ∧ i.toNat ≤ n
  works : s.device.Works
  cap : s.device.cap = d0.cap
  length : s.device.data.length = d0.data.length
  bytes : ∀ i, ¬ InPrimary cfg.lbSize n i → ¬ InBackup cfg.lbSize n k B i → byteAt s.device.data i = byteAt d0.data i

section
variable {m : Mode} {cfg : GptConfig} {n k B : Nat} {d0 : Dev} {h : Header} {s : GptDisk}

theorem Steady.entries (v : Steady cfg n k B d0 h s) : s.partitions.length ≤ n :=
  keys_length (lo := 0) v.table.keys fun i p hm => v.ids i p hm

theorem Steady.room (v : Steady cfg n k B d0 h s) : (Spec.used s.partitions).length ≤ h.numParts.toNat := by
  rw [v.count]
  exact (used_length_le _).trans v.entries

theorem Steady.blocks (v : Steady cfg n k B d0 h s) (hB : d0.data.length / cfg.lbSize.usize = B + 1) :
    s.device.data.length / s.config.lbSize.usize = B + 1 := by rw [v.length, v.config]; exact hB

theorem Steady.withTable (v : Steady cfg n k B d0 h s) {t : PMap} (ht : Tidy h t) (hi : ∀ i p, (i, p) ∈ t → 1 ≤ i.toNat ∧ i.toNat ≤ n) :
    Steady cfg n k B d0 h (s.withParts t) :=
  ⟨v.config, ⟨v.sane.header, v.sane.sane, v.sane.fits, v.sane.length⟩, v.count, ht, hi, v.works, v.cap, v.length, v.bytes⟩

theorem Steady.removed (v : Steady cfg n k B d0 h s) (id : UInt32) : Steady cfg n k B d0 h (s.withParts (PMap.remove s.partitions id)) :=
  v.withTable (tidy_remove v.table id) fun i p hm => v.ids i p (PMap.mem_remove.mp hm).1

theorem Steady.inserted (v : Steady cfg n k B d0 h s) (hc : cfg.changePartitionCount = false) {id : UInt32} {p : Partition} {fresh2 : Uuid}
    {r : Res GptError UInt32} {s' : GptDisk} (hi : Inserted m id p fresh2 s r s')
    (ht : ∀ id', r = .ok id' → id ≠ 0 ∧ Tidy h (PMap.insert id p s.partitions)) : Steady cfg n k B d0 h s' := by
  cases hi with
  | panic => exact v
  | refused => exact v
  | plain h' hh hw =>
    obtain rfl := Except.ok.inj ((header_try v.sane.header).symm.trans hh)
    have := (wouldChange_false _ _).mp hw
    rw [v.count] at this
    obtain ⟨h0, h1⟩ := ht id rfl
    refine v.withTable h1 fun i q hm => ?_
    rcases PMap.mem_insert_subset hm with e | e
    · cases e
      refine ⟨?_, by omega⟩
      rcases Nat.eq_zero_or_pos id.toNat with e | e
      · exact absurd (UInt32.toNat_inj.mp e) h0
      · exact e
    · exact v.ids i q e
  | rebuilt _ _ _ _ _ hp => rw [v.config, hc] at hp; cases hp

theorem Steady.neat (v : Steady cfg n k B d0 h s) : NeatHeader s.config.lbSize h where
  size := v.sane.sane.entry
  small := v.sane.sane.count
  first := by
    have e := v.sane.sane.first
    obtain ⟨-, e2⟩ := blocksFor_spec (h.numParts.toNat * 128) s.config.lbSize
    have hle := v.sane.sane.arrays.enough
    have hlt : blocksFor (h.numParts.toNat * 128) s.config.lbSize * s.config.lbSize.usize < (k + 1) * s.config.lbSize.usize := by
      rw [Nat.add_mul, Nat.one_mul]; omega
    have := Nat.lt_of_mul_lt_mul_right hlt
    omega
  order := v.sane.sane.usable
  last := by
    obtain ⟨hB, _⟩ := sane_bounds v.sane.sane
    have := v.sane.sane.last
    omega

/-- One call. -/
theorem Steady.step (v : Steady cfg n k B d0 h s) (hw : cfg.writable = true) (hc : cfg.changePartitionCount = false)
    (hB : d0.data.length / cfg.lbSize.usize = B + 1) (op : Op) (ho : OrdinaryOn n s op) : ∃ h', Steady cfg n k B d0 h' (op.step m s).2 := by
  have hh := header_try v.sane.header
  obtain ⟨hB64, hkB⟩ := sane_bounds v.sane.sane
  have hlast := v.sane.sane.last
  have hsm := v.sane.sane.count
  have hent := v.entries
  rw [v.count] at hsm
  have h1 : (1 : UInt64).toNat = 1 := rfl
  cases op with
  | addPartition name size ty flags align fresh fresh2 =>
    show ∃ h', Steady cfg n k B d0 h' (addPartition m name size ty flags align fresh fresh2 s).2
    refine ⟨h, ?_⟩
    rcases hx : addPartition m name size ty flags align fresh fresh2 s with ⟨r, s'⟩
    have hany := addPartition_any m name size ty flags align fresh fresh2 s
    rw [hx] at hany
    cases r with
    | ok id =>
      obtain ⟨-, -, hpick, start, x, hn1, hfree, -, -, hend, hins⟩ := addPartition_ok hh v.neat.range v.table (.inr fun a ha => (ho.2 a ha).2) hx
      have hia := insertPartition_any m name id start x ty flags fresh fresh2 s
      rw [hins] at hia
      have hpos : 1 ≤ x.toNat := by rw [hn1]; exact Nat.le_add_left 1 _
      have hsum : (start + x).toNat = start.toNat + x.toNat := u64_add_toNat (by omega)
      refine v.inserted hc hia fun _ _ => ⟨pickId_ne_zero v.table.keys hpick (.inr (by omega)), tidy_insert v.table hfree hpos rfl ?_⟩
      show (start + x - 1).toNat + 1 = start.toNat + x.toNat
      rw [u64_sub_toNat (by omega), hsum, h1]
      omega
    | err e =>
      rcases hany with ⟨rfl, -⟩ | ⟨_, _, _, _, hi⟩
      · exact v
      · exact v.inserted hc hi fun _ e => by cases e
    | panic =>
      rcases hany with ⟨rfl, -⟩ | ⟨_, _, _, _, hi⟩
      · exact v
      · exact v.inserted hc hi fun _ e => by cases e
  | addPartitionAt name id first length ty flags fresh fresh2 =>
    show ∃ h', Steady cfg n k B d0 h' (addPartitionAt m name id first length ty flags fresh fresh2 s).2
    refine ⟨h, ?_⟩
    rcases addPartitionAt_any m name id first length ty flags fresh fresh2 s with ⟨e, -⟩ | ⟨hid, h0, -, -, hi⟩
    · rw [e]; exact v
    · have hfree := ho.2.2 h hh
      have hpos : 1 ≤ length.toNat := by
        rcases Nat.eq_zero_or_pos length.toNat with e | e
        · exact absurd (UInt64.toNat_inj.mp e) h0
        · exact e
      have hend := (hfree (first.toNat + length.toNat - 1) (by omega) (by omega)).2.1
      have hsum : (first + length).toNat = first.toNat + length.toNat := u64_add_toNat (by omega)
      refine v.inserted hc hi fun _ _ => ⟨hid, tidy_insert v.table hfree hpos rfl ?_⟩
      show (first + length - 1).toNat + 1 = first.toNat + length.toNat
      rw [u64_sub_toNat (by omega), hsum, h1]
      omega
  | removePartition id =>
    refine ⟨h, ?_⟩
    show Steady cfg n k B d0 h (removePartition (ε := GptError) id s).2
    unfold removePartition
    split
    · exact v.removed _
    · exact v
  | removePartitionByGuid g =>
    refine ⟨h, ?_⟩
    show Steady cfg n k B d0 h (removePartitionByGuid (ε := GptError) g s).2
    unfold removePartitionByGuid
    split
    · exact v.removed _
    · exact v
  | takePartitions => exact ⟨h, v.withTable (tidy_nil h) (fun _ _ hm => nomatch hm)⟩
  | updateGuid u r =>
    exact ⟨h, v.config, ⟨v.sane.header, v.sane.sane, v.sane.fits, v.sane.length⟩, v.count, v.table, v.ids, v.works, v.cap, v.length, v.bytes⟩
  | updateDiskDevice d w => exact ho.elim
  | deviceMut d => exact ho.elim
  | updatePartitions pp fresh =>
    obtain ⟨rfl, ho⟩ := ho
    have ht := ho.2 h hh
    have hlen : pp.length ≤ 128 := keys_length (lo := 0) ht.keys fun i p hm => ho.1 i p hm
    have h0 : PMap.get pp 0 = none := by
      cases hg : PMap.get pp 0 with
      | none => rfl
      | some p => exact absurd (ho.1 0 p (PMap.mem_of_get hg)).1 (by decide)
    rw [step_updatePartitions, updatePartitions_sane v.sane (UInt32.toNat_inj.mp v.count) hlen h0 v.works.faults v.works.pos (v.blocks hB)]
    have hl : (rebuiltP k B { h with diskGuid := s.guid }).lastUsable.toNat = B - k - 1 := ofNat64 (by omega)
    refine ⟨_, v.config, reinit_sane v.sane pp, v.count, tidy_wider ht (Nat.le_refl _) (by rw [hl]; omega), ho.1,
      v.works, v.cap, v.length, v.bytes⟩
  | writeInplace =>
    have hok := write_nil (m := m) v.sane (by rw [v.config]; exact hw) v.room v.works.faults
      (v.sane.fits.trans v.works.length)
    have hwk := Dev.works_frame.writeInplace m s v.works
    show ∃ h', Steady cfg n k B d0 h' (writeInplace m s).2
    have hconf := fun i => c32_confined m s h k B v.sane i
    rcases hx : writeInplace m s with ⟨r, s'⟩
    rw [hx] at hok hwk hconf
    simp only at hok hwk hconf
    subst hok
    have w := write_ok v.sane hx
    have hl : (rebuiltP k B h).lastUsable.toNat = B - k - 1 := ofNat64 (by omega)
    refine ⟨_, w.rest.config.trans v.config, w.saneDisk v.sane, v.count, ?_, ?_, hwk.1, hwk.2.trans v.cap, w.length.trans v.length, fun i hp hb => ?_⟩
    · rw [w.rest.partitions]
      exact tidy_wider v.table (Nat.le_refl _) (by show _ ≤ (rebuiltP k B h).lastUsable.toNat; rw [hl]; omega)
    · rw [w.rest.partitions]; exact v.ids
    · rw [(hconf i (by rw [v.count, v.config]; exact hp) (by rw [v.count, v.config]; exact hb)).1]
      exact v.bytes i hp hb

/-- Writing and opening again. -/
theorem Steady.reopen (v : Steady cfg n k B d0 h s) (hB : d0.data.length / cfg.lbSize.usize = B + 1)
    (hro : cfg.onlyValidHeaders = true → cfg.readonlyBackup = false) (hw : cfg.writable = true) (hc : cfg.changePartitionCount = false)
    {s1 : GptDisk} (h1 : writeInplace m s = (.ok (), s1)) :
    ∃ s2 d2 h2, openFromDevice m cfg s1.device = (.ok s2, d2) ∧ Steady cfg n k B d0 h2 s2 ∧ s2.guid = h.diskGuid ∧
      s2.partitions = numberFrom 0 (Spec.used s.partitions) ∧ Numbered (Spec.used s.partitions) s2.partitions := by
  obtain ⟨h', v1⟩ := v.step hw hc hB .writeInplace trivial (m := m)
  have e1 : ((Op.writeInplace.step m s).2 : GptDisk) = s1 := by
    show (writeInplace m s).2 = s1
    rw [h1]
  rw [e1] at v1
  have w := write_ok v.sane h1
  have hs1 := w.saneDisk v.sane
  obtain rfl := Except.ok.inj ((header_try v1.sane.header).symm.trans (header_try hs1.header))
  have hroom := v.room
  have hcount := v.sane.sane.count
  obtain ⟨b, p, e⟩ := open_written (m' := m) (cfg := cfg) (d := s1.device) v.sane h1 rfl v1.works.faults v1.works.pos (by rw [v.config])
    (fun hv => by
      have := c30_backup_valid m s s1 h k B v.sane h1 (by rw [v.config]; exact hro hv) (v.blocks hB)
      rw [v.config] at this
      exact this)
  have hp : p < 2 ^ 64 := by
    have := (Dev.works_frame.openFromDevice m cfg s1.device v1.works).1.pos
    rw [e] at this
    exact this
  have hcfg : s1.config = cfg := v1.config
  refine ⟨_, _, _, e, ⟨rfl, ⟨rfl, ?_, ?_, v1.sane.length⟩, v1.count, ?_, ?_, ⟨v1.works.faults, v1.works.cap, v1.works.length, hp⟩,
    v1.cap, v1.length, v1.bytes⟩, rfl, rfl, numbered_numberFrom (by omega)⟩
  · show SaneHeader cfg.lbSize k B _
    rw [← hcfg]; exact v1.sane.sane
  · show _ * cfg.lbSize.usize ≤ s1.device.data.length
    rw [← hcfg]; exact v1.sane.fits
  · have ht := v1.table
    rw [w.rest.partitions] at ht
    exact tidy_numbered ht (by omega)
  · intro i q hm
    obtain ⟨j, hj, e⟩ := mem_numberFrom hm
    cases e
    have : (UInt32.ofNat (0 + j + 1)).toNat = j + 1 := by rw [UInt32.toNat_ofNat', Nat.mod_eq_of_lt (by omega)]; omega
    have := v.count
    omega

theorem Steady.modest (v : Steady cfg n k B d0 h s) (hB : B < 2 ^ 51) (hn : n + 1 < 2 ^ 25) : Modest h s.partitions := by
  obtain ⟨-, hkB⟩ := sane_bounds v.sane.sane
  have hf := v.sane.sane.first
  have hl := v.sane.sane.last
  have hc := v.count
  have he := v.entries
  refine ⟨by omega, by omega, ?_, ?_, by omega, v.sane.sane.entry, by omega, fun p hp => ?_⟩
  · rcases v.sane.sane.lbas with ⟨e1, e2⟩ | ⟨e1, e2⟩ <;> omega
  · rcases v.sane.sane.lbas with ⟨e1, e2⟩ | ⟨e1, e2⟩ <;> omega
  · have := v.table.inside p hp
    have := v.table.order p hp
    omega

theorem Steady.noPanic (v : Steady cfg n k B d0 h s) (hB : B < 2 ^ 51) (hn : n + 1 < 2 ^ 25) (op : Op) (ho : OrdinaryOn n s op) :
    (op.step m s).1 ≠ .panic := by
  have hh := header_try v.sane.header
  refine step_noPanic hh v.sane.sane.entry ?_ (.inr ⟨v.modest hB hn, ?_⟩)
  · cases op with
    | addPartition => exact ⟨ho.1, fun e => (ho.2 0 e).1 rfl⟩
    | addPartitionAt => exact ⟨ho.1, ho.2.1⟩
    | updatePartitions => exact fun p hm => absurd (ho.2.1 _ _ hm).1 (by decide)
    | _ => trivial
  · cases op with
    | addPartition => exact fun a ha => (ho.2 a ha).2
    | addPartitionAt _ _ first length =>
      have hl := v.sane.sane.last
      show first.toNat + length.toNat < 2 ^ 64
      have hpos : 1 ≤ length.toNat := by
        rcases Nat.eq_zero_or_pos length.toNat with e | e
        · exact absurd (UInt64.toNat_inj.mp e) ho.2.1
        · exact e
      have := (ho.2.2 h hh (first.toNat + length.toNat - 1) (by omega) (by omega)).2.1
      omega
    | updatePartitions pp =>
      have : pp.length ≤ 128 := keys_length (lo := 0) (ho.2.2 h hh).keys fun i p hm => ho.2.1 i p hm
      show pp.length < 2 ^ 25
      omega
    | _ => trivial

end

/-! ## Opening -/

theorem leVal_append (a b : Bytes) : leVal (a ++ b) = leVal a + 256 ^ a.length * leVal b := by
  induction a with
  | nil => simp [leVal]
  | cons x xs ih =>
    simp only [List.cons_append, leVal, ih, List.length_cons, Nat.pow_succ]
    rw [Nat.mul_add, Nat.mul_comm (256 ^ xs.length) 256, Nat.mul_assoc, Nat.add_assoc]

theorem num_halves {c : Bytes} {off : Nat} (h : off + 4 ≤ c.length) : num c off 4 = num c off 2 + 65536 * num c (off + 2) 2 := by
  unfold num
  rw [show (4 : Nat) = 2 + 2 from rfl, slice_add, leVal_append, slice_length_of_le (by omega)]
  rfl

theorem inUse_iff {c : Bytes} {off : Nat} {p : Partition} (hl : off + 16 ≤ c.length) (he : EntryAt c off p) :
    InUse c off ↔ p.partType.guid ≠ Uuid.nil := by
  have h1 := (ofDisk_iff hl).mpr he.type
  have h2 : slice c off 16 = zeros 16 ↔ Uuid.ofDisk c off = Uuid.nil := by
    rw [ofDisk_iff hl]
    have : guidBytes Uuid.nil = (zeros 16).map UInt8.toNat := by decide
    rw [this]
    exact ⟨fun e => by rw [e], fun e => (map_toNat_inj e).symm⟩
  rw [← h1, ne_eq, ← h2]
  constructor
  · rintro ⟨i, hi, hne⟩ e
    apply hne
    have := byteAt_slice c off 16 i
    rw [if_pos hi, e, byteAt_zeros] at this
    exact this.symm
  · intro hne
    by_contra hno
    refine hne (slice_eq_of_byteAt hl (zeros_length _) fun i hi => ?_)
    rw [byteAt_zeros]
    by_contra hx
    exact hno ⟨i, hi, hx⟩

theorem inUse_full {c : Bytes} {off j : Nat} (h : InUse c (off + 128 * j)) : SlotFull c off j := by
  obtain ⟨i, hi, hne⟩ := h
  exact ⟨i, by omega, hne⟩

section
variable {m : Mode} {cfg : GptConfig} {n k B : Nat} {d : Dev}

theorem Spec.Uefi.length {lb : LbSize} {c : Bytes} (u : Uefi lb c n k B) : (B + 1) * lb.usize ≤ c.length := by
  rw [← u.blocks]; exact Nat.div_mul_le_self _ _

/-- The primary array lies on the disk. -/
theorem Spec.Uefi.fits {lb : LbSize} {c : Bytes} (u : Uefi lb c n k B) : num c (1 * lb.usize + 72) 8 * lb.usize + n * 128 ≤ c.length := by
  have h1 := u.front.2
  have h2 := u.usable
  have h3 := u.behind
  have h4 : (num c (1 * lb.usize + 72) 8 + k) * lb.usize ≤ (B + 1) * lb.usize := Nat.mul_le_mul_right _ (by omega)
  have h5 := u.array.enough
  have h6 := u.length
  rw [Nat.add_mul] at h4
  omega

/-- Opening a disk by the rules. -/
theorem open_uefi (hf : d.faults = []) (hp : d.pos < 2 ^ 64) (hlen : d.data.length < 2 ^ 64) (u : Uefi cfg.lbSize d.data n k B) :
    ∃ s d' h b, openFromDevice m cfg d = (.ok s, d') ∧ s.primaryHeader = .ok h ∧ s.backupHeader = .ok b ∧ s.tryHeader = .ok h ∧
      HeaderAt d.data (1 * cfg.lbSize.usize) h ∧ HeaderAt d.data (B * cfg.lbSize.usize) b := by
  obtain ⟨h1, h2, c1, c2, -, -, e⟩ := open_headers (m := m) (cfg := cfg) hf hp hlen
  obtain ⟨h, hh⟩ := validAt_header u.primary.valid
  obtain ⟨b, hb⟩ := validAt_header u.backup.valid
  have hlb : lastBlockOffset cfg.lbSize d.data = B * cfg.lbSize.usize := by unfold lastBlockOffset; rw [u.blocks, Nat.add_sub_cancel]
  have q1 := u.front
  have q2 := u.usable
  have q3 := u.behind
  have hl3 : 3 * cfg.lbSize.usize ≤ d.data.length := (Nat.mul_le_mul_right _ (by omega)).trans u.length
  have r1 : h1 = .ok h := (c1 h).mpr ⟨by have := u.primary.valid; rw [Nat.one_mul] at this; exact this, by rw [Nat.one_mul] at hh; exact hh⟩
  have r2 : h2 = .ok b := (c2 b).mpr ⟨⟨hl3, by rw [hlb]; exact u.backup.valid⟩, by rw [hlb]; exact hb⟩
  subst r1 r2
  have hsel : selectHeader cfg.onlyValidHeaders (.ok h) (.ok b) = .ok h := select_spec.1 h |>.mpr (.inl ⟨rfl, fun _ => ⟨b, rfl⟩⟩)
  rw [hsel] at e
  simp only at e
  have hn : h.numParts.toNat = n := hh.count.trans u.primary.count
  have h128 : h.partSize = 128 := UInt32.toNat_inj.mp (hh.entry.trans u.primary.entry)
  have hfit := u.fits
  have hsm := u.small
  rw [← hh.start] at hfit
  obtain ⟨p, e2⟩ := fileReadPartitions_nil (m := m) (h := h) (lb := cfg.lbSize) hf (by omega) h128 (by rw [hn]; omega) (.inr (by omega))
  have hcrc : crc32 (slice d.data (h.partStart.toNat * cfg.lbSize.usize) (128 * h.numParts.toNat)) = h.crc32Parts := by
    rw [← UInt32.toNat_inj, hn, hh.parts, u.primary.parts, hh.start, Nat.mul_comm 128]
  rw [if_pos hcrc] at e2
  unfold openRest at e
  simp only [M.bind_apply, M.mapErr_apply, e2, M.get_apply, M.pure_apply] at e
  exact ⟨_, _, h, b, e, rfl, rfl, rfl, hh, hb⟩

/-- The disk just opened meets the invariant. -/
theorem steady_open (hwk : d.Works) (hlen : d.data.length < 2 ^ 60) (u : Uefi cfg.lbSize d.data n k B) {s : GptDisk} {d' : Dev}
    (hok : openFromDevice m cfg d = (.ok s, d')) : ∃ h, Steady cfg n k B d h s ∧ HeaderAt d.data (1 * cfg.lbSize.usize) h := by
  obtain ⟨s', d2, h, b, e, -, -, ht, hh, -⟩ := open_uefi (m := m) hwk.faults hwk.pos (by omega) u
  obtain ⟨rfl, rfl⟩ : s' = s ∧ d2 = d' := by rw [hok] at e; cases e; exact ⟨rfl, rfl⟩
  obtain ⟨h', hh', -, hcfg, hdata, hdev, hsort, hslots, hall⟩ := c45_reflects m cfg d d2 s' hok
  obtain rfl : h' = h := Except.ok.inj ((header_try hh').symm.trans ht)
  have hwk2 := Dev.works_frame.openFromDevice m cfg d hwk
  rw [hok] at hwk2
  have hn : h'.numParts.toNat = n := hh.count.trans u.primary.count
  have h128 : h'.partSize = 128 := UInt32.toNat_inj.mp (hh.entry.trans u.primary.entry)
  have q1 := u.front
  have q2 := u.usable
  have q3 := u.behind
  have hsm := u.small
  have hfit := u.fits
  rw [hh.start.symm] at q1 hfit
  rw [hh.first.symm] at q1 q2
  rw [hh.last.symm] at q2 q3
  have hlb := hh.current.trans u.primary.current
  have hla := hh.backup.trans u.primary.other
  have hin := u.inside
  have hap := u.apart
  rw [hh.start.symm, hh.first.symm, hh.last.symm] at hin
  rw [hh.start.symm] at hap
  have hslot : ∀ i p, (i, p) ∈ s'.partitions → p.partType.guid ≠ Uuid.nil →
      i.toNat - 1 < n ∧ EntryAt d.data (h'.partStart.toNat * cfg.lbSize.usize + 128 * (i.toNat - 1)) p ∧
      InUse d.data (h'.partStart.toNat * cfg.lbSize.usize + 128 * (i.toNat - 1)) := by
    intro i p hm hu
    obtain ⟨a1, a2, -, a4, -⟩ := hslots i p hm
    exact ⟨by omega, a4, (inUse_iff (by omega) a4).mpr hu⟩
  refine ⟨h', ⟨hcfg, ⟨hh', ⟨h128, by omega, ?_, .inl ⟨hlb, hla⟩, by omega, q2, by omega⟩, ?_, ?_⟩, hn, ⟨hsort, ?_, ?_, ?_⟩, ?_, ?_, ?_, ?_, ?_⟩, hh⟩
  · rw [hcfg, hn]; exact u.array
  · rw [hcfg, hdev, hdata]; exact u.length
  · rw [hdev, hdata]; omega
  · rintro p ⟨i, hm, hu⟩
    obtain ⟨a1, a2, a3⟩ := hslot i p hm hu
    rw [a2.first, a2.last]
    exact (hin _ a1 a3).2.1
  · rintro p ⟨i, hm, hu⟩
    obtain ⟨a1, a2, a3⟩ := hslot i p hm hu
    rw [a2.first, a2.last]
    exact ⟨(hin _ a1 a3).1, (hin _ a1 a3).2.2⟩
  · intro i j p q hi hj hij hu hv x hx
    obtain ⟨a1, a2, a3⟩ := hslot i p hi hu
    obtain ⟨b1, b2, b3⟩ := hslot j q hj hv
    have ki := (hslots i p hi).1
    have kj := (hslots j q hj).1
    have hne : i.toNat - 1 ≠ j.toNat - 1 := fun e => hij (UInt32.toNat_inj.mp (by omega))
    unfold Covers at hx
    rw [a2.first, a2.last, b2.first, b2.last] at hx
    rcases Nat.lt_or_gt_of_ne hne with hlt | hlt
    · have := hap _ _ hlt b1 a3 b3
      omega
    · have := hap _ _ hlt a1 b3 a3
      omega
  · intro i p hm
    obtain ⟨a1, a2, -⟩ := hslots i p hm
    exact ⟨a1, by omega⟩
  · rw [hdev]; exact hwk2.1
  · rw [hdev]; exact hwk2.2
  · rw [hdev, hdata]
  · intro i _ _
    rw [hdev, hdata]

theorem Spec.Uefi.small51 (u : Uefi cfg.lbSize d.data n k B) (hlen : d.data.length < 2 ^ 60) : B < 2 ^ 51 := by
  have h1 := u.length
  have h2 : (B + 1) * 512 ≤ (B + 1) * cfg.lbSize.usize := Nat.mul_le_mul_left _ (by cases cfg.lbSize <;> decide)
  omega

theorem Spec.OnUefi.steady {s : GptDisk} (hs : OnUefi m cfg n k B d s) : ∃ h, Steady cfg n k B d h s := by
  obtain ⟨hwk, hsm, u, hw, hc, hro, hse⟩ := hs
  induction hse with
  | start hok => obtain ⟨h, v, -⟩ := steady_open hwk hsm u hok; exact ⟨h, v⟩
  | call op _ ho ih =>
    obtain ⟨h, v⟩ := ih
    exact v.step hw hc u.blocks op ho
  | reopen _ h1 h2 ih =>
    obtain ⟨h, v⟩ := ih
    obtain ⟨s2, d2, h2', e, v2, -⟩ := v.reopen u.blocks hro hw hc h1
    rw [e] at h2
    cases h2
    exact ⟨_, v2⟩

end

/-! ## Writing -/

/-- A written block is a header by the rules. -/
theorem uefiHeader_block {c : Bytes} {lb : LbSize} {P : Header} {x : UInt32} {me alt n st : Nat} (hsig : P.signature = efiPart)
    (hres : P.reserved = 0) (hrev : P.revision = (1, 0)) (hsz : P.headerSizeLe = 92) (hcur : P.currentLba.toNat = me)
    (halt : P.backupLba.toNat = alt) (hn : P.numParts.toNat = n) (h128 : P.partSize = 128) (hst : P.partStart.toNat = st)
    (hfit : me * lb.usize + lb.usize ≤ c.length) (hb : slice c (me * lb.usize) lb.usize = P.block x lb)
    (hx : x = crc32 (slice c (st * lb.usize) (n * 128))) :
    UefiHeader lb c n me alt ∧ HeaderAt c (me * lb.usize) (P.sealed x) := by
  obtain ⟨hv, hh⟩ := (readHeaderAt_spec _ _).1 _ |>.mp (read_block hsig hres hfit hb)
  have h512 := lb_le lb
  refine ⟨⟨hv, ?_, ?_, ?_, ?_, ?_, ?_, ?_, ?_, fun i h1 h2 => ?_⟩, hh⟩
  · rw [num_halves (by omega), ← hh.minor]
    have := hh.major
    rw [show me * lb.usize + 8 + 2 = me * lb.usize + 10 from rfl, ← this]
    show P.revision.2.toNat + 65536 * P.revision.1.toNat = _
    rw [hrev]
    rfl
  · rw [← hh.size]; show P.headerSizeLe.toNat = _; rw [hsz]; rfl
  · rw [← hh.reserved]; show P.reserved.toNat = 0; rw [hres]; rfl
  · rw [← hh.current]; exact hcur
  · rw [← hh.backup]; exact halt
  · rw [← hh.count]; exact hn
  · rw [← hh.entry]; show P.partSize.toNat = _; rw [h128]; rfl
  · rw [← hh.parts, ← hh.start]
    show x.toNat = (crc32 (slice c (P.partStart.toNat * lb.usize) (n * 128))).toNat
    rw [hst, hx]
  · have e := byteAt_slice c (me * lb.usize) lb.usize i
    rw [if_pos h2, hb] at e
    rw [← e, Header.block, byteAt_resize, if_pos h2, byteAt_of_length_le]
    rw [Header.encode_length (by rw [hsig]; rfl)]
    exact h1

/-- **C116**, writing: whatever table is written over a sane layout with a tidy table, backup included, the disk is then one by the
rules. -/
theorem c116_written {m : Mode} {s s1 : GptDisk} {h : Header} {k B : Nat} (hs : SaneDisk s h k B) (ht : Tidy h s.partitions)
    (hro : s.config.readonlyBackup = false) (hB : s.device.data.length / s.config.lbSize.usize = B + 1)
    (hsm : h.numParts.toNat + 1 < 2 ^ 25) (hx : writeInplace m s = (.ok (), s1)) :
    Uefi s.config.lbSize s1.device.data h.numParts.toNat k B := by
  have w := write_ok hs hx
  have r := w.regions hs
  have g := geo_sane hs.sane hs.fits s.config
  obtain ⟨hB64, hkB⟩ := sane_bounds hs.sane
  have hroom := w.room
  have hlast := hs.sane.last
  have hfirst := hs.sane.first
  have hord := hs.sane.usable
  have hen := hs.sane.arrays.enough
  have e2 : (2 : UInt64).toNat = 2 := rfl
  have hl : (rebuiltP k B h).lastUsable.toNat = B - k - 1 := ofNat64 (by omega)
  have hlen := w.length
  have hfit := hs.fits
  rw [Nat.add_mul, Nat.one_mul] at hfit
  have hB3 : 3 * s.config.lbSize.usize ≤ B * s.config.lbSize.usize := Nat.mul_le_mul_right _ (by omega)
  obtain ⟨rb1, rb2⟩ := r.backup hro
  have rp := r.head
  obtain ⟨up, hp⟩ := uefiHeader_block (c := s1.device.data) (lb := s.config.lbSize) (P := rebuiltP k B h) (me := 1) (alt := B)
    (n := h.numParts.toNat) (st := 2) rfl rfl rfl rfl rfl (ofNat64 hB64) rfl rfl rfl (by omega) (by rw [Nat.one_mul]; exact rp)
    (by rw [r.array])
  obtain ⟨ub, hb⟩ := uefiHeader_block (c := s1.device.data) (lb := s.config.lbSize) (P := rebuiltB k B h) (me := B) (alt := 1)
    (n := h.numParts.toNat) (st := B - k) rfl rfl rfl rfl (ofNat64 hB64) rfl rfl rfl (ofNat64 (by omega)) (by omega) rb1
    (by rw [rb2])
  have f1 : num s1.device.data (1 * s.config.lbSize.usize + 40) 8 = h.firstUsable.toNat := hp.first.symm
  have f2 : num s1.device.data (1 * s.config.lbSize.usize + 48) 8 = B - k - 1 := hp.last.symm.trans hl
  have f3 : num s1.device.data (1 * s.config.lbSize.usize + 72) 8 = 2 := hp.start.symm.trans e2
  have f4 : num s1.device.data (B * s.config.lbSize.usize + 72) 8 = B - k := hb.start.symm.trans (ofNat64 (by omega))
  have htab := tableAt_table hroom (fun p hp => used_isUsed hp) r.array
  have htidy := tidy_numbered ht (by omega)
  have s1' := g.sep
  have s2' := g.sepB
  have s3' := g.fits
  have hn : (rebuiltP k B h).numParts = h.numParts := rfl
  rw [hn] at s1' s2'
  have hslot : ∀ j, j < h.numParts.toNat → InUse s1.device.data (2 * s.config.lbSize.usize + 128 * j) →
      ∃ p, (UInt32.ofNat (j + 1), p) ∈ numberFrom 0 (Spec.used s.partitions) ∧
        EntryAt s1.device.data (2 * s.config.lbSize.usize + 128 * j) p ∧ p.partType.guid ≠ Uuid.nil := by
    intro j hj hu
    have hf : 2 * s.config.lbSize.usize + 128 * j + 128 ≤ s1.device.data.length := by omega
    have he := entryAt_decode hf
    refine ⟨_, ?_, he, (inUse_iff (by omega) he).mp hu⟩
    rw [← htab, mem_tableAt _ _ (by omega)]
    refine ⟨j, Nat.zero_le _, by omega, ?_, (slotFull_iff hf).mp (inUse_full hu), rfl⟩
    rw [UInt32.toNat_ofNat', Nat.mod_eq_of_lt (by omega)]
  refine ⟨?_, hsm, hs.sane.arrays, up, ub, hp.first.symm.trans hb.first, hp.last.symm.trans hb.last, ?_, ?_, ?_, ?_, ?_, ?_, ?_⟩
  · rw [hlen]; exact hB
  · exact map_toNat_inj (hp.guid.symm.trans hb.guid)
  · rw [f3, f4, r.array, rb2]
  · rw [f3, f1]; omega
  · rw [f1, f2]; omega
  · rw [f2, f4]; omega
  · intro j hj hu
    rw [f3] at hu
    obtain ⟨p, hm, he, hne⟩ := hslot j hj hu
    have a1 := htidy.order p ⟨_, hm, hne⟩
    have a2 := htidy.inside p ⟨_, hm, hne⟩
    rw [f1, f2, f3, ← he.first, ← he.last]
    omega
  · intro i j hij hj hu hv
    rw [f3] at hu hv ⊢
    obtain ⟨p, hm, he, hne⟩ := hslot i (by omega) hu
    obtain ⟨q, hm2, he2, hne2⟩ := hslot j hj hv
    have a1 := htidy.order p ⟨_, hm, hne⟩
    have b1 := htidy.order q ⟨_, hm2, hne2⟩
    have hd := htidy.apart _ _ p q hm hm2 (fun e => by
      have e := congrArg UInt32.toNat e
      rw [UInt32.toNat_ofNat', UInt32.toNat_ofNat', Nat.mod_eq_of_lt (by omega), Nat.mod_eq_of_lt (by omega)] at e
      omega) hne hne2
    rw [← he.first, ← he.last, ← he2.first, ← he2.last]
    unfold Covers at hd
    by_contra hno
    rcases Nat.le_total p.firstLba.toNat q.firstLba.toNat with hle | hle
    · exact hd q.firstLba.toNat (by omega)
    · exact hd p.firstLba.toNat (by omega)

/-! ## C116 -/

section
variable {m : Mode} {cfg : GptConfig} {n k B : Nat} {d : Dev} {s : GptDisk}

/-- **C116**, opening: a disk by the rules opens, under any configuration with its block size, with both headers reported valid; the table
shows exactly the slots that are not empty, under their position, with the fields stored there. -/
theorem c116_opens (m : Mode) (hwk : d.Works) (u : Uefi cfg.lbSize d.data n k B) :
    ∃ s d' h b, openFromDevice m cfg d = (.ok s, d') ∧ d'.data = d.data ∧ s.primaryHeader = .ok h ∧ s.backupHeader = .ok b ∧
      HeaderAt d.data (1 * cfg.lbSize.usize) h ∧ HeaderAt d.data (B * cfg.lbSize.usize) b ∧
      s.tryHeader = .ok h ∧ s.guid = h.diskGuid ∧ b.diskGuid = h.diskGuid ∧
      (∀ j, j < n → SlotFull d.data (num d.data (1 * cfg.lbSize.usize + 72) 8 * cfg.lbSize.usize) j →
        ∃ p, (UInt32.ofNat (j + 1), p) ∈ s.partitions) ∧
      (∀ i p, (i, p) ∈ s.partitions → 1 ≤ i.toNat ∧ i.toNat ≤ n ∧
        SlotFull d.data (num d.data (1 * cfg.lbSize.usize + 72) 8 * cfg.lbSize.usize) (i.toNat - 1) ∧
        EntryAt d.data (num d.data (1 * cfg.lbSize.usize + 72) 8 * cfg.lbSize.usize + 128 * (i.toNat - 1)) p) := by
  obtain ⟨s, d', h, b, e, hp, hb, ht, hh, hb2⟩ := open_uefi (m := m) hwk.faults hwk.pos (Nat.lt_of_le_of_lt hwk.length hwk.cap) u
  obtain ⟨h', hh', hg, -, hdata, -, -, hslots, hall⟩ := c45_reflects m cfg d d' s e
  obtain rfl : h' = h := Except.ok.inj ((header_try hh').symm.trans ht)
  have hn : h'.numParts.toNat = n := hh.count.trans u.primary.count
  have hsm := u.small
  refine ⟨s, d', h', b, e, hdata, hp, hb, hh, hb2, ht, hg, ?_, fun j hj hu => ?_, fun i p hm => ?_⟩
  · have v1 := u.primary.valid.fits
    have v2 := u.backup.valid.fits
    exact ((ofDisk_iff (by omega)).mpr (hb2.guid.trans (by rw [u.guid]))).symm.trans ((ofDisk_iff (by omega)).mpr hh.guid)
  · have hj1 : (UInt32.ofNat (j + 1)).toNat = j + 1 := by rw [UInt32.toNat_ofNat', Nat.mod_eq_of_lt (by omega)]
    refine hall _ (by omega) (by omega) ?_
    rw [hj1, Nat.add_sub_cancel, hh.start]
    exact hu
  · obtain ⟨a1, a2, a3, a4, -⟩ := hslots i p hm
    rw [hh.start] at a3 a4
    exact ⟨a1, by omega, a3, a4⟩

/-- **C116**, calls: no call of a session on such a disk panics, in debug builds either. -/
theorem c116_calls (hs : OnUefi m cfg n k B d s) (op : Op) (ho : OrdinaryOn n s op) : (op.step m s).1 ≠ .panic := by
  obtain ⟨h, v⟩ := hs.steady
  exact v.noPanic (hs.disk.small51 hs.small) hs.disk.small op ho

/-- **C116**, table: at any time the used partitions are non-empty, pairwise disjoint and in the usable range, which stays clear of the
blocks of both arrays. -/
theorem c116_table (hs : OnUefi m cfg n k B d s) :
    ∃ h, s.tryHeader = .ok h ∧ Tidy h s.partitions ∧ h.numParts.toNat = n ∧ 2 + k ≤ h.firstUsable.toNat ∧
      h.lastUsable.toNat + k + 1 ≤ B ∧ (∀ i p, (i, p) ∈ s.partitions → 1 ≤ i.toNat ∧ i.toNat ≤ n) := by
  obtain ⟨h, v⟩ := hs.steady
  exact ⟨h, header_try v.sane.header, v.table, v.count, v.sane.sane.first, v.sane.sane.last, v.ids⟩

/-- **C116**, data: block 0, the blocks between the arrays and what follows the last whole block never change. -/
theorem c116_data (hs : OnUefi m cfg n k B d s) (i : Nat)
    (hi : i < cfg.lbSize.usize ∨ ((2 + k) * cfg.lbSize.usize ≤ i ∧ i < (B - k) * cfg.lbSize.usize) ∨ (B + 1) * cfg.lbSize.usize ≤ i) :
    byteAt s.device.data i = byteAt d.data i ∧ s.device.data.length = d.data.length := by
  obtain ⟨h, v⟩ := hs.steady
  obtain ⟨-, hkB⟩ := sane_bounds v.sane.sane
  have e := hs.disk.array.enough
  have q1 : (2 + k) * cfg.lbSize.usize = 2 * cfg.lbSize.usize + k * cfg.lbSize.usize := Nat.add_mul ..
  have q2 : (B - k) * cfg.lbSize.usize + k * cfg.lbSize.usize = B * cfg.lbSize.usize := by rw [← Nat.add_mul]; congr 1; omega
  have q3 : (B + 1) * cfg.lbSize.usize = B * cfg.lbSize.usize + cfg.lbSize.usize := by rw [Nat.add_mul, Nat.one_mul]
  have q4 : 3 * cfg.lbSize.usize ≤ (B - k) * cfg.lbSize.usize := Nat.mul_le_mul_right _ (by omega)
  have q5 : (2 + k) * cfg.lbSize.usize ≤ (B - k) * cfg.lbSize.usize := Nat.mul_le_mul_right _ (by omega)
  refine ⟨v.bytes i ?_ ?_, v.length⟩
  · unfold InPrimary; omega
  · unfold InBackup; omega

/-- **C116**, write and open: at any time writing succeeds; with the backup included the disk is one by the rules again; opening it gives
the used partitions in order of id, numbered from 1, and the session goes on. -/
theorem c116_write_open (hs : OnUefi m cfg n k B d s) :
    ∃ s1 s2 d2 h, writeInplace m s = (.ok (), s1) ∧ (cfg.readonlyBackup = false → Uefi cfg.lbSize s1.device.data n k B) ∧
      openFromDevice m cfg s1.device = (.ok s2, d2) ∧ OnUefi m cfg n k B d s2 ∧ s.tryHeader = .ok h ∧ s2.guid = h.diskGuid ∧
      Numbered (Spec.used s.partitions) s2.partitions := by
  obtain ⟨h, v⟩ := hs.steady
  have hok := write_nil (m := m) v.sane (by rw [v.config]; exact hs.writable) v.room v.works.faults (v.sane.fits.trans v.works.length)
  rcases hx : writeInplace m s with ⟨r, s1⟩
  rw [hx] at hok
  simp only at hok
  subst hok
  obtain ⟨s2, d2, h2, e, -, hg, -, hn⟩ := v.reopen hs.disk.blocks hs.headers hs.writable hs.count hx
  refine ⟨s1, s2, d2, h, rfl, fun hro => ?_, e, ⟨hs.works, hs.small, hs.disk, hs.writable, hs.count, hs.headers, .reopen hs.session hx e⟩,
    header_try v.sane.header, hg, hn⟩
  have := c116_written v.sane v.table (by rw [v.config]; exact hro) (v.blocks hs.disk.blocks) (by rw [v.count]; exact hs.disk.small) hx
  rw [v.count, v.config] at this
  exact this

/-- **C116**, own tables: what a session of C67 writes, backup included, is a disk by the rules. -/
theorem c116_own {s1 : GptDisk} (hs : InSession m cfg k d s) (hro : cfg.readonlyBackup = false) (hx : writeInplace m s = (.ok (), s1)) :
    Uefi cfg.lbSize s1.device.data 128 k (d.data.length / cfg.lbSize.usize - 1) := by
  obtain ⟨B, h, hB, hkB, -, v⟩ := hs.sound
  have h128 : h.numParts.toNat = 128 := by rw [v.count]; rfl
  have := c116_written v.sane v.table (by rw [v.config]; exact hro) (v.blocks hB) (by omega) hx
  rw [h128, v.config] at this
  rw [hB, Nat.add_sub_cancel]
  exact this

end

/-- A disk of 400 blocks with 256 slots and two partitions, of which one was in slot 200. -/
def wideDisk : GptDisk :=
  { exWide with config := GptConfig.new.setWritable true, partitions := [(1, exPart 80 99), (200, exPart 100 120)] }

theorem bigDev_length : bigDev.data.length = 204800 := zeros_length _

theorem wideDisk_sane : SaneDisk wideDisk exWideHeader 64 399 := by
  refine ⟨rfl, ⟨rfl, by decide, ⟨by decide, fun j hj => ?_⟩, .inl ⟨rfl, rfl⟩, by decide, by decide, by decide⟩, ?_, ?_⟩
  · have hj : 256 * 128 ≤ j * 512 := hj
    omega
  · show (399 + 1) * 512 ≤ bigDev.data.length
    rw [bigDev_length]
  · show bigDev.data.length < 2 ^ 64
    rw [bigDev_length]
    decide

theorem wideDisk_tidy : Tidy exWideHeader wideDisk.partitions := by
  have hmem : ∀ i p, (i, p) ∈ wideDisk.partitions → (i = 1 ∧ p = exPart 80 99) ∨ (i = 200 ∧ p = exPart 100 120) := by
    intro i p hm
    have hm : (i, p) ∈ [((1 : UInt32), exPart 80 99), (200, exPart 100 120)] := hm
    simpa using hm
  have a1 : (80 : UInt64).toNat = 80 := rfl
  have a2 : (99 : UInt64).toNat = 99 := rfl
  have a3 : (100 : UInt64).toNat = 100 := rfl
  have a4 : (120 : UInt64).toNat = 120 := rfl
  refine ⟨by simp [wideDisk], ?_, ?_, ?_⟩
  · rintro p ⟨i, hm, -⟩
    rcases hmem i p hm with ⟨-, rfl⟩ | ⟨-, rfl⟩ <;> decide
  · rintro p ⟨i, hm, -⟩
    rcases hmem i p hm with ⟨-, rfl⟩ | ⟨-, rfl⟩ <;> decide
  · intro i j p q hi hj hij _ _ x hx
    unfold Covers at hx
    rcases hmem i p hi with ⟨rfl, rfl⟩ | ⟨rfl, rfl⟩ <;> rcases hmem j q hj with ⟨rfl, rfl⟩ | ⟨rfl, rfl⟩
    · exact hij rfl
    · simp only [exPart] at hx; omega
    · simp only [exPart] at hx; omega
    · exact hij rfl

/-- It is written, meets the rules, and is used on. -/
example (m : Mode) : ∃ s1 s2 d2 s3, writeInplace m wideDisk = (.ok (), s1) ∧ Uefi .lb512 s1.device.data 256 64 399 ∧
    openFromDevice m (GptConfig.new.setWritable true) s1.device = (.ok s2, d2) ∧
    OnUefi m (GptConfig.new.setWritable true) 256 64 399 s1.device s3 ∧
    s3 = ((Op.addPartition "b" 512 (exPart 0 0).partType 0 none Uuid.nil Uuid.nil).step m s2).2 := by
  have hwk : wideDisk.device.Works := ⟨rfl, by show 204800 < 2 ^ 64; decide, Nat.le_of_eq bigDev_length, by show 0 < 2 ^ 64; decide⟩
  have hl : wideDisk.device.data.length = 204800 := bigDev_length
  have hok := write_nil (m := m) wideDisk_sane rfl (by decide) rfl (by decide)
  have hwk1 := Dev.works_frame.writeInplace m wideDisk hwk
  rcases hx : writeInplace m wideDisk with ⟨r, s1⟩
  rw [hx] at hok hwk1
  simp only at hok
  subst hok
  have hlen := (write_ok wideDisk_sane hx).length
  have u := c116_written wideDisk_sane wideDisk_tidy rfl (by rw [hl]; rfl) (by decide) hx
  obtain ⟨s2, d2, h, b, e, -⟩ := c116_opens (cfg := GptConfig.new.setWritable true) m hwk1.1 u
  exact ⟨s1, s2, d2, _, rfl, u, e, ⟨hwk1.1, by rw [hlen, hl]; decide, u, rfl, rfl, fun _ => rfl,
    .call (.addPartition "b" 512 (exPart 0 0).partType 0 none Uuid.nil Uuid.nil) (.start e) ⟨by decide, fun _ h => nomatch h⟩⟩, rfl⟩

/-- A disk of ten blocks with four slots and one partition, written, is one by the rules too. -/
example (m : Mode) : ∃ s1 s2 d2, writeInplace m (smallDisk [(1, smallPart)]) = (.ok (), s1) ∧ Uefi .lb512 s1.device.data 4 1 9 ∧
    openFromDevice m (GptConfig.new.setWritable true) s1.device = (.ok s2, d2) ∧
    OnUefi m (GptConfig.new.setWritable true) 4 1 9 s1.device s2 := by
  obtain ⟨s1, hx, hl1, hl⟩ := smallDisk_written m [(1, smallPart)] (by decide)
  have ht : Tidy smallHeader (smallDisk [(1, smallPart)]).partitions := by
    have hmem : ∀ i p, (i, p) ∈ (smallDisk [(1, smallPart)]).partitions → i = 1 ∧ p = smallPart := by
      intro i p hm
      have hm : (i, p) ∈ [((1 : UInt32), smallPart)] := hm
      simpa using hm
    refine ⟨by simp [smallDisk], ?_, ?_, ?_⟩
    · rintro p ⟨i, hm, -⟩
      rw [(hmem i p hm).2]
      decide
    · rintro p ⟨i, hm, -⟩
      rw [(hmem i p hm).2]
      decide
    · intro i j p q hi hj hij
      exact absurd ((hmem i p hi).1.trans (hmem j q hj).1.symm) hij
  have u := c116_written (smallDisk_sane _) ht rfl (by rw [hl]; rfl) (by decide) hx
  have hwk : (smallDisk [(1, smallPart)]).device.Works := ⟨rfl, by show 5120 < 2 ^ 64; decide, Nat.le_of_eq hl, by show 0 < 2 ^ 64; decide⟩
  have hwk1 := Dev.works_frame.writeInplace m _ hwk
  rw [hx] at hwk1
  obtain ⟨s2, d2, h, b, e, -⟩ := c116_opens (cfg := GptConfig.new.setWritable true) m hwk1.1 u
  exact ⟨s1, s2, d2, hx, u, e, hwk1.1, by rw [hl1]; decide, u, rfl, rfl, fun _ => rfl, .start e⟩

end Gpt
