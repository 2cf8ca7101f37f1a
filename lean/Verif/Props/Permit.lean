import Verif.Props.Uefi
/-!
# C126: sessions that may change the number of slots, up to 128 entries
-/

namespace Gpt

open Spec GptDisk

/-- The calls of a session that keeps to 128 entries: the documented preconditions, extents for `add_partition_at` that are free, tables for
`update_partitions` that are tidy and have no id 0, any other ids, and after the call at most 128 entries; no exchange of the device. -/
def Spec.Within128 (m : Mode) (s : GptDisk) : Op → Prop
  | .addPartition name size ty flags align f1 f2 => Ordinary s (.addPartition name size ty flags align f1 f2) ∧
      ((Op.addPartition name size ty flags align f1 f2).step m s).2.partitions.length ≤ 128
  | .addPartitionAt name id first length ty flags f1 f2 => Ordinary s (.addPartitionAt name id first length ty flags f1 f2) ∧
      ((Op.addPartitionAt name id first length ty flags f1 f2).step m s).2.partitions.length ≤ 128
  | .updatePartitions pp _ => (∀ p, (0, p) ∉ pp) ∧ pp.length ≤ 128 ∧ ∀ h, s.tryHeader = .ok h → Tidy h pp
  | op => Ordinary s op

/-- The states of a session that starts with opening `d`. -/
inductive Spec.Roaming (m : Mode) (cfg : GptConfig) (d : Dev) : GptDisk → Prop
  | start {s : GptDisk} {d' : Dev} : openFromDevice m cfg d = (.ok s, d') → Roaming m cfg d s
  | call {s : GptDisk} (op : Op) : Roaming m cfg d s → Within128 m s op → Roaming m cfg d (op.step m s).2
  | reopen {s s1 s2 : GptDisk} {d' : Dev} : Roaming m cfg d s → writeInplace m s = (.ok (), s1) →
      openFromDevice m cfg s1.device = (.ok s2, d') → Roaming m cfg d s2

/-- The setting: `d` is a working device below 2^60 bytes with a disk by the rules with 128 slots (C116: this library makes such disks), and `s` is
reached from it in a session under a writable configuration, with or without permission to change the number of slots. -/
structure Spec.OnRoaming (m : Mode) (cfg : GptConfig) (k B : Nat) (d : Dev) (s : GptDisk) : Prop where
  works : d.Works
  small : d.data.length < 2 ^ 60
  disk : Uefi cfg.lbSize d.data 128 k B
  writable : cfg.writable = true
  headers : cfg.onlyValidHeaders = true → cfg.readonlyBackup = false
  session : Roaming m cfg d s

/-- As `Steady`, for 128 slots, at most 128 entries and any ids. -/
structure Held (cfg : GptConfig) (k B : Nat) (d0 : Dev) (h : Header) (s : GptDisk) : Prop where
  config : s.config = cfg
  sane : SaneDisk s h k B
  count : h.numParts.toNat = 128
  table : Tidy h s.partitions
  ids : ∀ i p, (i, p) ∈ s.partitions → 1 ≤ i.toNat
  entries : s.partitions.length ≤ 128
  works : s.device.Works
  cap : s.device.cap = d0.cap
  length : s.device.data.length = d0.data.length
  bytes : ∀ i, ¬ InPrimary cfg.lbSize 128 i → ¬ InBackup cfg.lbSize 128 k B i → byteAt s.device.data i = byteAt d0.data i

section
variable {m : Mode} {cfg : GptConfig} {k B : Nat} {d0 : Dev} {h : Header} {s : GptDisk}

theorem Steady.held (v : Steady cfg 128 k B d0 h s) : Held cfg k B d0 h s :=
  ⟨v.config, v.sane, v.count, v.table, fun i p hm => (v.ids i p hm).1, v.entries, v.works, v.cap, v.length, v.bytes⟩

theorem Held.room (v : Held cfg k B d0 h s) : (Spec.used s.partitions).length ≤ h.numParts.toNat := by
  rw [v.count]
  exact (used_length_le _).trans v.entries

theorem Held.blocks (v : Held cfg k B d0 h s) (hB : d0.data.length / cfg.lbSize.usize = B + 1) :
    s.device.data.length / s.config.lbSize.usize = B + 1 := by rw [v.length, v.config]; exact hB

theorem Held.withTable (v : Held cfg k B d0 h s) {t : PMap} (ht : Tidy h t) (hi : ∀ i p, (i, p) ∈ t → 1 ≤ i.toNat) (hl : t.length ≤ 128) :
    Held cfg k B d0 h (s.withParts t) :=
  ⟨v.config, ⟨v.sane.header, v.sane.sane, v.sane.fits, v.sane.length⟩, v.count, ht, hi, hl, v.works, v.cap, v.length, v.bytes⟩

theorem remove_length (t : PMap) (id : UInt32) : (PMap.remove t id).length ≤ t.length := List.length_filter_le ..

theorem Held.removed (v : Held cfg k B d0 h s) (id : UInt32) : Held cfg k B d0 h (s.withParts (PMap.remove s.partitions id)) :=
  v.withTable (tidy_remove v.table id) (fun i p hm => v.ids i p (PMap.mem_remove.mp hm).1) ((remove_length _ _).trans v.entries)

theorem Held.inserted (v : Held cfg k B d0 h s) (hB : d0.data.length / cfg.lbSize.usize = B + 1) {id : UInt32} {p : Partition} {fresh2 : Uuid}
    {r : Res GptError UInt32} {s' : GptDisk} (hi : Inserted m id p fresh2 s r s') (hlen : s'.partitions.length ≤ 128)
    (ht : ∀ id', r = .ok id' → id ≠ 0 ∧ Tidy h (PMap.insert id p s.partitions)) : ∃ h', Held cfg k B d0 h' s' := by
  obtain ⟨hB64, hkB⟩ := sane_bounds v.sane.sane
  have hlast := v.sane.sane.last
  have hids : id ≠ 0 → ∀ i q, (i, q) ∈ PMap.insert id p s.partitions → 1 ≤ i.toNat := by
    intro h0 i q hm
    rcases PMap.mem_insert_subset hm with e | e
    · cases e
      rcases Nat.eq_zero_or_pos id.toNat with e | e
      · exact absurd (UInt32.toNat_inj.mp e) h0
      · exact e
    · exact v.ids i q e
  cases hi with
  | panic => exact ⟨h, v⟩
  | refused => exact ⟨h, v⟩
  | plain h' hh hw =>
    obtain ⟨h0, h1⟩ := ht id rfl
    exact ⟨h, v.withTable h1 (hids h0) hlen⟩
  | rebuilt h' r0 _ hh hw hp hini =>
    have hparts : s'.partitions = PMap.insert id p s.partitions := (initHeaders_same hini).partitions
    have hs1 : SaneDisk (s.withParts (PMap.insert id p s.partitions)) h k B := ⟨v.sane.header, v.sane.sane, v.sane.fits, v.sane.length⟩
    have e := initHeaders_sane (m := m) (fresh := fresh2) hs1 (UInt32.toNat_inj.mp v.count) (by rw [← hparts]; exact hlen) v.works.faults
      v.works.pos (v.blocks hB)
    rw [hini] at e
    obtain ⟨rfl, rfl⟩ := Prod.mk.inj e
    obtain ⟨h0, h1⟩ := ht id rfl
    have hl : (rebuiltP k B { h with diskGuid := s.guid }).lastUsable.toNat = B - k - 1 := ofNat64 (by omega)
    have hsane := reinit_sane v.sane (PMap.insert id p s.partitions)
    exact ⟨_, v.config, hsane, v.count, tidy_wider h1 (Nat.le_refl _) (by rw [hl]; omega), hids h0, hlen, v.works, v.cap, v.length, v.bytes⟩

theorem Held.neat (v : Held cfg k B d0 h s) : NeatHeader s.config.lbSize h where
  size := v.sane.sane.entry
  small := v.sane.sane.count
  first := by
    have e := v.sane.sane.first
    obtain ⟨-, e2⟩ := blocksFor_spec (h.numParts.toNat * 128) s.config.lbSize
    have hle := v.sane.sane.arrays.enough
    have hlt : blocksFor (h.numParts.toNat * 128) s.config.lbSize * s.config.lbSize.usize < (k + 1) * s.config.lbSize.usize := by
      rw [Nat.add_mul, Nat.one_mul]; omega
    have := Nat.lt_of_mul_lt_mul_right hlt
    omega
  order := v.sane.sane.usable
  last := by
    obtain ⟨hB, _⟩ := sane_bounds v.sane.sane
    have := v.sane.sane.last
    omega

/-- One call. -/
theorem Held.step (v : Held cfg k B d0 h s) (hw : cfg.writable = true)
    (hB : d0.data.length / cfg.lbSize.usize = B + 1) (op : Op) (ho : Within128 m s op) : ∃ h', Held cfg k B d0 h' (op.step m s).2 := by
  have hh := header_try v.sane.header
  obtain ⟨hB64, hkB⟩ := sane_bounds v.sane.sane
  have hlast := v.sane.sane.last
  have hsm := v.sane.sane.count
  have hent := v.entries
  rw [v.count] at hsm
  have h1 : (1 : UInt64).toNat = 1 := rfl
  cases op with
  | addPartition name size ty flags align fresh fresh2 =>
    show ∃ h', Held cfg k B d0 h' (addPartition m name size ty flags align fresh fresh2 s).2
    obtain ⟨ho, hl128⟩ := ho
    change (addPartition m name size ty flags align fresh fresh2 s).2.partitions.length ≤ 128 at hl128
    rcases hx : addPartition m name size ty flags align fresh fresh2 s with ⟨r, s'⟩
    rw [hx] at hl128
    have hany := addPartition_any m name size ty flags align fresh fresh2 s
    rw [hx] at hany
    cases r with
    | ok id =>
      obtain ⟨-, -, hpick, start, x, hn1, hfree, -, -, hend, hins⟩ := addPartition_ok hh v.neat.range v.table (.inr fun a ha => (ho.2 a ha).2) hx
      have hia := insertPartition_any m name id start x ty flags fresh fresh2 s
      rw [hins] at hia
      have hpos : 1 ≤ x.toNat := by rw [hn1]; exact Nat.le_add_left 1 _
      have hsum : (start + x).toNat = start.toNat + x.toNat := u64_add_toNat (by omega)
      refine v.inserted hB hia hl128 fun _ _ => ⟨pickId_ne_zero v.table.keys hpick (.inr (by omega)), tidy_insert v.table hfree hpos rfl ?_⟩
      show (start + x - 1).toNat + 1 = start.toNat + x.toNat
      rw [u64_sub_toNat (by omega), hsum, h1]
      omega
    | err e =>
      rcases hany with ⟨rfl, -⟩ | ⟨_, _, _, _, hi⟩
      · exact ⟨h, v⟩
      · exact v.inserted hB hi hl128 fun _ e => by cases e
    | panic =>
      rcases hany with ⟨rfl, -⟩ | ⟨_, _, _, _, hi⟩
      · exact ⟨h, v⟩
      · exact v.inserted hB hi hl128 fun _ e => by cases e
  | addPartitionAt name id first length ty flags fresh fresh2 =>
    show ∃ h', Held cfg k B d0 h' (addPartitionAt m name id first length ty flags fresh fresh2 s).2
    obtain ⟨ho, hl128⟩ := ho
    change (addPartitionAt m name id first length ty flags fresh fresh2 s).2.partitions.length ≤ 128 at hl128
    rcases addPartitionAt_any m name id first length ty flags fresh fresh2 s with ⟨e, -⟩ | ⟨hid, h0, -, -, hi⟩
    · rw [e]; exact ⟨h, v⟩
    · have hfree := ho.2.2 h hh
      have hpos : 1 ≤ length.toNat := by
        rcases Nat.eq_zero_or_pos length.toNat with e | e
        · exact absurd (UInt64.toNat_inj.mp e) h0
        · exact e
      have hend := (hfree (first.toNat + length.toNat - 1) (by omega) (by omega)).2.1
      have hsum : (first + length).toNat = first.toNat + length.toNat := u64_add_toNat (by omega)
      refine v.inserted hB hi hl128 fun _ _ => ⟨hid, tidy_insert v.table hfree hpos rfl ?_⟩
      show (first + length - 1).toNat + 1 = first.toNat + length.toNat
      rw [u64_sub_toNat (by omega), hsum, h1]
      omega
  | removePartition id =>
    refine ⟨h, ?_⟩
    show Held cfg k B d0 h (removePartition (ε := GptError) id s).2
    unfold removePartition
    split
    · exact v.removed _
    · exact v
  | removePartitionByGuid g =>
    refine ⟨h, ?_⟩
    show Held cfg k B d0 h (removePartitionByGuid (ε := GptError) g s).2
    unfold removePartitionByGuid
    split
    · exact v.removed _
    · exact v
  | takePartitions => exact ⟨h, v.withTable (tidy_nil h) (fun _ _ hm => nomatch hm) (Nat.zero_le _)⟩
  | updateGuid u r =>
    exact ⟨h, v.config, ⟨v.sane.header, v.sane.sane, v.sane.fits, v.sane.length⟩, v.count, v.table, v.ids, v.entries, v.works, v.cap, v.length, v.bytes⟩
  | updateDiskDevice d w => exact ho.elim
  | deviceMut d => exact ho.elim
  | updatePartitions pp fresh =>
    obtain ⟨ho0, hlen, ho⟩ := ho
    have ht := ho h hh
    have h0 : PMap.get pp 0 = none := by
      cases hg : PMap.get pp 0 with
      | none => rfl
      | some p => exact absurd (PMap.mem_of_get hg) (ho0 p)
    rw [step_updatePartitions, updatePartitions_sane v.sane (UInt32.toNat_inj.mp v.count) hlen h0 v.works.faults v.works.pos (v.blocks hB)]
    have hl : (rebuiltP k B { h with diskGuid := s.guid }).lastUsable.toNat = B - k - 1 := ofNat64 (by omega)
    refine ⟨_, v.config, reinit_sane v.sane pp, v.count, tidy_wider ht (Nat.le_refl _) (by rw [hl]; omega), fun i p hm => ?_, hlen,
      v.works, v.cap, v.length, v.bytes⟩
    rcases Nat.eq_zero_or_pos i.toNat with e | e
    · obtain rfl : i = 0 := UInt32.toNat_inj.mp e
      exact absurd hm (ho0 p)
    · exact e
  | writeInplace =>
    have hok := write_nil (m := m) v.sane (by rw [v.config]; exact hw) v.room v.works.faults
      (v.sane.fits.trans v.works.length)
    have hwk := Dev.works_frame.writeInplace m s v.works
    show ∃ h', Held cfg k B d0 h' (writeInplace m s).2
    have hconf := fun i => c32_confined m s h k B v.sane i
    rcases hx : writeInplace m s with ⟨r, s'⟩
    rw [hx] at hok hwk hconf
    simp only at hok hwk hconf
    subst hok
    have w := write_ok v.sane hx
    have hl : (rebuiltP k B h).lastUsable.toNat = B - k - 1 := ofNat64 (by omega)
    refine ⟨_, w.rest.config.trans v.config, w.saneDisk v.sane, v.count, ?_, ?_, ?_, hwk.1, hwk.2.trans v.cap, w.length.trans v.length, fun i hp hb => ?_⟩
    · rw [w.rest.partitions]
      exact tidy_wider v.table (Nat.le_refl _) (by show _ ≤ (rebuiltP k B h).lastUsable.toNat; rw [hl]; omega)
    · rw [w.rest.partitions]; exact v.ids
    · rw [w.rest.partitions]; exact v.entries
    · rw [(hconf i (by rw [v.count, v.config]; exact hp) (by rw [v.count, v.config]; exact hb)).1]
      exact v.bytes i hp hb

/-- Writing and opening again. -/
theorem Held.reopen (v : Held cfg k B d0 h s) (hB : d0.data.length / cfg.lbSize.usize = B + 1)
    (hro : cfg.onlyValidHeaders = true → cfg.readonlyBackup = false) (hw : cfg.writable = true)
    {s1 : GptDisk} (h1 : writeInplace m s = (.ok (), s1)) :
    ∃ s2 d2 h2, openFromDevice m cfg s1.device = (.ok s2, d2) ∧ Held cfg k B d0 h2 s2 ∧ s2.guid = h.diskGuid ∧
      s2.partitions = numberFrom 0 (Spec.used s.partitions) ∧ Numbered (Spec.used s.partitions) s2.partitions := by
  obtain ⟨h', v1⟩ := v.step hw hB .writeInplace trivial (m := m)
  have e1 : ((Op.writeInplace.step m s).2 : GptDisk) = s1 := by
    show (writeInplace m s).2 = s1
    rw [h1]
  rw [e1] at v1
  have w := write_ok v.sane h1
  have hs1 := w.saneDisk v.sane
  obtain rfl := Except.ok.inj ((header_try v1.sane.header).symm.trans (header_try hs1.header))
  have hroom := v.room
  have hcount := v.sane.sane.count
  obtain ⟨b, p, e⟩ := open_written (m' := m) (cfg := cfg) (d := s1.device) v.sane h1 rfl v1.works.faults v1.works.pos (by rw [v.config])
    (fun hv => by
      have := c30_backup_valid m s s1 h k B v.sane h1 (by rw [v.config]; exact hro hv) (v.blocks hB)
      rw [v.config] at this
      exact this)
  have hp : p < 2 ^ 64 := by
    have := (Dev.works_frame.openFromDevice m cfg s1.device v1.works).1.pos
    rw [e] at this
    exact this
  have hcfg : s1.config = cfg := v1.config
  refine ⟨_, _, _, e, ⟨rfl, ⟨rfl, ?_, ?_, v1.sane.length⟩, v1.count, ?_, ?_, ?_, ⟨v1.works.faults, v1.works.cap, v1.works.length, hp⟩,
    v1.cap, v1.length, v1.bytes⟩, rfl, rfl, numbered_numberFrom (by omega)⟩
  · show SaneHeader cfg.lbSize k B _
    rw [← hcfg]; exact v1.sane.sane
  · show _ * cfg.lbSize.usize ≤ s1.device.data.length
    rw [← hcfg]; exact v1.sane.fits
  · have ht := v1.table
    rw [w.rest.partitions] at ht
    exact tidy_numbered ht (by omega)
  · intro i q hm
    obtain ⟨j, hj, e⟩ := mem_numberFrom hm
    cases e
    have : (UInt32.ofNat (0 + j + 1)).toNat = j + 1 := by rw [UInt32.toNat_ofNat', Nat.mod_eq_of_lt (by omega)]; omega
    omega
  · show (numberFrom 0 (Spec.used s.partitions)).length ≤ 128
    rw [numberFrom_length]
    exact (used_length_le _).trans v.entries

theorem Held.modest (v : Held cfg k B d0 h s) (hB : B < 2 ^ 51) : Modest h s.partitions := by
  obtain ⟨-, hkB⟩ := sane_bounds v.sane.sane
  have hf := v.sane.sane.first
  have hl := v.sane.sane.last
  have hc := v.count
  have he := v.entries
  refine ⟨by omega, by omega, ?_, ?_, by omega, v.sane.sane.entry, by omega, fun p hp => ?_⟩
  · rcases v.sane.sane.lbas with ⟨e1, e2⟩ | ⟨e1, e2⟩ <;> omega
  · rcases v.sane.sane.lbas with ⟨e1, e2⟩ | ⟨e1, e2⟩ <;> omega
  · have := v.table.inside p hp
    have := v.table.order p hp
    omega

theorem Held.noPanic (v : Held cfg k B d0 h s) (hB : B < 2 ^ 51) (op : Op) (ho : Within128 m s op) :
    (op.step m s).1 ≠ .panic := by
  have hh := header_try v.sane.header
  refine step_noPanic hh v.sane.sane.entry ?_ (.inr ⟨v.modest hB, ?_⟩)
  · cases op with
    | addPartition => exact ⟨ho.1.1, fun e => (ho.1.2 0 e).1 rfl⟩
    | addPartitionAt => exact ⟨ho.1.1, ho.1.2.1⟩
    | updatePartitions => exact fun p hm => absurd hm (ho.1 p)
    | _ => trivial
  · cases op with
    | addPartition => exact fun a ha => (ho.1.2 a ha).2
    | addPartitionAt _ _ first length =>
      have hl := v.sane.sane.last
      show first.toNat + length.toNat < 2 ^ 64
      have hpos : 1 ≤ length.toNat := by
        rcases Nat.eq_zero_or_pos length.toNat with e | e
        · exact absurd (UInt64.toNat_inj.mp e) ho.1.2.1
        · exact e
      have := (ho.1.2.2 h hh (first.toNat + length.toNat - 1) (by omega) (by omega)).2.1
      omega
    | updatePartitions pp =>
      have := ho.2.1
      show pp.length < 2 ^ 25
      omega
    | _ => trivial

end

theorem Spec.OnRoaming.held {m : Mode} {cfg : GptConfig} {k B : Nat} {d : Dev} {s : GptDisk} (hs : OnRoaming m cfg k B d s) :
    ∃ h, Held cfg k B d h s := by
  obtain ⟨hwk, hsm, u, hw, hro, hse⟩ := hs
  induction hse with
  | start hok => obtain ⟨h, v, -⟩ := steady_open hwk hsm u hok; exact ⟨h, v.held⟩
  | call op _ ho ih =>
    obtain ⟨h, v⟩ := ih
    exact v.step hw u.blocks op ho
  | reopen _ h1 h2 ih =>
    obtain ⟨h, v⟩ := ih
    obtain ⟨s2, d2, h2', e, v2, -⟩ := v.reopen u.blocks hro hw h1
    rw [e] at h2
    cases h2
    exact ⟨_, v2⟩

/-! ## C126 -/

section
variable {m : Mode} {cfg : GptConfig} {k B : Nat} {d : Dev} {s : GptDisk}

/-- **C126**, calls: no call of such a session panics, in debug builds either. -/
theorem c126_calls (hs : OnRoaming m cfg k B d s) (op : Op) (ho : Within128 m s op) : (op.step m s).1 ≠ .panic := by
  obtain ⟨h, v⟩ := hs.held
  exact v.noPanic (hs.disk.small51 hs.small) op ho

/-- **C126**, table: at any time there are 128 slots and at most 128 entries, none with id 0, and the used partitions are non-empty, pairwise
disjoint and in the usable range, which stays clear of the blocks of both arrays. -/
theorem c126_table (hs : OnRoaming m cfg k B d s) :
    ∃ h, s.tryHeader = .ok h ∧ h.numParts = 128 ∧ s.partitions.length ≤ 128 ∧ (∀ p, (0, p) ∉ s.partitions) ∧ Tidy h s.partitions ∧
      2 + k ≤ h.firstUsable.toNat ∧ h.lastUsable.toNat + k + 1 ≤ B := by
  obtain ⟨h, v⟩ := hs.held
  exact ⟨h, header_try v.sane.header, UInt32.toNat_inj.mp v.count, v.entries, fun p hm => absurd (v.ids 0 p hm) (by decide), v.table,
    v.sane.sane.first, v.sane.sane.last⟩

/-- **C126**, data: block 0, the blocks between the arrays and what follows the last whole block never change. -/
theorem c126_data (hs : OnRoaming m cfg k B d s) (i : Nat)
    (hi : i < cfg.lbSize.usize ∨ ((2 + k) * cfg.lbSize.usize ≤ i ∧ i < (B - k) * cfg.lbSize.usize) ∨ (B + 1) * cfg.lbSize.usize ≤ i) :
    byteAt s.device.data i = byteAt d.data i ∧ s.device.data.length = d.data.length := by
  obtain ⟨h, v⟩ := hs.held
  obtain ⟨-, hkB⟩ := sane_bounds v.sane.sane
  have e := hs.disk.array.enough
  have q1 : (2 + k) * cfg.lbSize.usize = 2 * cfg.lbSize.usize + k * cfg.lbSize.usize := Nat.add_mul ..
  have q2 : (B - k) * cfg.lbSize.usize + k * cfg.lbSize.usize = B * cfg.lbSize.usize := by rw [← Nat.add_mul]; congr 1; omega
  have q3 : (B + 1) * cfg.lbSize.usize = B * cfg.lbSize.usize + cfg.lbSize.usize := by rw [Nat.add_mul, Nat.one_mul]
  have q4 : 3 * cfg.lbSize.usize ≤ (B - k) * cfg.lbSize.usize := Nat.mul_le_mul_right _ (by omega)
  have q5 : (2 + k) * cfg.lbSize.usize ≤ (B - k) * cfg.lbSize.usize := Nat.mul_le_mul_right _ (by omega)
  refine ⟨v.bytes i ?_ ?_, v.length⟩
  · unfold InPrimary; omega
  · unfold InBackup; omega

/-- **C126**, write and open: at any time writing succeeds; with the backup included the disk is one by the rules with 128 slots again; opening it
gives the used partitions in order of id, numbered from 1, whatever their ids were, and the session goes on. -/
theorem c126_write_open (hs : OnRoaming m cfg k B d s) :
    ∃ s1 s2 d2 h, writeInplace m s = (.ok (), s1) ∧ (cfg.readonlyBackup = false → Uefi cfg.lbSize s1.device.data 128 k B) ∧
      openFromDevice m cfg s1.device = (.ok s2, d2) ∧ OnRoaming m cfg k B d s2 ∧ s.tryHeader = .ok h ∧ s2.guid = h.diskGuid ∧
      Numbered (Spec.used s.partitions) s2.partitions := by
  obtain ⟨h, v⟩ := hs.held
  have hok := write_nil (m := m) v.sane (by rw [v.config]; exact hs.writable) v.room v.works.faults (v.sane.fits.trans v.works.length)
  rcases hx : writeInplace m s with ⟨r, s1⟩
  rw [hx] at hok
  simp only at hok
  subst hok
  obtain ⟨s2, d2, h2, e, -, hg, -, hn⟩ := v.reopen hs.disk.blocks hs.headers hs.writable hx
  refine ⟨s1, s2, d2, h, rfl, fun hro => ?_, e, ⟨hs.works, hs.small, hs.disk, hs.writable, hs.headers, .reopen hs.session hx e⟩,
    header_try v.sane.header, hg, hn⟩
  have := c116_written v.sane v.table (by rw [v.config]; exact hro) (v.blocks hs.disk.blocks) (by rw [v.count]; exact hs.disk.small) hx
  rw [v.count, v.config] at this
  exact this

/-- **C126**, the call that counts: in such a session `update_partitions` with up to 128 entries succeeds, permission or not, and the table is the
one given. -/
theorem c126_update (hs : OnRoaming m cfg k B d s) (pp : PMap) (fresh : Uuid) (ho : Within128 m s (.updatePartitions pp fresh)) :
    (updatePartitions m pp fresh s).1 = .ok () ∧ (updatePartitions m pp fresh s).2.partitions = pp := by
  obtain ⟨h, v⟩ := hs.held
  have h0 : PMap.get pp 0 = none := by
    cases hg : PMap.get pp 0 with
    | none => rfl
    | some p => exact absurd (PMap.mem_of_get hg) (ho.1 p)
  rw [updatePartitions_sane v.sane (UInt32.toNat_inj.mp v.count) ho.2.1 h0 v.works.faults v.works.pos (v.blocks hs.disk.blocks)]
  exact ⟨rfl, rfl⟩

end

/-- An empty table on 100 blocks, written and opened with permission to change the number of slots; then one partition under id 200, which after
writing and opening again is partition 1. -/
example (m : Mode) : ∃ s0 d s s1 s2 d2, writeInplace m (madeDisk (GptConfig.new.setWritable true) dev100 32 99 Uuid.nil) = (.ok (), s0) ∧
    d = s0.device ∧ OnRoaming m ((GptConfig.new.setWritable true).setChangePartitionCount true) 32 99 d s ∧
    s.partitions = [(200, exPart 40 45)] ∧
    writeInplace m s = (.ok (), s1) ∧
    openFromDevice m ((GptConfig.new.setWritable true).setChangePartitionCount true) s1.device = (.ok s2, d2) ∧
    Numbered [exPart 40 45] s2.partitions := by
  have hl : dev100.data.length = 51200 := dev100_length
  have hwk : dev100.Works := ⟨rfl, by show 51200 < 2 ^ 64; decide, Nat.le_of_eq hl, by show 0 < 2 ^ 64; decide⟩
  have hB : dev100.data.length / (GptConfig.new.setWritable true).lbSize.usize = 99 + 1 := by rw [hl]; rfl
  have hs := madeDisk_sane (cfg := GptConfig.new.setWritable true) (d := dev100) (k := 32) (B := 99) (g := Uuid.nil) (by rw [hl]; decide) enough512 hB
    (by decide)
  have hok := c62_write_succeeds m _ _ 32 99 hs rfl (Nat.zero_le _) rfl (hs.fits.trans (show dev100.data.length ≤ 51200 by rw [hl]))
  have hwk1 := Dev.works_frame.writeInplace m (madeDisk (GptConfig.new.setWritable true) dev100 32 99 Uuid.nil) hwk
  rcases hx : writeInplace m (madeDisk (GptConfig.new.setWritable true) dev100 32 99 Uuid.nil) with ⟨r, s0⟩
  rw [hx] at hok hwk1
  simp only at hok
  subst hok
  have hlen : s0.device.data.length = dev100.data.length := (write_ok hs hx).length
  have hl0 : (madeDisk (GptConfig.new.setWritable true) dev100 32 99 Uuid.nil).device.data.length = 51200 := hl
  have u := c116_written hs (tidy_nil _) rfl (by rw [hl0]; rfl) (show 128 + 1 < 2 ^ 25 by decide) hx
  obtain ⟨st, dt, H, e, eH, hf, hla⟩ : ∃ st dt H, openFromDevice m ((GptConfig.new.setWritable true).setChangePartitionCount true) s0.device = (.ok st, dt) ∧
      st.tryHeader = .ok H ∧ H.firstUsable = 34 ∧ H.lastUsable = 66 := by
    obtain ⟨b, p, e⟩ := open_written (m' := m) (cfg := (GptConfig.new.setWritable true).setChangePartitionCount true) (d := s0.device) hs hx rfl
      hwk1.1.faults hwk1.1.pos rfl (fun h => nomatch h)
    exact ⟨_, _, _, e, rfl, rfl, rfl⟩
  have h0 : OnRoaming m ((GptConfig.new.setWritable true).setChangePartitionCount true) 32 99 s0.device st :=
    ⟨hwk1.1, by rw [hlen, hl]; decide, u, rfl, fun _ => rfl, .start e⟩
  have hw : Within128 m st (.updatePartitions [(200, exPart 40 45)] Uuid.nil) := by
    have hmem : ∀ i q, (i, q) ∈ [((200 : UInt32), exPart 40 45)] → i = 200 ∧ q = exPart 40 45 := by intro i q hm; simpa using hm
    refine ⟨fun q hm => absurd (hmem _ _ hm).1 (by decide), by decide, fun h hh => ?_⟩
    obtain rfl := Except.ok.inj (eH.symm.trans hh)
    refine ⟨by simp, ?_, ?_, fun i j p q hi hj hij => absurd ((hmem i p hi).1.trans (hmem j q hj).1.symm) hij⟩
    · rintro q ⟨i, hm, -⟩
      rw [(hmem i q hm).2]
      decide
    · rintro q ⟨i, hm, -⟩
      rw [(hmem i q hm).2]
      rw [hf, hla]
      decide
  obtain ⟨hu, ht⟩ := c126_update h0 _ _ hw
  have h1 : OnRoaming m ((GptConfig.new.setWritable true).setChangePartitionCount true) 32 99 s0.device
      (updatePartitions m [(200, exPart 40 45)] Uuid.nil st).2 := by
    rw [← step_updatePartitions]
    exact ⟨h0.works, h0.small, h0.disk, rfl, fun _ => rfl, .call _ h0.session hw⟩
  generalize updatePartitions m [(200, exPart 40 45)] Uuid.nil st = x at hu ht h1
  obtain ⟨s1, s2, d2, h, e1, -, e2, -, -, -, hn⟩ := c126_write_open h1
  rw [ht] at hn
  exact ⟨s0, _, _, s1, s2, d2, rfl, rfl, h1, ht, e1, e2, hn⟩

end Gpt
