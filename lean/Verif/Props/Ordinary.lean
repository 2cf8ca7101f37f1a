import Verif.Lemmas.Frame
import Verif.Props.Disjoint
import Verif.Props.Panic
/-!
# Ordinary use, from creation to reopening: C67

A new table on a working device, changed by any number of calls that respect the documented preconditions and stay within the 128
entries. The results on single calls combine to one statement about whole sessions.
-/

namespace Gpt

open Spec GptDisk

/-- The calls of a session: the documented preconditions, extents for `add_partition_at` that are free, tables for
`update_partitions` that are tidy and have ids from 1 to 128, and no exchange of the device. -/
def Spec.Ordinary (s : GptDisk) : Op → Prop
  | .addPartition _ size _ _ align _ _ => size ≠ 0 ∧ ∀ a, align = some a → a ≠ 0 ∧ a.toNat ≤ 2 ^ 63
  | .addPartitionAt _ id first length _ _ _ _ => id ≠ 0 ∧ length ≠ 0 ∧
      ∀ h, s.tryHeader = .ok h → FreeExtent h s.partitions first.toNat length.toNat
  | .updatePartitions pp _ => (∀ i p, (i, p) ∈ pp → 1 ≤ i.toNat ∧ i.toNat ≤ 128) ∧ ∀ h, s.tryHeader = .ok h → Tidy h pp
  | .updateDiskDevice _ _ => False
  | .deviceMut _ => False
  | _ => True

/-- The states of a session that starts with `s0`: calls, and at any time writing the table and opening the device again. -/
inductive Spec.Session (m : Mode) (s0 : GptDisk) : GptDisk → Prop
  | start : Session m s0 s0
  | call {s : GptDisk} (op : Op) : Session m s0 s → Ordinary s op → Session m s0 (op.step m s).2
  | reopen {s s1 s2 : GptDisk} {d : Dev} : Session m s0 s → writeInplace m s = (.ok (), s1) →
      openFromDevice m s.config s1.device = (.ok s2, d) → Session m s0 s2

/-- The invariant: `k` blocks per array, the backup header in block `B`, `d0` the device at the beginning. -/
structure Sound (cfg : GptConfig) (k B : Nat) (d0 : Dev) (h : Header) (s : GptDisk) : Prop where
  config : s.config = cfg
  sane : SaneDisk s h k B
  count : h.numParts = 128
  first : h.firstUsable.toNat = 2 + k
  last : h.lastUsable.toNat + k + 1 = B
  table : Tidy h s.partitions
  ids : ∀ i p, (i, p) ∈ s.partitions → 1 ≤ i.toNat ∧ i.toNat ≤ 128
  works : s.device.Works
  cap : s.device.cap = d0.cap
  length : s.device.data.length = d0.data.length
  bytes : ∀ i, ¬ InPrimary cfg.lbSize 128 i → ¬ InBackup cfg.lbSize 128 k B i → byteAt s.device.data i = byteAt d0.data i

section
variable {m : Mode} {cfg : GptConfig} {k B : Nat} {d0 : Dev} {h : Header} {s : GptDisk}

/-- A map with keys from `lo + 1` to `hi` has at most `hi - lo` entries. -/
theorem keys_length {t : PMap} {lo hi : Nat} (hk : t.Pairwise (fun a b => a.1 < b.1)) (hi' : ∀ i p, (i, p) ∈ t → lo < i.toNat ∧ i.toNat ≤ hi) :
    t.length ≤ hi - lo := by
  induction t generalizing lo with
  | nil => exact Nat.zero_le _
  | cons e t ih =>
    obtain ⟨h1, h2⟩ := List.pairwise_cons.mp hk
    have he := hi' e.1 e.2 List.mem_cons_self
    have := ih (lo := e.1.toNat) h2 fun i p hm => ⟨UInt32.lt_iff_toNat_lt.mp (h1 _ hm), (hi' i p (List.mem_cons_of_mem _ hm)).2⟩
    simp only [List.length_cons]
    omega

theorem Sound.entries (v : Sound cfg k B d0 h s) : s.partitions.length ≤ 128 :=
  keys_length (lo := 0) v.table.keys fun i p hm => v.ids i p hm

theorem used_length_le (t : PMap) : (Spec.used t).length ≤ t.length := by
  unfold Spec.used
  exact (List.length_filter_le _ _).trans (by rw [List.length_map])

theorem Sound.room (v : Sound cfg k B d0 h s) : (Spec.used s.partitions).length ≤ h.numParts.toNat := by
  rw [v.count]
  exact (used_length_le _).trans v.entries

theorem Sound.blocks (v : Sound cfg k B d0 h s) (hB : d0.data.length / cfg.lbSize.usize = B + 1) :
    s.device.data.length / s.config.lbSize.usize = B + 1 := by rw [v.length, v.config]; exact hB

/-- Another table. -/
theorem Sound.withTable (v : Sound cfg k B d0 h s) {t : PMap} (ht : Tidy h t) (hi : ∀ i p, (i, p) ∈ t → 1 ≤ i.toNat ∧ i.toNat ≤ 128) :
    Sound cfg k B d0 h (s.withParts t) :=
  ⟨v.config, ⟨v.sane.header, v.sane.sane, v.sane.fits, v.sane.length⟩, v.count, v.first, v.last, ht, hi, v.works, v.cap, v.length, v.bytes⟩

theorem Sound.removed (v : Sound cfg k B d0 h s) (id : UInt32) : Sound cfg k B d0 h (s.withParts (PMap.remove s.partitions id)) :=
  v.withTable (tidy_remove v.table id) fun i p hm => v.ids i p (PMap.mem_remove.mp hm).1

theorem Sound.inserted (v : Sound cfg k B d0 h s) (hc : cfg.changePartitionCount = false) {id : UInt32} {p : Partition} {fresh2 : Uuid}
    {r : Res GptError UInt32} {s' : GptDisk} (hi : Inserted m id p fresh2 s r s')
    (ht : ∀ id', r = .ok id' → id ≠ 0 ∧ Tidy h (PMap.insert id p s.partitions)) : Sound cfg k B d0 h s' := by
  cases hi with
  | panic => exact v
  | refused => exact v
  | plain h' hh hw =>
    obtain rfl := Except.ok.inj ((header_try v.sane.header).symm.trans hh)
    have h128 : (128 : UInt32).toNat = 128 := rfl
    have := (wouldChange_false _ _).mp hw
    rw [v.count, h128] at this
    obtain ⟨h0, h1⟩ := ht id rfl
    refine v.withTable h1 fun i q hm => ?_
    rcases PMap.mem_insert_subset hm with e | e
    · cases e
      refine ⟨?_, by omega⟩
      rcases Nat.eq_zero_or_pos id.toNat with e | e
      · exact absurd (UInt32.toNat_inj.mp e) h0
      · exact e
    · exact v.ids i q e
  | rebuilt _ _ _ _ _ hp => rw [v.config, hc] at hp; cases hp

theorem Sound.neat (v : Sound cfg k B d0 h s) : NeatHeader s.config.lbSize h where
  size := v.sane.sane.entry
  small := v.sane.sane.count
  first := by
    have e := v.first
    obtain ⟨-, e2⟩ := blocksFor_spec (h.numParts.toNat * 128) s.config.lbSize
    have hle := v.sane.sane.arrays.enough
    have hlt : blocksFor (h.numParts.toNat * 128) s.config.lbSize * s.config.lbSize.usize < (k + 1) * s.config.lbSize.usize := by
      rw [Nat.add_mul, Nat.one_mul]; omega
    have := Nat.lt_of_mul_lt_mul_right hlt
    omega
  order := v.sane.sane.usable
  last := by
    obtain ⟨hB, _⟩ := sane_bounds v.sane.sane
    have := v.last
    omega

/-- One call. -/
theorem Sound.step (v : Sound cfg k B d0 h s) (hw : cfg.writable = true) (hc : cfg.changePartitionCount = false)
    (hB : d0.data.length / cfg.lbSize.usize = B + 1) (op : Op) (ho : Ordinary s op) : ∃ h', Sound cfg k B d0 h' (op.step m s).2 := by
  have hh := header_try v.sane.header
  obtain ⟨hB64, hkB⟩ := sane_bounds v.sane.sane
  have hlast := v.last
  have h1 : (1 : UInt64).toNat = 1 := rfl
  cases op with
  | addPartition name size ty flags align fresh fresh2 =>
    show ∃ h', Sound cfg k B d0 h' (addPartition m name size ty flags align fresh fresh2 s).2
    refine ⟨h, ?_⟩
    rcases hx : addPartition m name size ty flags align fresh fresh2 s with ⟨r, s'⟩
    have hany := addPartition_any m name size ty flags align fresh fresh2 s
    rw [hx] at hany
    cases r with
    | ok id =>
      obtain ⟨-, -, hpick, start, n, hn1, hfree, -, -, hend, hins⟩ := addPartition_ok hh v.neat.range v.table (.inr fun a ha => (ho.2 a ha).2) hx
      have hia := insertPartition_any m name id start n ty flags fresh fresh2 s
      rw [hins] at hia
      have hpos : 1 ≤ n.toNat := by rw [hn1]; exact Nat.le_add_left 1 _
      have hsum : (start + n).toNat = start.toNat + n.toNat := u64_add_toNat (by omega)
      refine v.inserted hc hia fun _ _ => ⟨pickId_ne_zero v.table.keys hpick (.inr (Nat.lt_of_le_of_lt v.entries (by decide))), tidy_insert v.table hfree hpos rfl ?_⟩
      show (start + n - 1).toNat + 1 = start.toNat + n.toNat
      rw [u64_sub_toNat (by omega), hsum, h1]
      omega
    | err e =>
      rcases hany with ⟨rfl, -⟩ | ⟨_, _, _, _, hi⟩
      · exact v
      · exact v.inserted hc hi fun _ e => by cases e
    | panic =>
      rcases hany with ⟨rfl, -⟩ | ⟨_, _, _, _, hi⟩
      · exact v
      · exact v.inserted hc hi fun _ e => by cases e
  | addPartitionAt name id first length ty flags fresh fresh2 =>
    show ∃ h', Sound cfg k B d0 h' (addPartitionAt m name id first length ty flags fresh fresh2 s).2
    refine ⟨h, ?_⟩
    rcases addPartitionAt_any m name id first length ty flags fresh fresh2 s with ⟨e, -⟩ | ⟨hid, h0, -, -, hi⟩
    · rw [e]; exact v
    · have hfree := ho.2.2 h hh
      have hpos : 1 ≤ length.toNat := by
        rcases Nat.eq_zero_or_pos length.toNat with e | e
        · exact absurd (UInt64.toNat_inj.mp e) h0
        · exact e
      have hend := (hfree (first.toNat + length.toNat - 1) (by omega) (by omega)).2.1
      have hsum : (first + length).toNat = first.toNat + length.toNat := u64_add_toNat (by omega)
      refine v.inserted hc hi fun _ _ => ⟨hid, tidy_insert v.table hfree hpos rfl ?_⟩
      show (first + length - 1).toNat + 1 = first.toNat + length.toNat
      rw [u64_sub_toNat (by omega), hsum, h1]
      omega
  | removePartition id =>
    refine ⟨h, ?_⟩
    show Sound cfg k B d0 h (removePartition (ε := GptError) id s).2
    unfold removePartition
    split
    · exact v.removed _
    · exact v
  | removePartitionByGuid g =>
    refine ⟨h, ?_⟩
    show Sound cfg k B d0 h (removePartitionByGuid (ε := GptError) g s).2
    unfold removePartitionByGuid
    split
    · exact v.removed _
    · exact v
  | takePartitions => exact ⟨h, v.withTable (tidy_nil h) (fun _ _ hm => nomatch hm)⟩
  | updateGuid u r =>
    exact ⟨h, v.config, ⟨v.sane.header, v.sane.sane, v.sane.fits, v.sane.length⟩, v.count, v.first, v.last, v.table, v.ids, v.works, v.cap,
      v.length, v.bytes⟩
  | updateDiskDevice d w => exact ho.elim
  | deviceMut d => exact ho.elim
  | updatePartitions pp fresh =>
    have ht := ho.2 h hh
    have hlen : pp.length ≤ 128 := keys_length (lo := 0) ht.keys fun i p hm => ho.1 i p hm
    have h0 : PMap.get pp 0 = none := by
      cases hg : PMap.get pp 0 with
      | none => rfl
      | some p => exact absurd (ho.1 0 p (PMap.mem_of_get hg)).1 (by decide)
    rw [step_updatePartitions, updatePartitions_sane v.sane v.count hlen h0 v.works.faults v.works.pos (v.blocks hB)]
    have hl : (rebuiltP k B { h with diskGuid := s.guid }).lastUsable.toNat = B - k - 1 := ofNat64 (by omega)
    refine ⟨_, v.config, reinit_sane v.sane pp, v.count, v.first, by rw [hl]; omega, tidy_wider ht (Nat.le_refl _) (by rw [hl]; omega), ho.1,
      v.works, v.cap, v.length, v.bytes⟩
  | writeInplace =>
    have hok := write_nil (m := m) v.sane (by rw [v.config]; exact hw) v.room v.works.faults
      (v.sane.fits.trans v.works.length)
    have hwk := Dev.works_frame.writeInplace m s v.works
    show ∃ h', Sound cfg k B d0 h' (writeInplace m s).2
    have hconf := fun i => c32_confined m s h k B v.sane i
    rcases hx : writeInplace m s with ⟨r, s'⟩
    rw [hx] at hok hwk hconf
    simp only at hok hwk hconf
    subst hok
    have w := write_ok v.sane hx
    obtain ⟨a1, a2, a3, a4, a5, a6, a7⟩ := v.sane.sane
    have hl : (rebuiltP k B h).lastUsable.toNat = B - k - 1 := ofNat64 (by omega)
    refine ⟨_, w.rest.config.trans v.config, ⟨header_ok_iff.mpr (tryHeader_of_primary w.primary), ?_, ?_, ?_⟩, v.count, v.first, ?_, ?_, ?_, hwk.1,
      hwk.2.trans v.cap, w.length.trans v.length, fun i hp hb => ?_⟩
    · rw [w.rest.config]
      refine ⟨rfl, a2, a3, .inl ⟨rfl, ofNat64 hB64⟩, a5, ?_, ?_⟩
      · show h.firstUsable.toNat ≤ (rebuiltP k B h).lastUsable.toNat
        rw [hl]; omega
      · show (rebuiltP k B h).lastUsable.toNat + k + 1 ≤ B
        rw [hl]; omega
    · rw [w.rest.config, w.length]; exact v.sane.fits
    · rw [w.length]; exact v.sane.length
    · show (rebuiltP k B h).lastUsable.toNat + k + 1 = B
      rw [hl]; omega
    · rw [w.rest.partitions]
      exact tidy_wider v.table (Nat.le_refl _) (by show _ ≤ (rebuiltP k B h).lastUsable.toNat; rw [hl]; omega)
    · rw [w.rest.partitions]; exact v.ids
    · have h128 : h.numParts.toNat = 128 := by rw [v.count]; rfl
      rw [(hconf i (by rw [h128, v.config]; exact hp) (by rw [h128, v.config]; exact hb)).1]
      exact v.bytes i hp hb

/-- What comes back of a tidy table is tidy. -/
theorem tidy_numbered {t : PMap} (ht : Tidy h t) (hl : (Spec.used t).length < 2 ^ 32) : Tidy h (numberFrom 0 (Spec.used t)) := by
  have hmem : ∀ p ∈ Spec.used t, Used t p := by
    intro p hp
    unfold Spec.used at hp
    rw [List.mem_filter, List.mem_map] at hp
    obtain ⟨⟨e, he, rfl⟩, hu⟩ := hp
    exact ⟨e.1, he, by simpa using hu⟩
  have hpair : (Spec.used t).Pairwise fun p q => ∀ x, ¬ (Covers p x ∧ Covers q x) := by
    unfold Spec.used
    rw [List.pairwise_filter, List.pairwise_map]
    refine List.Pairwise.imp_of_mem ?_ ht.keys
    intro a b ha hb hab hua hub
    exact ht.apart a.1 b.1 a.2 b.2 ha hb (fun e => absurd hab (by rw [e]; exact UInt32.lt_irrefl _)) (by simpa using hua) (by simpa using hub)
  have hget : ∀ p, Used (numberFrom 0 (Spec.used t)) p → ∃ q, Used t q ∧ SameEntry q p := by
    rintro p ⟨i, hm, -⟩
    obtain ⟨j, hj, e⟩ := mem_numberFrom hm
    cases e
    exact ⟨_, hmem _ (List.getElem_mem hj), storedPart_same _⟩
  refine ⟨?_, fun p hp => ?_, fun p hp => ?_, ?_⟩
  · have hids := numberFrom_ids 0 (Spec.used t) (by omega)
    have hs : ((numberFrom 0 (Spec.used t)).map fun e => e.1.toNat).Pairwise (· < ·) := by
      rw [hids]; exact List.pairwise_lt_range'
    rw [List.pairwise_map] at hs
    exact hs.imp fun h => UInt32.lt_iff_toNat_lt.mpr h
  · obtain ⟨q, hq, e⟩ := hget p hp
    rw [e.first, e.last]; exact ht.order q hq
  · obtain ⟨q, hq, e⟩ := hget p hp
    rw [e.first, e.last]; exact ht.inside q hq
  · intro i j p q hi hj hij _ _ x hx
    obtain ⟨a, ha, e1⟩ := mem_numberFrom hi
    obtain ⟨b, hb, e2⟩ := mem_numberFrom hj
    cases e1
    cases e2
    have ea := storedPart_same (Spec.used t)[a]
    have eb := storedPart_same (Spec.used t)[b]
    have hx : Covers (Spec.used t)[a] x ∧ Covers (Spec.used t)[b] x := by
      unfold Covers at hx ⊢
      rw [ea.first, ea.last, eb.first, eb.last] at hx
      exact hx
    have hab : a ≠ b := fun e => hij (by rw [e])
    rw [List.pairwise_iff_getElem] at hpair
    rcases Nat.lt_or_gt_of_ne hab with hlt | hlt
    · exact hpair a b ha hb hlt x hx
    · exact hpair b a hb ha hlt x hx.symm

/-- Writing and opening again. -/
theorem Sound.reopen (v : Sound cfg k B d0 h s) (hB : d0.data.length / cfg.lbSize.usize = B + 1)
    (hro : cfg.onlyValidHeaders = true → cfg.readonlyBackup = false) (hw : cfg.writable = true) (hc : cfg.changePartitionCount = false)
    {s1 : GptDisk} (h1 : writeInplace m s = (.ok (), s1)) :
    ∃ s2 d2 h2, openFromDevice m s.config s1.device = (.ok s2, d2) ∧ Sound cfg k B d0 h2 s2 ∧ h2.diskGuid = h.diskGuid ∧ s2.guid = h.diskGuid ∧
      Numbered (Spec.used s.partitions) s2.partitions := by
  obtain ⟨h', v1⟩ := v.step hw hc hB .writeInplace trivial (m := m)
  have e1 : ((Op.writeInplace.step m s).2 : GptDisk) = s1 := by
    show (writeInplace m s).2 = s1
    rw [h1]
  rw [e1] at v1
  have w := write_ok v.sane h1
  have hs1 := w.saneDisk v.sane
  obtain rfl := Except.ok.inj ((header_try v1.sane.header).symm.trans (header_try hs1.header))
  have hroom := v.room
  have hcount := v.sane.sane.count
  obtain ⟨b, p, e⟩ := open_written (m' := m) (cfg := s.config) (d := s1.device) v.sane h1 rfl v1.works.faults v1.works.pos rfl
    (fun hv => c30_backup_valid m s s1 h k B v.sane h1 (by rw [v.config] at hv ⊢; exact hro hv) (v.blocks hB))
  have hp : p < 2 ^ 64 := by
    have := (Dev.works_frame.openFromDevice m s.config s1.device v1.works).1.pos
    rw [e] at this
    exact this
  have hcfg : s1.config = s.config := w.rest.config
  refine ⟨_, _, _, e, ⟨v.config, ⟨rfl, ?_, ?_, v1.sane.length⟩, v1.count, v1.first, v1.last, ?_, ?_, ⟨v1.works.faults, v1.works.cap, v1.works.length, hp⟩,
    v1.cap, v1.length, v1.bytes⟩, rfl, rfl, numbered_numberFrom (by omega)⟩
  · show SaneHeader s.config.lbSize k B _
    rw [← hcfg]; exact v1.sane.sane
  · show _ * s.config.lbSize.usize ≤ s1.device.data.length
    rw [← hcfg]; exact v1.sane.fits
  · have ht := v1.table
    rw [w.rest.partitions] at ht
    exact tidy_numbered ht (by omega)
  · intro i q hm
    have h128 : h.numParts.toNat = 128 := by rw [v.count]; rfl
    obtain ⟨j, hj, e⟩ := mem_numberFrom hm
    cases e
    have : (UInt32.ofNat (0 + j + 1)).toNat = j + 1 := by rw [UInt32.toNat_ofNat', Nat.mod_eq_of_lt (by omega)]; omega
    omega

theorem Sound.session {s0 : GptDisk} (v : Sound cfg k B d0 h s0) (hw : cfg.writable = true) (hc : cfg.changePartitionCount = false)
    (hro : cfg.onlyValidHeaders = true → cfg.readonlyBackup = false)
    (hB : d0.data.length / cfg.lbSize.usize = B + 1) {s : GptDisk} (hs : Session m s0 s) : ∃ h', Sound cfg k B d0 h' s := by
  induction hs with
  | start => exact ⟨h, v⟩
  | call op _ ho ih =>
    obtain ⟨h', v'⟩ := ih
    exact v'.step hw hc hB op ho
  | reopen _ h1 h2 ih =>
    obtain ⟨h', v'⟩ := ih
    obtain ⟨s2, d2, h2', e, v2, -⟩ := v'.reopen hB hro hw hc h1
    rw [e] at h2
    cases h2
    exact ⟨_, v2⟩

/-- The invariant excludes the numbers that make debug builds panic. -/
theorem Sound.modest (v : Sound cfg k B d0 h s) (hB : B < 2 ^ 51) : Modest h s.partitions := by
  obtain ⟨-, hkB⟩ := sane_bounds v.sane.sane
  have hf := v.first
  have hl := v.last
  have h128 : h.numParts.toNat = 128 := by rw [v.count]; rfl
  have he := v.entries
  refine ⟨by omega, by omega, ?_, ?_, by omega, v.sane.sane.entry, by omega, fun p hp => ?_⟩
  · rcases v.sane.sane.lbas with ⟨e1, e2⟩ | ⟨e1, e2⟩ <;> omega
  · rcases v.sane.sane.lbas with ⟨e1, e2⟩ | ⟨e1, e2⟩ <;> omega
  · have := v.table.inside p hp
    have := v.table.order p hp
    omega

theorem Sound.noPanic (v : Sound cfg k B d0 h s) (hB : B < 2 ^ 51) (op : Op) (ho : Ordinary s op) : (op.step m s).1 ≠ .panic := by
  have hh := header_try v.sane.header
  refine step_noPanic hh v.sane.sane.entry ?_ (.inr ⟨v.modest hB, ?_⟩)
  · cases op with
    | addPartition => exact ⟨ho.1, fun e => (ho.2 0 e).1 rfl⟩
    | addPartitionAt => exact ⟨ho.1, ho.2.1⟩
    | updatePartitions => exact fun p hm => absurd (ho.1 _ _ hm).1 (by decide)
    | _ => trivial
  · cases op with
    | addPartition => exact fun a ha => (ho.2 a ha).2
    | addPartitionAt _ _ first length =>
      have hl := v.last
      show first.toNat + length.toNat < 2 ^ 64
      have hpos : 1 ≤ length.toNat := by
        rcases Nat.eq_zero_or_pos length.toNat with e | e
        · exact absurd (UInt64.toNat_inj.mp e) ho.2.1
        · exact e
      have := (ho.2.2 h hh (first.toNat + length.toNat - 1) (by omega) (by omega)).2.1
      omega
    | updatePartitions pp =>
      have : pp.length ≤ 128 := keys_length (lo := 0) (ho.2 h hh).keys fun i p hm => ho.1 i p hm
      show pp.length < 2 ^ 25
      omega
    | _ => trivial

end

/-! ## C67 -/

/-- The setting of the claim: a working device below 2^60 bytes, a writable configuration that keeps the number of entries (and does not
insist on valid backup headers while leaving the backup alone), a table created on it, and `s` reached in a session. `k` is the number
of blocks of 128 entries. -/
structure Spec.InSession (m : Mode) (cfg : GptConfig) (k : Nat) (d : Dev) (s : GptDisk) : Prop where
  works : d.Works
  small : d.data.length < 2 ^ 60
  array : JustEnough cfg.lbSize (128 * 128) k
  writable : cfg.writable = true
  count : cfg.changePartitionCount = false
  headers : cfg.onlyValidHeaders = true → cfg.readonlyBackup = false
  session : ∃ guid fresh fresh2 s0 d0, createFromDevice m cfg guid fresh fresh2 d = (.ok s0, d0) ∧ Session m s0 s

theorem Spec.InSession.sound {m : Mode} {cfg : GptConfig} {k : Nat} {d : Dev} {s : GptDisk} (hs : InSession m cfg k d s) :
    ∃ B h, d.data.length / cfg.lbSize.usize = B + 1 ∧ 2 * k + 3 ≤ B ∧ B < 2 ^ 51 ∧ Sound cfg k B d h s := by
  obtain ⟨guid, fresh, fresh2, s0, d0, hcr, hse⟩ := hs.session
  have hsm := hs.small
  have hwhen := (c61_when m cfg guid fresh fresh2 d k hs.works.faults hs.works.pos (by omega) hs.array).1.mp ⟨s0, by rw [hcr]⟩
  obtain ⟨B, hB⟩ : ∃ B, d.data.length / cfg.lbSize.usize = B + 1 := ⟨d.data.length / cfg.lbSize.usize - 1, by omega⟩
  have hkB : 2 * k + 3 ≤ B := by omega
  have hB51 : B < 2 ^ 51 := by
    have h1 := Nat.div_mul_le_self d.data.length cfg.lbSize.usize
    have h2 : (B + 1) * 512 ≤ (B + 1) * cfg.lbSize.usize := Nat.mul_le_mul_left _ (by cases cfg.lbSize <;> decide)
    rw [hB] at h1
    omega
  have hc := createFromDevice_nil m cfg guid fresh fresh2 hs.works.faults hs.works.pos (by omega) hs.array hB
  rw [if_pos hkB, hcr] at hc
  cases hc
  have hsane := madeDisk_sane (g := guid.getD fresh) (by omega) hs.array hB hkB
  have v0 : Sound cfg k B d (createdP k B (guid.getD fresh)) (madeDisk cfg d k B (guid.getD fresh)) := by
    refine ⟨rfl, hsane, rfl, ofNat64 (by omega), ?_, tidy_nil _, (fun _ _ hm => nomatch hm), hs.works, rfl, rfl, fun _ _ _ => rfl⟩
    show (UInt64.ofNat (B - k - 1)).toNat + k + 1 = B
    rw [ofNat64 (by omega)]
    omega
  obtain ⟨h, v⟩ := v0.session hs.writable hs.count hs.headers hB hse
  exact ⟨B, h, hB, hkB, hB51, v⟩

/-- **C67**, calls: no call of a session panics, in debug builds either. -/
theorem c67_no_panic {m : Mode} {cfg : GptConfig} {k : Nat} {d : Dev} {s : GptDisk} (hs : InSession m cfg k d s) (op : Op)
    (ho : Ordinary s op) : (op.step m s).1 ≠ .panic := by
  obtain ⟨B, h, -, -, hB, v⟩ := hs.sound
  exact v.noPanic hB op ho

/-- **C67**, table: at any time the header covers the whole device, and the used partitions are non-empty, pairwise disjoint and between
the two arrays. -/
theorem c67_table {m : Mode} {cfg : GptConfig} {k : Nat} {d : Dev} {s : GptDisk} (hs : InSession m cfg k d s) :
    ∃ h, s.tryHeader = .ok h ∧ Tidy h s.partitions ∧ h.numParts = 128 ∧ h.firstUsable.toNat = 2 + k ∧
      h.lastUsable.toNat + k + 2 = d.data.length / cfg.lbSize.usize ∧ (∀ i p, (i, p) ∈ s.partitions → 1 ≤ i.toNat ∧ i.toNat ≤ 128) := by
  obtain ⟨B, h, hB, hkB, -, v⟩ := hs.sound
  have := v.last
  exact ⟨h, header_try v.sane.header, v.table, v.count, v.first, by omega, v.ids⟩

/-- **C67**, data: with `n` blocks on the device, block 0, the blocks between the arrays and whatever follows the last whole block never
change. -/
theorem c67_data {m : Mode} {cfg : GptConfig} {k : Nat} {d : Dev} {s : GptDisk} (hs : InSession m cfg k d s) (i : Nat)
    (hi : i < cfg.lbSize.usize ∨
      ((2 + k) * cfg.lbSize.usize ≤ i ∧ i < (d.data.length / cfg.lbSize.usize - 1 - k) * cfg.lbSize.usize) ∨
      d.data.length / cfg.lbSize.usize * cfg.lbSize.usize ≤ i) :
    byteAt s.device.data i = byteAt d.data i ∧ s.device.data.length = d.data.length := by
  obtain ⟨B, h, hB, hkB, -, v⟩ := hs.sound
  have e := hs.array.enough
  have hpos := lb_pos cfg.lbSize
  rw [hB, Nat.add_sub_cancel] at hi
  have q1 : (2 + k) * cfg.lbSize.usize = 2 * cfg.lbSize.usize + k * cfg.lbSize.usize := Nat.add_mul ..
  have q2 : (B - k) * cfg.lbSize.usize + k * cfg.lbSize.usize = B * cfg.lbSize.usize := by rw [← Nat.add_mul]; congr 1; omega
  have q3 : (B + 1) * cfg.lbSize.usize = B * cfg.lbSize.usize + cfg.lbSize.usize := by rw [Nat.add_mul, Nat.one_mul]
  have q4 : 3 * cfg.lbSize.usize ≤ (B - k) * cfg.lbSize.usize := Nat.mul_le_mul_right _ (by omega)
  have q5 : (2 + k) * cfg.lbSize.usize ≤ (B - k) * cfg.lbSize.usize := Nat.mul_le_mul_right _ (by omega)
  refine ⟨v.bytes i ?_ ?_, v.length⟩
  · unfold InPrimary; omega
  · unfold InBackup; omega

/-- **C67**, write and open: at any time writing succeeds and opening the device again gives the used partitions in order of id, numbered
from 1, and the GUID of the header. -/
theorem c67_write_open {m : Mode} {cfg : GptConfig} {k : Nat} {d : Dev} {s : GptDisk} (hs : InSession m cfg k d s) :
    ∃ s1 s2 d2 h, writeInplace m s = (.ok (), s1) ∧ openFromDevice m cfg s1.device = (.ok s2, d2) ∧ InSession m cfg k d s2 ∧
      s.tryHeader = .ok h ∧ s2.guid = h.diskGuid ∧ Numbered (Spec.used s.partitions) s2.partitions := by
  obtain ⟨B, h, hB, hkB, -, v⟩ := hs.sound
  have hok := write_nil (m := m) v.sane (by rw [v.config]; exact hs.writable) v.room v.works.faults (v.sane.fits.trans v.works.length)
  rcases hx : writeInplace m s with ⟨r, s1⟩
  rw [hx] at hok
  simp only at hok
  subst hok
  obtain ⟨s2, d2, h2, e, -, -, hg, hn⟩ := v.reopen hB hs.headers hs.writable hs.count hx
  obtain ⟨guid, fresh, fresh2, s0, d0, hcr, hse⟩ := hs.session
  have hse2 := Session.reopen hse hx e
  rw [v.config] at e
  exact ⟨s1, s2, d2, h, rfl, e, ⟨hs.works, hs.small, hs.array, hs.writable, hs.count, hs.headers, guid, fresh, fresh2, s0, d0, hcr, hse2⟩,
    header_try v.sane.header, hg, hn⟩

/-- **C67**, loss of the primary copy: after a write that includes the backup, whatever happens to the blocks before the backup array, as
long as no valid header is left in block 1, the device opens with the same table. -/
theorem c67_recover {m m' : Mode} {cfg cfg' : GptConfig} {k : Nat} {d d1 : Dev} {s s1 : GptDisk} (hs : InSession m cfg k d s)
    (hro : cfg.readonlyBackup = false) (hx : writeInplace m s = (.ok (), s1)) (hlen : d1.data.length = d.data.length)
    (hsame : ∀ i, (d.data.length / cfg.lbSize.usize - 1 - k) * cfg.lbSize.usize ≤ i → byteAt d1.data i = byteAt s1.device.data i)
    (hinv : ¬ PrimaryValid cfg.lbSize d1.data) (hf : d1.faults = []) (hp : d1.pos < 2 ^ 64)
    (hlb : cfg'.lbSize = cfg.lbSize) (hv : cfg'.onlyValidHeaders = false) :
    ∃ s2 d2 h, openFromDevice m' cfg' d1 = (.ok s2, d2) ∧ s.tryHeader = .ok h ∧ s2.guid = h.diskGuid ∧
      Numbered (Spec.used s.partitions) s2.partitions := by
  obtain ⟨B, h, hB, hkB, -, v⟩ := hs.sound
  have hcfg := v.config
  have q2 : (B - k) * cfg.lbSize.usize ≤ B * cfg.lbSize.usize := Nat.mul_le_mul_right _ (by omega)
  rw [hB, Nat.add_sub_cancel] at hsame
  obtain ⟨s2, d2, h2, e, -, -, -, hg, -, -, -, -, hn⟩ := c31_partial m m' s s1 h k B cfg' d1 v.sane hx (by rw [hcfg]; exact hro) (v.blocks hB)
    (by rw [(write_ok v.sane hx).length, hlen, v.length]) (fun i hi => hsame i (by
      rw [hcfg] at hi
      unfold InBackup at hi
      omega)) (by rw [hcfg]; exact hinv) hf hp (by rw [hcfg]; exact hlb) hv
  exact ⟨s2, d2, h, e, header_try v.sane.header, hg, hn⟩

/-- **C67**, failures: a session ends with a write during which the device fails (or the power goes) at any point: the blocks of `c67_data`
still do not change. -/
theorem c67_crash {m : Mode} {cfg : GptConfig} {k : Nat} {d : Dev} {s : GptDisk} (hs : InSession m cfg k d s) (fs : List Fault) (i : Nat)
    (hi : i < cfg.lbSize.usize ∨
      ((2 + k) * cfg.lbSize.usize ≤ i ∧ i < (d.data.length / cfg.lbSize.usize - 1 - k) * cfg.lbSize.usize) ∨
      d.data.length / cfg.lbSize.usize * cfg.lbSize.usize ≤ i) :
    byteAt (writeInplace m { s with device := { s.device with faults := fs } }).2.device.data i = byteAt d.data i := by
  obtain ⟨h1, h2⟩ := c67_data hs i hi
  obtain ⟨B, h, hB, hkB, -, v⟩ := hs.sound
  have e := hs.array.enough
  have h128 : h.numParts.toNat = 128 := by rw [v.count]; rfl
  rw [hB, Nat.add_sub_cancel] at hi
  have q1 : (2 + k) * cfg.lbSize.usize = 2 * cfg.lbSize.usize + k * cfg.lbSize.usize := Nat.add_mul ..
  have q2 : (B - k) * cfg.lbSize.usize + k * cfg.lbSize.usize = B * cfg.lbSize.usize := by rw [← Nat.add_mul]; congr 1; omega
  have q3 : (B + 1) * cfg.lbSize.usize = B * cfg.lbSize.usize + cfg.lbSize.usize := by rw [Nat.add_mul, Nat.one_mul]
  have q4 : 3 * cfg.lbSize.usize ≤ (B - k) * cfg.lbSize.usize := Nat.mul_le_mul_right _ (by omega)
  have q5 : (2 + k) * cfg.lbSize.usize ≤ (B - k) * cfg.lbSize.usize := Nat.mul_le_mul_right _ (by omega)
  have hs' : SaneDisk { s with device := { s.device with faults := fs } } h k B := ⟨v.sane.header, v.sane.sane, v.sane.fits, v.sane.length⟩
  rw [(c32_confined m _ h k B hs' i (by
    show ¬ InPrimary s.config.lbSize _ i
    rw [v.config, h128]; unfold InPrimary; omega) (by
    show ¬ InBackup s.config.lbSize _ k B i
    rw [v.config, h128]; unfold InBackup; omega)).1]
  exact h1

/-- A session on 100 blocks: add a partition, write, open again, add another, remove the first. -/
example (m : Mode) : ∃ s s1 s2 d2 s3, InSession m (GptConfig.new.setWritable true) 32 dev100 s ∧ s.partitions.length = 1 ∧
    writeInplace m s = (.ok (), s1) ∧ openFromDevice m (GptConfig.new.setWritable true) s1.device = (.ok s2, d2) ∧
    InSession m (GptConfig.new.setWritable true) 32 dev100 s3 ∧
    s3 = ((Op.removePartition 1).step m ((Op.addPartition "b" 512 (exPart 0 0).partType 0 none Uuid.nil Uuid.nil).step m s2).2).2 := by
  have hwk : dev100.Works := ⟨rfl, by show 51200 < 2 ^ 64; decide, Nat.le_of_eq dev100_length, by show 0 < 2 ^ 64; decide⟩
  have hc := made_created m (GptConfig.new.setWritable true) (d := dev100) (B := 99) rfl (by show 0 < 2 ^ 64; decide) (by rw [dev100_length]; decide)
    enough512 (by rw [dev100_length]; rfl) (by decide)
  have mk : ∀ {s}, Session m (madeDisk (GptConfig.new.setWritable true) dev100 32 99 Uuid.nil) s →
      InSession m (GptConfig.new.setWritable true) 32 dev100 s := fun h =>
    ⟨hwk, by rw [dev100_length]; decide, enough512, rfl, rfl, fun _ => rfl, _, _, _, _, _, hc, h⟩
  obtain ⟨op, hop⟩ : ∃ op : Op, op = .addPartition "a" 1024 (exPart 0 0).partType 0 none Uuid.nil Uuid.nil := ⟨_, rfl⟩
  have hs1 := mk (.call op .start (by rw [hop]; exact ⟨by decide, fun _ h => nomatch h⟩))
  obtain ⟨s1, s2, d2, h, hw, ho, hs2, -⟩ := c67_write_open hs1
  have hs3 : InSession m (GptConfig.new.setWritable true) 32 dev100
      ((Op.removePartition 1).step m ((Op.addPartition "b" 512 (exPart 0 0).partType 0 none Uuid.nil Uuid.nil).step m s2).2).2 := by
    obtain ⟨a1, a2, a3, a4, a5, a6, g, f, f2, s0, d0, hcr, hse⟩ := hs2
    exact ⟨a1, a2, a3, a4, a5, a6, g, f, f2, s0, d0, hcr, .call _ (.call _ hse ⟨by decide, fun _ h => nomatch h⟩) trivial⟩
  refine ⟨_, s1, s2, d2, _, hs1, ?_, hw, ho, hs3, rfl⟩
  rw [hop]
  cases m <;> decide +kernel

end Gpt
