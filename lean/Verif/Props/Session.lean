import Verif.Props.Ordinary
import Verif.Props.Outcomes
import Verif.Props.Guid
/-!
# Partitions in a session: C81 – C83

The setting is that of C67 (`InSession`): a table created on a working device and used as documented.
-/

namespace Gpt

open Spec GptDisk

namespace Spec

/-- Byte `x` of the device belongs to the data of `p`. -/
def HasByte (lb : LbSize) (p : Partition) (x : Nat) : Prop :=
  ∃ start len, p.bytesStart lb = .ok start ∧ p.bytesLen lb = .ok len ∧ start.toNat ≤ x ∧ x < start.toNat + len.toNat

/-- Blocks `y`, …, `y + n - 1` lie between the arrays of `k` blocks on a device of `N` blocks and in no used partition. -/
def Vacant (N k : Nat) (t : PMap) (y n : Nat) : Prop :=
  2 + k ≤ y ∧ y + n + k + 1 ≤ N ∧ ∀ p, Used t p → ∀ x, y ≤ x → x < y + n → ¬ Covers p x

end Spec

section
variable {m : Mode} {cfg : GptConfig} {k : Nat} {d : Dev} {s : GptDisk}

theorem session_bounds (hs : InSession m cfg k d s) {p : Partition} (hp : Used s.partitions p) :
    p.firstLba.toNat ≤ p.lastLba.toNat ∧ 2 + k ≤ p.firstLba.toNat ∧ p.lastLba.toNat + k + 2 ≤ d.data.length / cfg.lbSize.usize := by
  obtain ⟨h, -, ht, -, hf, hl, -⟩ := c67_table hs
  have h1 := ht.order p hp
  have h2 := ht.inside p hp
  omega

/-- The byte range of a used partition. -/
theorem session_range (hs : InSession m cfg k d s) {p : Partition} (hp : Used s.partitions p) :
    ∃ start len, p.bytesStart cfg.lbSize = .ok start ∧ p.bytesLen cfg.lbSize = .ok len ∧
      start.toNat = p.firstLba.toNat * cfg.lbSize.usize ∧ start.toNat + len.toNat = (p.lastLba.toNat + 1) * cfg.lbSize.usize := by
  obtain ⟨h1, h2, h3⟩ := session_bounds hs hp
  have hb := Nat.div_mul_le_self d.data.length cfg.lbSize.usize
  have hsm := hs.small
  have e : (p.lastLba.toNat + 1) * cfg.lbSize.usize ≤ d.data.length / cfg.lbSize.usize * cfg.lbSize.usize :=
    Nat.mul_le_mul_right _ (by omega)
  have e2 : p.firstLba.toNat * cfg.lbSize.usize + (p.lastLba.toNat - p.firstLba.toNat + 1) * cfg.lbSize.usize =
      (p.lastLba.toNat + 1) * cfg.lbSize.usize := by
    rw [← Nat.add_mul]
    congr 1
    omega
  refine ⟨UInt64.ofNat (p.firstLba.toNat * cfg.lbSize.usize), UInt64.ofNat ((p.lastLba.toNat - p.firstLba.toNat + 1) * cfg.lbSize.usize),
    (c10_bytes_start _ _ _).mpr (ofNat64 (by omega)), (c10_bytes_len _ _ _).mpr ⟨h1, ofNat64 (by omega)⟩, ofNat64 (by omega), ?_⟩
  rw [ofNat64 (by omega), ofNat64 (by omega)]
  exact e2

/-- **C81**, range: in a session `bytes_start` and `bytes_len` of a used partition succeed; its data is not empty and lies on the
device, behind the primary array and before the backup array. -/
theorem c81_range (hs : InSession m cfg k d s) {p : Partition} (hp : Used s.partitions p) :
    ∃ start len, p.bytesStart cfg.lbSize = .ok start ∧ p.bytesLen cfg.lbSize = .ok len ∧ 0 < len.toNat ∧
      (2 + k) * cfg.lbSize.usize ≤ start.toNat ∧
      start.toNat + len.toNat ≤ (d.data.length / cfg.lbSize.usize - 1 - k) * cfg.lbSize.usize ∧
      start.toNat + len.toNat ≤ s.device.data.length := by
  obtain ⟨start, len, h1, h2, h3, h4⟩ := session_range hs hp
  obtain ⟨b1, b2, b3⟩ := session_bounds hs hp
  have hb := Nat.div_mul_le_self d.data.length cfg.lbSize.usize
  have hl := (c67_data hs 0 (.inl (lb_pos _))).2
  have hpos := lb_pos cfg.lbSize
  have e1 : (2 + k) * cfg.lbSize.usize ≤ p.firstLba.toNat * cfg.lbSize.usize := Nat.mul_le_mul_right _ b2
  have e2 : (p.lastLba.toNat + 1) * cfg.lbSize.usize ≤ (d.data.length / cfg.lbSize.usize - 1 - k) * cfg.lbSize.usize :=
    Nat.mul_le_mul_right _ (by omega)
  have e3 : (d.data.length / cfg.lbSize.usize - 1 - k) * cfg.lbSize.usize ≤ d.data.length / cfg.lbSize.usize * cfg.lbSize.usize :=
    Nat.mul_le_mul_right _ (by omega)
  have e4 : p.firstLba.toNat * cfg.lbSize.usize < (p.lastLba.toNat + 1) * cfg.lbSize.usize :=
    Nat.mul_lt_mul_of_pos_right (by omega) hpos
  exact ⟨start, len, h1, h2, by omega, by omega, by omega, by omega⟩

/-- **C81**, disjoint: no byte belongs to two used partitions. -/
theorem c81_disjoint (hs : InSession m cfg k d s) {i j : UInt32} {p q : Partition} (hi : (i, p) ∈ s.partitions) (hj : (j, q) ∈ s.partitions)
    (hij : i ≠ j) (hp : p.partType.guid ≠ Uuid.nil) (hq : q.partType.guid ≠ Uuid.nil) (x : Nat) :
    ¬ (HasByte cfg.lbSize p x ∧ HasByte cfg.lbSize q x) := by
  obtain ⟨h, -, ht, -⟩ := c67_table hs
  have cov : ∀ {p : Partition}, Used s.partitions p → HasByte cfg.lbSize p x → Covers p (x / cfg.lbSize.usize) := by
    rintro p hp ⟨start, len, h1, h2, h3, h4⟩
    obtain ⟨start', len', h1', h2', e1, e2⟩ := session_range hs hp
    rw [h1] at h1'
    rw [h2] at h2'
    cases h1'; cases h2'
    rw [e2] at h4
    rw [e1] at h3
    refine ⟨(Nat.le_div_iff_mul_le (lb_pos _)).mpr h3, ?_⟩
    have := (Nat.div_lt_iff_lt_mul (lb_pos cfg.lbSize)).mpr h4
    omega
  rintro ⟨h1, h2⟩
  exact ht.apart i j p q hi hj hij hp hq _ ⟨cov ⟨i, hi, hp⟩ h1, cov ⟨j, hj, hq⟩ h2⟩

/-- **C81**, untouched: nothing the library does in the session changes a byte of a partition's data, from the creation of the table
to the current state. -/
theorem c81_untouched (hs : InSession m cfg k d s) {p : Partition} (hp : Used s.partitions p) {x : Nat} (hx : HasByte cfg.lbSize p x) :
    byteAt s.device.data x = byteAt d.data x := by
  obtain ⟨start, len, h1, h2, h3⟩ := hx
  obtain ⟨start', len', h1', h2', -, e1, e2, -⟩ := c81_range hs hp
  rw [h1] at h1'
  rw [h2] at h2'
  cases h1'; cases h2'
  exact (c67_data hs x (.inr (.inl (by omega)))).1

theorem vacant_iff (hs : InSession m cfg k d s) {h : Header} (hh : s.tryHeader = .ok h) {y n : Nat} (hn : 0 < n) :
    FreeExtent h s.partitions y n ↔ Vacant (d.data.length / cfg.lbSize.usize) k s.partitions y n := by
  obtain ⟨h', hh', -, -, hf, hl, -⟩ := c67_table hs
  rw [hh] at hh'
  cases hh'
  constructor
  · intro hx
    have h1 := hx y (Nat.le_refl _) (by omega)
    have h2 := hx (y + n - 1) (by omega) (by omega)
    exact ⟨by have := h1.1; omega, by have := h2.2.1; omega, fun p hp x a b => (hx x a b).2.2 p hp⟩
  · rintro ⟨h1, h2, h3⟩ x a b
    exact ⟨by omega, by omega, fun p hp => h3 p hp x a b⟩

/-- **C82**. In a session `add_partition` is a matter of room: without a free aligned run of enough blocks it reports
`NotEnoughSpace`, with one but without a free id `PartitionCountWouldChange`, and nothing changes; otherwise it succeeds, with the
smallest free id, at the first such run, changing nothing else. -/
theorem c82_add (hs : InSession m cfg k d s) (name : String) (size : UInt64) (ty : PType) (flags : UInt64) (align : Option UInt64)
    (fresh fresh2 : Uuid) (h0 : size ≠ 0) (hal : ∀ a, align = some a → a ≠ 0 ∧ a.toNat ≤ 2 ^ 63) {n : Nat}
    (hn : JustEnough cfg.lbSize size.toNat n) :
    ((∀ y, (∀ a, align = some a → a.toNat ∣ y) → ¬ Vacant (d.data.length / cfg.lbSize.usize) k s.partitions y n) →
      addPartition m name size ty flags align fresh fresh2 s = (.err .notEnoughSpace, s)) ∧
    (∀ y, (∀ a, align = some a → a.toNat ∣ y) → Vacant (d.data.length / cfg.lbSize.usize) k s.partitions y n →
      (∀ i, 1 ≤ i → i ≤ 128 → Taken s.partitions i) →
      addPartition m name size ty flags align fresh fresh2 s = (.err .partitionCountWouldChange, s)) ∧
    (∀ y i, (∀ a, align = some a → a.toNat ∣ y) → Vacant (d.data.length / cfg.lbSize.usize) k s.partitions y n →
      (∀ y', y' < y → (∀ a, align = some a → a.toNat ∣ y') → ¬ Vacant (d.data.length / cfg.lbSize.usize) k s.partitions y' n) →
      1 ≤ i → i ≤ 128 → ¬ Taken s.partitions i → (∀ j, 1 ≤ j → j < i → Taken s.partitions j) →
      ∃ id t p, id.toNat = i ∧ addPartition m name size ty flags align fresh fresh2 s = (.ok id, { s with partitions := t }) ∧
        Put s.partitions t id p ∧ p.partType = ty ∧ p.partGuid = fresh ∧ p.firstLba.toNat = y ∧ p.lastLba.toNat = y + n - 1 ∧
        p.flags = flags ∧ p.name = name) := by
  obtain ⟨B, h, hB, hkB, hB51, v⟩ := hs.sound
  have hh := header_try v.sane.header
  have hf := v.first
  have hl := v.last
  have h128 : h.numParts.toNat = 128 := by rw [v.count]; rfl
  have hcfg := v.config
  have hc : s.config.changePartitionCount = false := by rw [hcfg]; exact hs.count
  have hpos : 0 < n := by
    rcases Nat.eq_zero_or_pos n with e | e
    · subst e
      have := hn.enough
      rw [Nat.zero_mul] at this
      exact absurd (UInt64.toNat_inj.mp (show size.toNat = (0 : UInt64).toNat from by rw [Nat.le_zero.mp this]; rfl)) h0
    · exact e
  have hroom : ∀ {y}, FreeExtent h s.partitions y n ↔ Vacant (d.data.length / cfg.lbSize.usize) k s.partitions y n := vacant_iff hs hh hpos
  have key := c77_add_partition m name size ty flags align fresh fresh2 s h hh ⟨by omega, by omega, by omega⟩ v.table
    (fun a ha => (hal a ha).2) (by omega)
  generalize addPartition m name size ty flags align fresh fresh2 s = o at key
  obtain ⟨r, s'⟩ := o
  simp only at key
  cases key with
  | zero h => exact absurd h h0
  | zeroAlign x _ ha => exact absurd rfl (hal 0 ha).1
  | noSpace n' _ hn' hno =>
    obtain rfl : n' = n := justEnough_unique (by rw [← hcfg]; exact hn') hn
    have hno' : ∀ y, (∀ a, align = some a → a.toNat ∣ y) → ¬ Vacant (d.data.length / cfg.lbSize.usize) k s.partitions y n' :=
      fun y ha hr => hno y (fun a e _ => ha a e) (hroom.mpr hr)
    exact ⟨fun _ => rfl, fun y ha hr => absurd hr (hno' y ha), fun y i ha hr => absurd hr (hno' y ha)⟩
  | insert start n' id _ _ _ _ hn' hdiv hfree hmin hid hins =>
    have hnn : n'.toNat = n := justEnough_unique (by rw [← hcfg]; exact hn') hn
    rw [hnn] at hfree hmin
    have hr0 := hroom.mp hfree
    obtain ⟨i1, i2, i3, i4⟩ := hid
    have hst : (∃ i, 1 ≤ i ∧ i ≤ 128 ∧ ¬ Taken s.partitions i) ↔ id.toNat ≤ 128 := by
      constructor
      · rintro ⟨i, a, b, c⟩
        rcases Nat.lt_or_ge 128 id.toNat with e | e
        · exact absurd (i4 i a (by omega)) c
        · exact e
      · exact fun e => ⟨id.toNat, i1, e, i3 (by omega)⟩
    refine ⟨fun hno => absurd hr0 (hno _ hdiv), fun y _ _ hall => ?_, fun y i hy hr hfirst a b c d' => ?_⟩
    · have hid128 : ¬ id.toNat ≤ 128 := fun e => by
        obtain ⟨i, a, b, c⟩ := hst.mpr e
        exact c (hall i a b)
      cases hins with
      | refused => rfl
      | fits t e => omega
      | rebuilt _ _ _ _ e => rw [hc] at e; cases e
      | failed _ _ _ _ _ e => rw [hc] at e; cases e
    · have hid128 := hst.mp ⟨i, a, b, c⟩
      have hi : id.toNat = i := by
        rcases Nat.lt_trichotomy id.toNat i with e | e | e
        · exact absurd (d' _ i1 e) (i3 (by omega))
        · exact e
        · exact absurd (i4 i a e) c
      have hsy : start.toNat = y := by
        have := hmin y hy (hroom.mpr hr)
        rcases Nat.lt_or_ge start.toNat y with e | e
        · exact absurd hr0 (hfirst _ e hdiv)
        · omega
      have hb2 := hr.2.1
      have hend : (start + n' - 1).toNat = y + n - 1 := by
        have h1 : (1 : UInt64).toNat = 1 := rfl
        have hadd : (start + n').toNat = y + n := by
          rw [UInt64.toNat_add, hsy, hnn, Nat.mod_eq_of_lt (by omega)]
        rw [UInt64.toNat_sub_of_le _ _ (by rw [UInt64.le_iff_toNat_le, h1, hadd]; omega), hadd, h1]
      cases hins with
      | refused e => omega
      | fits t _ ht => exact ⟨id, t, _, hi, rfl, ht, rfl, rfl, hsy, hend, rfl, rfl⟩
      | rebuilt _ _ _ _ e => rw [hc] at e; cases e
      | failed _ _ _ _ _ e => rw [hc] at e; cases e

/-- What a successful `add_partition` leaves. -/
theorem session_added (hs : InSession m cfg k d s) {name : String} {size : UInt64} {ty : PType} {flags : UInt64} {align : Option UInt64}
    {fresh fresh2 : Uuid} (hal : ∀ a, align = some a → a ≠ 0 ∧ a.toNat ≤ 2 ^ 63)
    {id : UInt32} {s1 : GptDisk} (ha : addPartition m name size ty flags align fresh fresh2 s = (.ok id, s1)) :
    ∃ p, Put s.partitions s1.partitions id p ∧ p.partType = ty ∧ p.partGuid = fresh ∧ p.flags = flags ∧ p.name = name ∧
      ¬ Taken s.partitions id.toNat := by
  obtain ⟨B, h, hB, hkB, hB51, v⟩ := hs.sound
  have hf := v.first
  have hl := v.last
  have h128 : h.numParts.toNat = 128 := by rw [v.count]; rfl
  have hc : s.config.changePartitionCount = false := by rw [v.config]; exact hs.count
  have key := c77_add_partition m name size ty flags align fresh fresh2 s h (header_try v.sane.header) ⟨by omega, by omega, by omega⟩ v.table
    (fun a ha => (hal a ha).2) (by omega)
  rw [ha] at key
  simp only at key
  cases key with
  | insert start n' id _ _ _ _ hn' hdiv hfree hmin hid hins =>
    cases hins with
    | fits t hfit ht => exact ⟨_, ht, rfl, rfl, rfl, rfl, hid.2.2.1 (by omega)⟩
    | rebuilt _ _ _ _ e => rw [hc] at e; cases e
    | failed _ _ _ _ _ e => rw [hc] at e; cases e

/-- **C83**. What is added in a session is found again: after a successful `add_partition` writing succeeds, and opening the device gives a
table with an entry of the same type, GUID, extent, flags and stored name, next to those of the other used partitions. -/
theorem c83_added (hs : InSession m cfg k d s) (name : String) (size : UInt64) (ty : PType) (flags : UInt64) (align : Option UInt64)
    (fresh fresh2 : Uuid) (h0 : size ≠ 0) (hal : ∀ a, align = some a → a ≠ 0 ∧ a.toNat ≤ 2 ^ 63) (hty : ty.guid ≠ Uuid.nil)
    {id : UInt32} {s1 : GptDisk} (ha : addPartition m name size ty flags align fresh fresh2 s = (.ok id, s1)) :
    ∃ p, (id, p) ∈ s1.partitions ∧ p.partType = ty ∧ p.partGuid = fresh ∧ p.flags = flags ∧ p.name = name ∧
      (∀ j q, j ≠ id → ((j, q) ∈ s1.partitions ↔ (j, q) ∈ s.partitions)) ∧ ¬ Taken s.partitions id.toNat ∧
      ∃ s2 s3 d3, writeInplace m s1 = (.ok (), s2) ∧ openFromDevice m cfg s2.device = (.ok s3, d3) ∧
        (∃ j q, (j, q) ∈ s3.partitions ∧ SameEntry p q) ∧
        (∀ i o, (i, o) ∈ s.partitions → o.partType.guid ≠ Uuid.nil → ∃ j q, (j, q) ∈ s3.partitions ∧ SameEntry o q) ∧
        (∀ j q, (j, q) ∈ s3.partitions → SameEntry p q ∨ ∃ i o, (i, o) ∈ s.partitions ∧ o.partType.guid ≠ Uuid.nil ∧ SameEntry o q) := by
  obtain ⟨p, hput, e1, e2, e3, e4, hfree⟩ := session_added hs hal ha
  have hs1 : InSession m cfg k d s1 := by
    obtain ⟨a1, a2, a3, a4, a5, a6, g, f, f2, s0, d0, hcr, hse⟩ := hs
    have hcall := Session.call (.addPartition name size ty flags align fresh fresh2) hse ⟨h0, hal⟩
    have est : ((Op.addPartition name size ty flags align fresh fresh2).step m s).2 = s1 := by
      simp only [Op.step, M.mapOk, ha]
    rw [est] at hcall
    exact ⟨a1, a2, a3, a4, a5, a6, g, f, f2, s0, d0, hcr, hcall⟩
  obtain ⟨s2, s3, d3, h, hw, ho, -, -, -, hnum⟩ := c67_write_open hs1
  have hused : ∀ {t : PMap} {o : Partition}, o ∈ Spec.used t ↔ ∃ i, (i, o) ∈ t ∧ o.partType.guid ≠ Uuid.nil := by
    intro t o
    simp [Spec.used]
  have hfind : ∀ o, o ∈ Spec.used s1.partitions → ∃ j q, (j, q) ∈ s3.partitions ∧ SameEntry o q := by
    intro o hm
    obtain ⟨x, hx, rfl⟩ := List.mem_iff_getElem.mp hm
    obtain ⟨j, q, hq, -, hse⟩ := hnum.entries x hx
    exact ⟨j, q, List.mem_of_getElem? hq, hse⟩
  refine ⟨p, hput.new, e1, e2, e3, e4, hput.others, hfree, s2, s3, d3, hw, ho, hfind p (hused.mpr ⟨id, hput.new, by rw [e1]; exact hty⟩),
    fun i o hm hn => hfind o (hused.mpr ⟨i, (hput.others i o ?_).mpr hm, hn⟩), fun j q hm => ?_⟩
  · rintro rfl
    exact hfree ⟨i, o, hm, rfl, hn⟩
  · obtain ⟨x, hx, hxe⟩ := List.mem_iff_getElem.mp hm
    obtain ⟨j', q', hq, -, hse⟩ := hnum.entries x (by rw [← hnum.length]; exact hx)
    rw [List.getElem?_eq_getElem hx, hxe] at hq
    cases hq
    obtain ⟨i, hi, hn⟩ := hused.mp (List.getElem_mem (by rw [← hnum.length]; exact hx))
    by_cases hid : i = id
    · subst hid
      have e := (PMap.get_of_mem hput.keys hi).symm.trans (PMap.get_of_mem hput.keys hput.new)
      rw [Option.some.inj e] at hse
      exact .inl hse
    · exact .inr ⟨i, _, (hput.others i _ hid).mp hi, hn, hse⟩

end

/-! ## The hypotheses are met -/

/-- One partition of two blocks on a new table, on a device of 100 blocks. -/
def sessDisk (m : Mode) : GptDisk :=
  ((Op.addPartition "a" 1024 (exPart 0 0).partType 0 none Uuid.nil Uuid.nil).step m
    (madeDisk (GptConfig.new.setWritable true) dev100 32 99 Uuid.nil)).2

theorem sessDisk_session (m : Mode) : InSession m (GptConfig.new.setWritable true) 32 dev100 (sessDisk m) := by
  have hwk : dev100.Works := ⟨rfl, by show 51200 < 2 ^ 64; decide, Nat.le_of_eq dev100_length, by show 0 < 2 ^ 64; decide⟩
  have hc := made_created m (GptConfig.new.setWritable true) (d := dev100) (B := 99) rfl (by show 0 < 2 ^ 64; decide) (by rw [dev100_length]; decide)
    enough512 (by rw [dev100_length]; rfl) (by decide)
  exact ⟨hwk, by rw [dev100_length]; decide, enough512, rfl, rfl, fun _ => rfl, _, _, _, _, _, hc,
    .call _ .start ⟨by decide, fun _ h => nomatch h⟩⟩

theorem sessDisk_partitions (m : Mode) : (sessDisk m).partitions = [(1, ⟨(exPart 0 0).partType, Uuid.nil, 34, 35, 0, "a"⟩)] := by
  cases m <;> decide +kernel

/-- The partition of `sessDisk` is used, and its data is at bytes 17408 to 18431. -/
example (m : Mode) : ∃ p, Used (sessDisk m).partitions p ∧ HasByte .lb512 p 17408 ∧ HasByte .lb512 p 18431 := by
  rw [sessDisk_partitions]
  exact ⟨_, ⟨1, List.mem_singleton_self _, by decide⟩, ⟨17408, 1024, rfl, rfl, by decide, by decide⟩, ⟨17408, 1024, rfl, rfl, by decide, by decide⟩⟩

/-- `c82_add` on `sessDisk`: 31 blocks are left, so 31 blocks fit and 32 do not. -/
example (m : Mode) : (∃ t, addPartition m "b" 15872 (exPart 0 0).partType 0 none Uuid.nil Uuid.nil (sessDisk m) =
      (.ok 2, { sessDisk m with partitions := t })) ∧
    addPartition m "b" 15873 (exPart 0 0).partType 0 none Uuid.nil Uuid.nil (sessDisk m) = (.err .notEnoughSpace, sessDisk m) := by
  have hcov : ∀ p, Used (sessDisk m).partitions p → p.firstLba = 34 ∧ p.lastLba = 35 := by
    rintro p ⟨i, hi, -⟩
    rw [sessDisk_partitions] at hi
    cases List.mem_singleton.mp hi
    exact ⟨rfl, rfl⟩
  have hN : dev100.data.length / (GptConfig.new.setWritable true).lbSize.usize = 100 := by rw [dev100_length]; rfl
  have hused : Used (sessDisk m).partitions ⟨(exPart 0 0).partType, Uuid.nil, 34, 35, 0, "a"⟩ :=
    ⟨1, by rw [sessDisk_partitions]; exact List.mem_singleton_self _, by decide⟩
  have h34 : (34 : UInt64).toNat = 34 := rfl
  have h35 : (35 : UInt64).toNat = 35 := rfl
  constructor
  · obtain ⟨id, t, p, hid, he, -⟩ := (c82_add (sessDisk_session m) "b" 15872 (exPart 0 0).partType 0 none Uuid.nil Uuid.nil (by decide)
      (fun _ h => nomatch h) (n := 31) ⟨by decide, fun j hj => by
        change 15872 ≤ j * 512 at hj
        omega⟩).2.2 36 2 (fun _ h => nomatch h)
      ⟨by decide, by rw [hN], fun p hp x h1 h2 hc => by
        obtain ⟨e1, e2⟩ := hcov p hp
        have := hc.2
        rw [e2, h35] at this
        omega⟩
      (fun y hy _ hv => by
        obtain ⟨v1, v2, v3⟩ := hv
        exact v3 _ hused (max y 34) (by omega) (by omega) ⟨by show 34 ≤ _; omega, by show _ ≤ 35; omega⟩)
      (by decide) (by decide)
      (by
        rintro ⟨i, p, hm, e, -⟩
        rw [sessDisk_partitions] at hm
        cases List.mem_singleton.mp hm
        exact absurd e (by decide))
      (fun j h1 h2 => by
        obtain rfl : j = 1 := by omega
        exact ⟨1, _, by rw [sessDisk_partitions]; exact List.mem_singleton_self _, rfl, by decide⟩)
    obtain rfl : id = 2 := UInt32.toNat_inj.mp hid
    exact ⟨t, he⟩
  · exact (c82_add (sessDisk_session m) "b" 15873 (exPart 0 0).partType 0 none Uuid.nil Uuid.nil (by decide)
      (fun _ h => nomatch h) (n := 32) ⟨by decide, fun j hj => by
        change 15873 ≤ j * 512 at hj
        omega⟩).1 fun y _ ⟨v1, v2, v3⟩ => by
        rw [hN] at v2
        exact v3 _ hused (max y 34) (by omega) (by omega) ⟨by show 34 ≤ _; omega, by show _ ≤ 35; omega⟩

/-- 128 partitions of one block each. -/
def table128 : PMap := (List.range 128).map fun i => (UInt32.ofNat (i + 1), exPart (UInt64.ofNat (34 + i)) (UInt64.ofNat (34 + i)))

theorem mem_table128 {i : UInt32} {p : Partition} (h : (i, p) ∈ table128) :
    ∃ j, j < 128 ∧ i.toNat = j + 1 ∧ p.firstLba.toNat = 34 + j ∧ p.lastLba.toNat = 34 + j := by
  obtain ⟨j, hj, e⟩ := List.mem_map.mp h
  have hj := List.mem_range.mp hj
  cases e
  exact ⟨j, hj, UInt32.toNat_ofNat_of_lt' (by show j + 1 < 2 ^ 32; omega), ofNat64 (by omega), ofNat64 (by omega)⟩

theorem tidy_table128 {h : Header} (hf : h.firstUsable.toNat = 34) (hl : 200 ≤ h.lastUsable.toNat) : Tidy h table128 where
  keys := by decide +kernel
  order := by
    rintro p ⟨i, hi, -⟩
    obtain ⟨j, h1, h2, h3, h4⟩ := mem_table128 hi
    omega
  inside := by
    rintro p ⟨i, hi, -⟩
    obtain ⟨j, h1, h2, h3, h4⟩ := mem_table128 hi
    omega
  apart := by
    rintro i i' p q hi hi' hne - - x ⟨c1, c2⟩
    obtain ⟨j, h1, h2, h3, h4⟩ := mem_table128 hi
    obtain ⟨j', h1', h2', h3', h4'⟩ := mem_table128 hi'
    have a := c1.1; have b := c1.2; have c := c2.1; have e := c2.2
    exact hne (UInt32.toNat_inj.mp (by omega))

def disk128 (m : Mode) : GptDisk :=
  ((Op.updatePartitions table128 Uuid.nil).step m (madeDisk (GptConfig.new.setWritable true) dev300 32 299 Uuid.nil)).2

theorem disk128_session (m : Mode) : InSession m (GptConfig.new.setWritable true) 32 dev300 (disk128 m) := by
  have hwk : dev300.Works := ⟨rfl, by show 153600 < 2 ^ 64; decide, Nat.le_of_eq dev300_length, by show 0 < 2 ^ 64; decide⟩
  have hc := made_created m (GptConfig.new.setWritable true) (d := dev300) (B := 299) rfl (by show 0 < 2 ^ 64; decide) (by rw [dev300_length]; decide)
    enough512 (by rw [dev300_length]; rfl) (by decide)
  have ho : Ordinary (madeDisk (GptConfig.new.setWritable true) dev300 32 299 Uuid.nil) (.updatePartitions table128 Uuid.nil) := by
    refine ⟨fun i p hm => ?_, fun h hh => ?_⟩
    · obtain ⟨j, h1, h2, -⟩ := mem_table128 hm
      omega
    · cases hh
      exact tidy_table128 rfl (by decide)
  rw [disk128]
  exact ⟨hwk, by rw [dev300_length]; decide, enough512, rfl, rfl, fun _ => rfl, _, _, _, _, _, hc, .call _ .start ho⟩

theorem madeDisk_blocks {cfg : GptConfig} {d : Dev} {k B : Nat} {g : Uuid} (h : d.data.length / cfg.lbSize.usize = B + 1) :
    (madeDisk cfg d k B g).device.data.length / (madeDisk cfg d k B g).config.lbSize.usize = B + 1 := h

theorem disk128_partitions (m : Mode) : (disk128 m).partitions = table128 := by
  have hN : dev300.data.length / (GptConfig.new.setWritable true).lbSize.usize = 299 + 1 := by rw [dev300_length]; rfl
  have hsane := madeDisk_sane (cfg := GptConfig.new.setWritable true) (d := dev300) (k := 32) (B := 299) (g := Uuid.nil)
    (by rw [dev300_length]; decide) enough512 hN (by decide)
  have h0 : PMap.get table128 0 = none := PMap.get_none_iff.mpr fun p hm => by
    obtain ⟨j, -, h2, -⟩ := mem_table128 hm
    exact absurd h2 (by show 0 ≠ _; omega)
  have hl : table128.length ≤ 128 := by unfold table128; simp
  have hf : (madeDisk (GptConfig.new.setWritable true) dev300 32 299 Uuid.nil).device.faults = [] := rfl
  have hp : (madeDisk (GptConfig.new.setWritable true) dev300 32 299 Uuid.nil).device.pos < 2 ^ 64 := by
    simp only [madeDisk, dev300]
    decide
  rw [disk128, step_updatePartitions, updatePartitions_sane hsane (by simp only [createdP]) hl h0 hf hp (madeDisk_blocks hN), reinit]

/-- `c82_add` when all ids are taken: there is room, and still no partition can be added. -/
example (m : Mode) : addPartition m "b" 512 (exPart 0 0).partType 0 none Uuid.nil Uuid.nil (disk128 m) =
    (.err .partitionCountWouldChange, disk128 m) := by
  have hN : dev300.data.length / (GptConfig.new.setWritable true).lbSize.usize = 300 := by rw [dev300_length]; rfl
  have hp := disk128_partitions m
  have hs := disk128_session m
  generalize disk128 m = s at hp hs ⊢
  refine (c82_add hs "b" 512 (exPart 0 0).partType 0 none Uuid.nil Uuid.nil (by decide)
    (fun _ h => nomatch h) (n := 1) ⟨by decide, fun j hj => by
      change 512 ≤ j * 512 at hj
      omega⟩).2.1 200 (fun _ h => nomatch h) ⟨by decide, by rw [hN]; decide, ?_⟩ fun i h1 h2 => ?_
  · rintro p ⟨i, hi, -⟩ x a b c
    rw [hp] at hi
    obtain ⟨j, h1, h2, h3, h4⟩ := mem_table128 hi
    have := c.2
    omega
  · refine ⟨UInt32.ofNat (i - 1 + 1), _, by rw [hp]; exact List.mem_map.mpr ⟨i - 1, List.mem_range.mpr (by omega), rfl⟩, ?_, by
      show (exPart 0 0).partType.guid ≠ _; decide⟩
    rw [UInt32.toNat_ofNat_of_lt' (by show i - 1 + 1 < 2 ^ 32; omega)]
    omega

end Gpt
