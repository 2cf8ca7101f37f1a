import Verif.Props.Uefi
/-!
# Disks with one good copy: C118

As C116, for disks on which only one of the two copies of the table is known to be good. If it is the primary one, or if it is the backup
and no valid header is left in block 1, the disk opens with its table, and one `write_inplace` makes it a disk by the rules again.
-/

namespace Gpt

open Spec GptDisk

/-- One copy by the rules, with its header in block `me`, on a disk whose last whole block is `B`: as `Uefi`, without anything about the
other copy but that there is room for it. -/
structure Spec.UefiCopy (lb : LbSize) (c : Bytes) (n k B me alt : Nat) : Prop where
  blocks : c.length / lb.usize = B + 1
  small : n + 1 < 2 ^ 25
  array : JustEnough lb (n * 128) k
  header : UefiHeader lb c n me alt
  stored : num c (me * lb.usize + 72) 8 + k ≤ B + 1
  first : 2 + k ≤ num c (me * lb.usize + 40) 8
  usable : num c (me * lb.usize + 40) 8 ≤ num c (me * lb.usize + 48) 8
  last : num c (me * lb.usize + 48) 8 + k + 1 ≤ B
  inside : ∀ j, j < n → InUse c (num c (me * lb.usize + 72) 8 * lb.usize + 128 * j) →
    num c (me * lb.usize + 40) 8 ≤ num c (num c (me * lb.usize + 72) 8 * lb.usize + 128 * j + 32) 8 ∧
    num c (num c (me * lb.usize + 72) 8 * lb.usize + 128 * j + 32) 8 ≤ num c (num c (me * lb.usize + 72) 8 * lb.usize + 128 * j + 40) 8 ∧
    num c (num c (me * lb.usize + 72) 8 * lb.usize + 128 * j + 40) 8 ≤ num c (me * lb.usize + 48) 8
  apart : ∀ i j, i < j → j < n → InUse c (num c (me * lb.usize + 72) 8 * lb.usize + 128 * i) →
    InUse c (num c (me * lb.usize + 72) 8 * lb.usize + 128 * j) →
    num c (num c (me * lb.usize + 72) 8 * lb.usize + 128 * i + 40) 8 < num c (num c (me * lb.usize + 72) 8 * lb.usize + 128 * j + 32) 8 ∨
    num c (num c (me * lb.usize + 72) 8 * lb.usize + 128 * j + 40) 8 < num c (num c (me * lb.usize + 72) 8 * lb.usize + 128 * i + 32) 8

/-- The copy in block `me` is the one that opening takes: the primary one (and the backup header is valid if that is demanded), or the
backup because no valid header is in block 1. -/
def Spec.OpensFrom (cfg : GptConfig) (c : Bytes) (B me alt : Nat) : Prop :=
  (me = 1 ∧ alt = B ∧ (cfg.onlyValidHeaders = true → BackupValid cfg.lbSize c)) ∨
  (me = B ∧ alt = 1 ∧ ¬ PrimaryValid cfg.lbSize c ∧ cfg.onlyValidHeaders = false)

/-- The setting of C116 with one good copy. -/
structure Spec.OnCopy (m : Mode) (cfg : GptConfig) (n k B me alt : Nat) (d : Dev) (s : GptDisk) : Prop where
  works : d.Works
  small : d.data.length < 2 ^ 60
  disk : UefiCopy cfg.lbSize d.data n k B me alt
  taken : OpensFrom cfg d.data B me alt
  writable : cfg.writable = true
  count : cfg.changePartitionCount = false
  headers : cfg.onlyValidHeaders = true → cfg.readonlyBackup = false
  session : Opening m cfg n d s

section
variable {m : Mode} {cfg : GptConfig} {n k B me alt : Nat} {d : Dev}

theorem Spec.UefiCopy.length {lb : LbSize} {c : Bytes} (u : UefiCopy lb c n k B me alt) : (B + 1) * lb.usize ≤ c.length := by
  rw [← u.blocks]; exact Nat.div_mul_le_self _ _

theorem Spec.UefiCopy.fits {lb : LbSize} {c : Bytes} (u : UefiCopy lb c n k B me alt) :
    num c (me * lb.usize + 72) 8 * lb.usize + n * 128 ≤ c.length := by
  have h4 : (num c (me * lb.usize + 72) 8 + k) * lb.usize ≤ (B + 1) * lb.usize := Nat.mul_le_mul_right _ u.stored
  have h5 := u.array.enough
  have h6 := u.length
  rw [Nat.add_mul] at h4
  omega

/-- Opening takes that copy. -/
theorem open_copy (hf : d.faults = []) (hp : d.pos < 2 ^ 64) (hlen : d.data.length < 2 ^ 64) (u : UefiCopy cfg.lbSize d.data n k B me alt)
    (ht : OpensFrom cfg d.data B me alt) :
    ∃ s d' h, openFromDevice m cfg d = (.ok s, d') ∧ s.tryHeader = .ok h ∧ HeaderAt d.data (me * cfg.lbSize.usize) h ∧
      s.partitions = tableAt d.data (num d.data (me * cfg.lbSize.usize + 72) 8 * cfg.lbSize.usize) n 0 := by
  obtain ⟨h1, h2, c1, c2, -, -, e⟩ := open_headers (m := m) (cfg := cfg) hf hp hlen
  obtain ⟨h, hh⟩ := validAt_header u.header.valid
  have hlb : lastBlockOffset cfg.lbSize d.data = B * cfg.lbSize.usize := by unfold lastBlockOffset; rw [u.blocks, Nat.add_sub_cancel]
  have q1 := u.first
  have q2 := u.usable
  have q3 := u.last
  have hl3 : 3 * cfg.lbSize.usize ≤ d.data.length := (Nat.mul_le_mul_right _ (by omega)).trans u.length
  have hsel : selectHeader cfg.onlyValidHeaders h1 h2 = .ok h := by
    rw [select_spec.1 h]
    rcases ht with ⟨rfl, -, hv⟩ | ⟨rfl, -, hv, ho⟩
    · refine .inl ⟨(c1 h).mpr ⟨by have := u.header.valid; rw [Nat.one_mul] at this; exact this, by rw [Nat.one_mul] at hh; exact hh⟩, fun ho => ?_⟩
      obtain ⟨b, hb⟩ := validAt_header (hv ho).2
      exact ⟨b, (c2 b).mpr ⟨hv ho, hb⟩⟩
    · refine .inr ⟨ho, ?_, (c2 h).mpr ⟨⟨hl3, by rw [hlb]; exact u.header.valid⟩, by rw [hlb]; exact hh⟩⟩
      cases h1 with
      | error x => exact ⟨x, rfl⟩
      | ok x => exact absurd ((c1 x).mp rfl).1 hv
  rw [hsel] at e
  simp only at e
  have hn : h.numParts.toNat = n := hh.count.trans u.header.count
  have h128 : h.partSize = 128 := UInt32.toNat_inj.mp (hh.entry.trans u.header.entry)
  have hfit := u.fits
  have hsm := u.small
  rw [← hh.start] at hfit
  obtain ⟨p, e2⟩ := fileReadPartitions_nil (m := m) (h := h) (lb := cfg.lbSize) hf (by omega) h128 (by rw [hn]; omega) (.inr (by omega))
  have hcrc : crc32 (slice d.data (h.partStart.toNat * cfg.lbSize.usize) (128 * h.numParts.toNat)) = h.crc32Parts := by
    rw [← UInt32.toNat_inj, hn, hh.parts, u.header.parts, hh.start, Nat.mul_comm 128]
  rw [if_pos hcrc] at e2
  unfold openRest at e
  simp only [M.bind_apply, M.mapErr_apply, e2, M.get_apply, M.pure_apply] at e
  refine ⟨_, _, h, e, ?_, hh, ?_⟩
  · exact select_try hsel
  · rw [← hh.start, ← hn]

/-- The disk just opened meets the invariant. -/
theorem steady_copy (hwk : d.Works) (hlen : d.data.length < 2 ^ 60) (u : UefiCopy cfg.lbSize d.data n k B me alt)
    (htk : OpensFrom cfg d.data B me alt) {s : GptDisk} {d' : Dev} (hok : openFromDevice m cfg d = (.ok s, d')) :
    ∃ h, Steady cfg n k B d h s ∧ HeaderAt d.data (me * cfg.lbSize.usize) h := by
  obtain ⟨s', d2, h, e, ht, hh, -⟩ := open_copy (m := m) hwk.faults hwk.pos (by omega) u htk
  obtain ⟨rfl, rfl⟩ : s' = s ∧ d2 = d' := by rw [hok] at e; cases e; exact ⟨rfl, rfl⟩
  obtain ⟨h', hh', -, hcfg, hdata, hdev, hsort, hslots, hall⟩ := c45_reflects m cfg d d2 s' hok
  obtain rfl : h' = h := Except.ok.inj ((header_try hh').symm.trans ht)
  have hwk2 := Dev.works_frame.openFromDevice m cfg d hwk
  rw [hok] at hwk2
  have hn : h'.numParts.toNat = n := hh.count.trans u.header.count
  have h128 : h'.partSize = 128 := UInt32.toNat_inj.mp (hh.entry.trans u.header.entry)
  have q1 := u.first
  have q2 := u.usable
  have q3 := u.last
  have hsm := u.small
  have hfit := u.fits
  rw [hh.start.symm] at hfit
  rw [hh.first.symm] at q1 q2
  rw [hh.last.symm] at q2 q3
  have hlb := hh.current.trans u.header.current
  have hla := hh.backup.trans u.header.other
  have hin := u.inside
  have hap := u.apart
  rw [hh.start.symm, hh.first.symm, hh.last.symm] at hin
  rw [hh.start.symm] at hap
  have hslot : ∀ i p, (i, p) ∈ s'.partitions → p.partType.guid ≠ Uuid.nil →
      i.toNat - 1 < n ∧ EntryAt d.data (h'.partStart.toNat * cfg.lbSize.usize + 128 * (i.toNat - 1)) p ∧
      InUse d.data (h'.partStart.toNat * cfg.lbSize.usize + 128 * (i.toNat - 1)) := by
    intro i p hm hu
    obtain ⟨a1, a2, -, a4, -⟩ := hslots i p hm
    exact ⟨by omega, a4, (inUse_iff (by omega) a4).mpr hu⟩
  refine ⟨h', ⟨hcfg, ⟨hh', ⟨h128, by omega, ?_, ?_, by omega, q2, by omega⟩, ?_, ?_⟩, hn, ⟨hsort, ?_, ?_, ?_⟩, ?_, ?_, ?_, ?_, ?_⟩, hh⟩
  · rw [hcfg, hn]; exact u.array
  · rcases htk with ⟨e1, e2, -⟩ | ⟨e1, e2, -⟩
    · exact .inl ⟨hlb.trans e1, hla.trans e2⟩
    · exact .inr ⟨hlb.trans e1, hla.trans e2⟩
  · rw [hcfg, hdev, hdata]; exact u.length
  · rw [hdev, hdata]; omega
  · rintro p ⟨i, hm, hu⟩
    obtain ⟨a1, a2, a3⟩ := hslot i p hm hu
    rw [a2.first, a2.last]
    exact (hin _ a1 a3).2.1
  · rintro p ⟨i, hm, hu⟩
    obtain ⟨a1, a2, a3⟩ := hslot i p hm hu
    rw [a2.first, a2.last]
    exact ⟨(hin _ a1 a3).1, (hin _ a1 a3).2.2⟩
  · intro i j p q hi hj hij hu hv x hx
    obtain ⟨a1, a2, a3⟩ := hslot i p hi hu
    obtain ⟨b1, b2, b3⟩ := hslot j q hj hv
    have ki := (hslots i p hi).1
    have kj := (hslots j q hj).1
    have hne : i.toNat - 1 ≠ j.toNat - 1 := fun e => hij (UInt32.toNat_inj.mp (by omega))
    unfold Covers at hx
    rw [a2.first, a2.last, b2.first, b2.last] at hx
    rcases Nat.lt_or_gt_of_ne hne with hlt | hlt
    · have := hap _ _ hlt b1 a3 b3
      omega
    · have := hap _ _ hlt a1 b3 a3
      omega
  · intro i p hm
    obtain ⟨a1, a2, -⟩ := hslots i p hm
    exact ⟨a1, by omega⟩
  · rw [hdev]; exact hwk2.1
  · rw [hdev]; exact hwk2.2
  · rw [hdev, hdata]
  · intro i _ _
    rw [hdev, hdata]

theorem Spec.UefiCopy.small51 (u : UefiCopy cfg.lbSize d.data n k B me alt) (hlen : d.data.length < 2 ^ 60) : B < 2 ^ 51 := by
  have h1 := u.length
  have h2 : (B + 1) * 512 ≤ (B + 1) * cfg.lbSize.usize := Nat.mul_le_mul_left _ (by cases cfg.lbSize <;> decide)
  omega

theorem Spec.OnCopy.steady {s : GptDisk} (hs : OnCopy m cfg n k B me alt d s) : ∃ h, Steady cfg n k B d h s := by
  obtain ⟨hwk, hsm, u, htk, hw, hc, hro, hse⟩ := hs
  induction hse with
  | start hok => obtain ⟨h, v, -⟩ := steady_copy hwk hsm u htk hok; exact ⟨h, v⟩
  | call op _ ho ih =>
    obtain ⟨h, v⟩ := ih
    exact v.step hw hc u.blocks op ho
  | reopen _ h1 h2 ih =>
    obtain ⟨h, v⟩ := ih
    obtain ⟨s2, d2, h2', e, v2, -⟩ := v.reopen u.blocks hro hw hc h1
    rw [e] at h2
    cases h2
    exact ⟨_, v2⟩

/-! ## The two copies of a whole disk -/

theorem Spec.Uefi.primaryCopy {lb : LbSize} {c : Bytes} (u : Uefi lb c n k B) : UefiCopy lb c n k B 1 B := by
  have q1 := u.front
  have q2 := u.usable
  have q3 := u.behind
  exact ⟨u.blocks, u.small, u.array, u.primary, by omega, by omega, q2, by omega, u.inside, u.apart⟩

/-- Equal slices hold equal numbers and used slots. -/
theorem num_of_slice {c c' : Bytes} {a b l : Nat} (h : slice c a l = slice c' b l) {i w : Nat} (hi : i + w ≤ l) :
    num c (a + i) w = num c' (b + i) w := by
  unfold num
  rw [← slice_slice (d := c) (a := a) (n := l) hi, h, slice_slice hi]

theorem inUse_of_slice {c c' : Bytes} {a b l : Nat} (h : slice c a l = slice c' b l) {i : Nat} (hi : i + 16 ≤ l) :
    InUse c (a + i) ↔ InUse c' (b + i) := by
  unfold InUse
  have key : ∀ x, x < 16 → byteAt c (a + i + x) = byteAt c' (b + i + x) := by
    intro x hx
    have h1 := byteAt_slice c a l (i + x)
    have h2 := byteAt_slice c' b l (i + x)
    rw [if_pos (by omega)] at h1 h2
    rw [h, h2] at h1
    rw [Nat.add_assoc, Nat.add_assoc]
    exact h1.symm
  constructor
  · rintro ⟨x, hx, hne⟩
    exact ⟨x, hx, by rw [← key x hx]; exact hne⟩
  · rintro ⟨x, hx, hne⟩
    exact ⟨x, hx, by rw [key x hx]; exact hne⟩

theorem Spec.Uefi.backupCopy {lb : LbSize} {c : Bytes} (u : Uefi lb c n k B) : UefiCopy lb c n k B B 1 := by
  have q1 := u.front
  have q2 := u.usable
  have q3 := u.behind
  have ha := u.arrays
  refine ⟨u.blocks, u.small, u.array, u.backup, by omega, by rw [← u.first]; omega, by rw [← u.first, ← u.last]; exact q2,
    by rw [← u.last]; omega, fun j hj hu => ?_, fun i j hij hj hu hv => ?_⟩
  · have hu := (inUse_of_slice ha (by omega)).mpr hu
    rw [← u.first, ← u.last, Nat.add_assoc, Nat.add_assoc, ← num_of_slice ha (by omega), ← num_of_slice ha (by omega), ← Nat.add_assoc, ← Nat.add_assoc]
    exact u.inside j hj hu
  · have hu := (inUse_of_slice ha (by omega)).mpr hu
    have hv := (inUse_of_slice ha (by omega)).mpr hv
    simp only [Nat.add_assoc]
    rw [← num_of_slice ha (by omega), ← num_of_slice ha (by omega), ← num_of_slice ha (by omega), ← num_of_slice ha (by omega)]
    simp only [← Nat.add_assoc]
    exact u.apart i j hij hj hu hv

/-- A copy depends only on the bytes of its header block and its array. -/
theorem Spec.UefiCopy.transfer {lb : LbSize} {c c' : Bytes} (u : UefiCopy lb c n k B me alt) (hme : me ≤ B) (hlen : c'.length = c.length)
    (hh : ∀ i, me * lb.usize ≤ i → i < (me + 1) * lb.usize → byteAt c' i = byteAt c i)
    (ha : ∀ i, num c (me * lb.usize + 72) 8 * lb.usize ≤ i → i < num c (me * lb.usize + 72) 8 * lb.usize + n * 128 → byteAt c' i = byteAt c i) :
    UefiCopy lb c' n k B me alt := by
  have h512 := lb_le lb
  have hl := u.length
  have hml : me * lb.usize + lb.usize ≤ c.length := by
    have : (me + 1) * lb.usize ≤ (B + 1) * lb.usize := Nat.mul_le_mul_right _ (by omega)
    rw [Nat.add_mul, Nat.one_mul] at this
    omega
  rw [Nat.add_mul, Nat.one_mul] at hh
  have hsl : slice c (me * lb.usize) lb.usize = slice c' (me * lb.usize) lb.usize := by
    refine slice_eq_of_byteAt (by omega) (slice_length_of_le (by omega)) fun i hi => ?_
    rw [byteAt_slice, if_pos hi, hh _ (by omega) (by omega)]
  have hN : ∀ i w, i + w ≤ 512 → num c' (me * lb.usize + i) w = num c (me * lb.usize + i) w := fun i w hi => (num_of_slice hsl (by omega)).symm
  have hfit := u.fits
  have hsa : slice c (num c (me * lb.usize + 72) 8 * lb.usize) (n * 128) = slice c' (num c (me * lb.usize + 72) 8 * lb.usize) (n * 128) := by
    refine slice_eq_of_byteAt (by omega) (slice_length_of_le (by omega)) fun i hi => ?_
    rw [byteAt_slice, if_pos hi, ha _ (by omega) (by omega)]
  have s8 : slice c' (me * lb.usize) 8 = slice c (me * lb.usize) 8 := by
    have e1 := slice_slice (d := c) (a := me * lb.usize) (n := lb.usize) (b := 0) (k := 8) (by omega)
    have e2 := slice_slice (d := c') (a := me * lb.usize) (n := lb.usize) (b := 0) (k := 8) (by omega)
    rw [Nat.add_zero] at e1 e2
    rw [← e1, ← e2, hsl]
  have swc : withoutCrc c' (me * lb.usize) = withoutCrc c (me * lb.usize) := by
    unfold withoutCrc
    have e1 := slice_slice (d := c) (a := me * lb.usize) (n := lb.usize) (b := 0) (k := 16) (by omega)
    have e2 := slice_slice (d := c') (a := me * lb.usize) (n := lb.usize) (b := 0) (k := 16) (by omega)
    rw [Nat.add_zero] at e1 e2
    rw [← e1, ← e2, ← slice_slice (d := c) (a := me * lb.usize) (n := lb.usize) (b := 20) (k := 72) (by omega),
      ← slice_slice (d := c') (a := me * lb.usize) (n := lb.usize) (b := 20) (k := 72) (by omega), hsl]
  obtain ⟨v, g1, g2, g3, g4, g5, g6, g7, g8, g9⟩ := u.header
  refine ⟨by rw [hlen]; exact u.blocks, u.small, u.array, ⟨⟨by omega, s8.trans v.signature, ?_⟩, ?_, ?_, ?_, ?_, ?_, ?_, ?_, ?_, ?_⟩, ?_, ?_, ?_, ?_,
    fun j hj hu => ?_, fun i j hij hj hu hv => ?_⟩
  · rw [hN _ _ (by omega), swc]; exact v.checksum
  · rw [hN _ _ (by omega)]; exact g1
  · rw [hN _ _ (by omega)]; exact g2
  · rw [hN _ _ (by omega)]; exact g3
  · rw [hN _ _ (by omega)]; exact g4
  · rw [hN _ _ (by omega)]; exact g5
  · rw [hN _ _ (by omega)]; exact g6
  · rw [hN _ _ (by omega)]; exact g7
  · rw [hN _ _ (by omega), hN _ _ (by omega), ← hsa]; exact g8
  · intro i h1 h2
    rw [hh _ (by omega) (by omega)]
    exact g9 i h1 h2
  · rw [hN _ _ (by omega)]; exact u.stored
  · rw [hN _ _ (by omega)]; exact u.first
  · rw [hN _ _ (by omega), hN _ _ (by omega)]; exact u.usable
  · rw [hN _ _ (by omega)]; exact u.last
  · rw [hN 72 8 (by omega)] at hu ⊢
    have hu := (inUse_of_slice hsa (by omega)).mpr hu
    rw [hN _ _ (by omega), hN _ _ (by omega), Nat.add_assoc, Nat.add_assoc, ← num_of_slice hsa (by omega), ← num_of_slice hsa (by omega),
      ← Nat.add_assoc, ← Nat.add_assoc]
    exact u.inside j hj hu
  · rw [hN 72 8 (by omega)] at hu hv ⊢
    have hu := (inUse_of_slice hsa (by omega)).mpr hu
    have hv := (inUse_of_slice hsa (by omega)).mpr hv
    simp only [Nat.add_assoc]
    rw [← num_of_slice hsa (by omega), ← num_of_slice hsa (by omega), ← num_of_slice hsa (by omega), ← num_of_slice hsa (by omega)]
    simp only [← Nat.add_assoc]
    exact u.apart i j hij hj hu hv

/-! ## The theorems -/

variable {s : GptDisk}

/-- **C118**, opening: such a disk opens. The table has exactly the non-zero slots of the good copy, each with the id of its slot. -/
theorem c118_opens (m : Mode) (hwk : d.Works) (u : UefiCopy cfg.lbSize d.data n k B me alt) (ht : OpensFrom cfg d.data B me alt) :
    ∃ s d' h, openFromDevice m cfg d = (.ok s, d') ∧ d'.data = d.data ∧ s.tryHeader = .ok h ∧
      HeaderAt d.data (me * cfg.lbSize.usize) h ∧ s.guid = h.diskGuid ∧
      (∀ j, j < n → SlotFull d.data (num d.data (me * cfg.lbSize.usize + 72) 8 * cfg.lbSize.usize) j →
        ∃ p, (UInt32.ofNat (j + 1), p) ∈ s.partitions) ∧
      (∀ i p, (i, p) ∈ s.partitions → 1 ≤ i.toNat ∧ i.toNat ≤ n ∧
        SlotFull d.data (num d.data (me * cfg.lbSize.usize + 72) 8 * cfg.lbSize.usize) (i.toNat - 1) ∧
        EntryAt d.data (num d.data (me * cfg.lbSize.usize + 72) 8 * cfg.lbSize.usize + 128 * (i.toNat - 1)) p) := by
  obtain ⟨s, d', h, e, ht, hh, -⟩ := open_copy (m := m) hwk.faults hwk.pos (Nat.lt_of_le_of_lt hwk.length hwk.cap) u ht
  obtain ⟨h', hh', hg, -, hdata, -, -, hslots, hall⟩ := c45_reflects m cfg d d' s e
  obtain rfl : h' = h := Except.ok.inj ((header_try hh').symm.trans ht)
  have hn : h'.numParts.toNat = n := hh.count.trans u.header.count
  have hsm := u.small
  refine ⟨s, d', h', e, hdata, ht, hh, hg, fun j hj hu => ?_, fun i p hm => ?_⟩
  · have hj1 : (UInt32.ofNat (j + 1)).toNat = j + 1 := by rw [UInt32.toNat_ofNat', Nat.mod_eq_of_lt (by omega)]
    refine hall _ (by omega) (by omega) ?_
    rw [hj1, Nat.add_sub_cancel, hh.start]
    exact hu
  · obtain ⟨a1, a2, a3, a4, -⟩ := hslots i p hm
    rw [hh.start] at a3 a4
    exact ⟨a1, by omega, a3, a4⟩

/-- **C118**, session: no call panics, and the table stays tidy, inside the range that the good copy states. -/
theorem c118_session (hs : OnCopy m cfg n k B me alt d s) :
    (∀ op, OrdinaryOn n s op → (op.step m s).1 ≠ .panic) ∧
    ∃ h, s.tryHeader = .ok h ∧ Tidy h s.partitions ∧ h.numParts.toNat = n ∧ 2 + k ≤ h.firstUsable.toNat ∧
      h.lastUsable.toNat + k + 1 ≤ B ∧ (∀ i p, (i, p) ∈ s.partitions → 1 ≤ i.toNat ∧ i.toNat ≤ n) := by
  obtain ⟨h, v⟩ := hs.steady
  exact ⟨fun op ho => v.noPanic (hs.disk.small51 hs.small) hs.disk.small op ho,
    h, header_try v.sane.header, v.table, v.count, v.sane.sane.first, v.sane.sane.last, v.ids⟩

/-- **C118**, repair: at any time writing succeeds. With the backup included both copies are then by the rules, whatever was in the place
of the other one. The disk opens under any configuration with the same block size, with the used partitions numbered from 1. Block 0, the
blocks between the arrays and what follows the last whole block have not changed since the disk was opened first. -/
theorem c118_repaired (hs : OnCopy m cfg n k B me alt d s) (hro : cfg.readonlyBackup = false) :
    ∃ s1 h, writeInplace m s = (.ok (), s1) ∧ s.tryHeader = .ok h ∧ Uefi cfg.lbSize s1.device.data n k B ∧
      s1.device.data.length = d.data.length ∧
      (∀ i, i < cfg.lbSize.usize ∨ ((2 + k) * cfg.lbSize.usize ≤ i ∧ i < (B - k) * cfg.lbSize.usize) ∨ (B + 1) * cfg.lbSize.usize ≤ i →
        byteAt s1.device.data i = byteAt d.data i) ∧
      ∀ m' cfg', cfg'.lbSize = cfg.lbSize → ∃ s2 d2, openFromDevice m' cfg' s1.device = (.ok s2, d2) ∧ s2.guid = h.diskGuid ∧
        Numbered (Spec.used s.partitions) s2.partitions := by
  obtain ⟨h, v⟩ := hs.steady
  have hok := write_nil (m := m) v.sane (by rw [v.config]; exact hs.writable) v.room v.works.faults (v.sane.fits.trans v.works.length)
  rcases hx : writeInplace m s with ⟨r, s1⟩
  rw [hx] at hok
  simp only at hok
  subst hok
  have hu := c116_written v.sane v.table (by rw [v.config]; exact hro) (v.blocks hs.disk.blocks) (by rw [v.count]; exact hs.disk.small) hx
  rw [v.count, v.config] at hu
  have hwk := Dev.works_frame.writeInplace m s v.works
  rw [hx] at hwk
  obtain ⟨s2, d2, h2, e2, v2, -⟩ := v.reopen hs.disk.blocks hs.headers hs.writable hs.count hx
  have hdata : s2.device.data = s1.device.data := by
    obtain ⟨-, -, -, -, a, b, -⟩ := c45_reflects m cfg s1.device d2 s2 e2
    rw [b, a]
  obtain ⟨-, hkB⟩ := sane_bounds v.sane.sane
  refine ⟨s1, h, rfl, header_try v.sane.header, hu, ?_, fun i hi => ?_, fun m' cfg' hlb => ?_⟩
  · rw [← hdata]; exact v2.length
  · have e := hs.disk.array.enough
    have q1 : (2 + k) * cfg.lbSize.usize = 2 * cfg.lbSize.usize + k * cfg.lbSize.usize := Nat.add_mul ..
    have q2 : (B - k) * cfg.lbSize.usize + k * cfg.lbSize.usize = B * cfg.lbSize.usize := by rw [← Nat.add_mul]; congr 1; omega
    have q3 : (B + 1) * cfg.lbSize.usize = B * cfg.lbSize.usize + cfg.lbSize.usize := by rw [Nat.add_mul, Nat.one_mul]
    have q4 : 3 * cfg.lbSize.usize ≤ (B - k) * cfg.lbSize.usize := Nat.mul_le_mul_right _ (by omega)
    have q5 : (2 + k) * cfg.lbSize.usize ≤ (B - k) * cfg.lbSize.usize := Nat.mul_le_mul_right _ (by omega)
    rw [← hdata]
    refine v2.bytes i ?_ ?_
    · unfold InPrimary; omega
    · unfold InBackup; omega
  · have hb := c30_backup_valid m s s1 h k B v.sane hx (by rw [v.config]; exact hro) (v.blocks hs.disk.blocks)
    obtain ⟨s3, d3, -, e3, -, -, -, -, hg, -, -, -, -, -, hn⟩ := c30_write_open m m' s s1 h k B cfg' s1.device v.sane hx rfl hwk.1.faults
      hwk.1.pos (by rw [v.config]; exact hlb) (fun _ => by rw [hlb, ← v.config]; exact hb)
    exact ⟨s3, d3, e3, hg, hn⟩

/-- **C118**, damage: on a disk by the rules, overwrite anything but the blocks of one copy, so that opening takes that copy. The disk
opens with the very same table and GUID as before. -/
theorem c118_damage {m : Mode} {cfg : GptConfig} {d d1 d' : Dev} {s : GptDisk} (hwk : d.Works) (hwk1 : d1.Works)
    (u : Uefi cfg.lbSize d.data n k B) (ho : openFromDevice m cfg d = (.ok s, d')) (hlen : d1.data.length = d.data.length) {me alt : Nat}
    (hme : me = 1 ∧ alt = B ∨ me = B ∧ alt = 1)
    (hh : ∀ i, me * cfg.lbSize.usize ≤ i → i < (me + 1) * cfg.lbSize.usize → byteAt d1.data i = byteAt d.data i)
    (ha : ∀ i, num d.data (me * cfg.lbSize.usize + 72) 8 * cfg.lbSize.usize ≤ i →
      i < num d.data (me * cfg.lbSize.usize + 72) 8 * cfg.lbSize.usize + n * 128 → byteAt d1.data i = byteAt d.data i)
    (ht : OpensFrom cfg d1.data B me alt) :
    ∃ s1 d1', openFromDevice m cfg d1 = (.ok s1, d1') ∧ s1.partitions = s.partitions ∧ s1.guid = s.guid := by
  have q1 := u.front
  have q2 := u.usable
  have q3 := u.behind
  have h512 := lb_le cfg.lbSize
  have hl := u.length
  have hlb : lastBlockOffset cfg.lbSize d.data = B * cfg.lbSize.usize := by unfold lastBlockOffset; rw [u.blocks, Nat.add_sub_cancel]
  have hbv : BackupValid cfg.lbSize d.data :=
    ⟨(Nat.mul_le_mul_right _ (by omega)).trans hl, by rw [hlb]; exact u.backup.valid⟩
  have um : UefiCopy cfg.lbSize d.data n k B me alt := by
    rcases hme with ⟨rfl, rfl⟩ | ⟨rfl, rfl⟩
    · exact u.primaryCopy
    · exact u.backupCopy
  have u1 := um.transfer (by omega) hlen hh ha
  obtain ⟨s0, d0, h0, e0, t0, hh0, p0⟩ := open_copy (m := m) (cfg := cfg) hwk.faults hwk.pos (Nat.lt_of_le_of_lt hwk.length hwk.cap) u.primaryCopy
    (.inl ⟨rfl, rfl, fun _ => hbv⟩)
  obtain ⟨rfl, rfl⟩ : s0 = s ∧ d0 = d' := by rw [ho] at e0; cases e0; exact ⟨rfl, rfl⟩
  obtain ⟨s1, d1', h1, e1, t1, hh1, p1⟩ := open_copy (m := m) (cfg := cfg) hwk1.faults hwk1.pos (Nat.lt_of_le_of_lt hwk1.length hwk1.cap) u1 ht
  refine ⟨s1, d1', e1, ?_, ?_⟩
  · have hnum : num d1.data (me * cfg.lbSize.usize + 72) 8 = num d.data (me * cfg.lbSize.usize + 72) 8 := by
      unfold num
      congr 1
      have : (me + 1) * cfg.lbSize.usize ≤ (B + 1) * cfg.lbSize.usize := Nat.mul_le_mul_right _ (by omega)
      rw [Nat.add_mul, Nat.one_mul] at this hh
      refine slice_eq_of_byteAt (by omega) (slice_length_of_le (by omega)) fun i hi => ?_
      rw [byteAt_slice, if_pos hi, hh _ (by omega) (by omega)]
    have hfit := um.fits
    rw [p0, p1, hnum]
    refine tableAt_congr n 0 fun j _ hj => ?_
    have e2 : slice d1.data (num d.data (me * cfg.lbSize.usize + 72) 8 * cfg.lbSize.usize + 128 * j) 128 =
        slice d.data (num d.data (me * cfg.lbSize.usize + 72) 8 * cfg.lbSize.usize + 128 * j) 128 := by
      refine slice_eq_of_byteAt (by omega) (slice_length_of_le (by omega)) fun i hi => ?_
      rw [byteAt_slice, if_pos hi, ha _ (by omega) (by omega)]
    rw [e2]
    rcases hme with ⟨rfl, rfl⟩ | ⟨rfl, rfl⟩
    · rfl
    · rw [← slice_slice (n := n * 128) (by omega), ← slice_slice (n := n * 128) (by omega), u.arrays]
  · obtain ⟨a0, b0, c0, -⟩ := c45_reflects m cfg d d0 s0 e0
    obtain ⟨a1, b1, c1, -⟩ := c45_reflects m cfg d1 d1' s1 e1
    obtain rfl : a0 = h0 := Except.ok.inj ((header_try b0).symm.trans t0)
    obtain rfl : a1 = h1 := Except.ok.inj ((header_try b1).symm.trans t1)
    have v0 := u.primary.valid.fits
    have v1 := u1.header.valid.fits
    rw [c0, c1]
    have e2 : slice d1.data (me * cfg.lbSize.usize + 56) 16 = slice d.data (me * cfg.lbSize.usize + 56) 16 := by
      have : (me + 1) * cfg.lbSize.usize ≤ (B + 1) * cfg.lbSize.usize := Nat.mul_le_mul_right _ (by omega)
      rw [Nat.add_mul, Nat.one_mul] at this hh
      refine slice_eq_of_byteAt (by omega) (slice_length_of_le (by omega)) fun i hi => ?_
      rw [byteAt_slice, if_pos hi, hh _ (by omega) (by omega)]
    have g1 := hh1.guid
    have g0 := hh0.guid
    rw [e2] at g1
    have key : slice d.data (me * cfg.lbSize.usize + 56) 16 = slice d.data (1 * cfg.lbSize.usize + 56) 16 := by
      rcases hme with ⟨rfl, rfl⟩ | ⟨rfl, rfl⟩
      · rfl
      · exact u.guid.symm
    rw [key] at g1
    exact ((ofDisk_iff (by omega)).mpr g1).symm.trans ((ofDisk_iff (by omega)).mpr g0)

end

/-- The disk of C116, written, with its first 20000 bytes overwritten by zeros: the backup copy is taken, the table is the one that was
written, and writing makes the disk whole. -/
example (m : Mode) : ∃ s1 s2 d2 s3 d3 s4, writeInplace m wideDisk = (.ok (), s1) ∧
    openFromDevice m (GptConfig.new.setWritable true |>.setOnlyValidHeaders false) s1.device = (.ok s2, d2) ∧
    openFromDevice m (GptConfig.new.setWritable true |>.setOnlyValidHeaders false)
      { s1.device with data := zeros 20000 ++ s1.device.data.drop 20000 } = (.ok s3, d3) ∧ s3.partitions = s2.partitions ∧ s3.guid = s2.guid ∧
    writeInplace m s3 = (.ok (), s4) ∧ Uefi .lb512 s4.device.data 256 64 399 := by
  have hwk : wideDisk.device.Works := ⟨rfl, by show 204800 < 2 ^ 64; decide, Nat.le_of_eq bigDev_length, by show 0 < 2 ^ 64; decide⟩
  have hl : wideDisk.device.data.length = 204800 := bigDev_length
  have hok := write_nil (m := m) wideDisk_sane rfl (by decide) rfl (by decide)
  have hwk1 := Dev.works_frame.writeInplace m wideDisk hwk
  rcases hx : writeInplace m wideDisk with ⟨r, s1⟩
  rw [hx] at hok hwk1
  simp only at hok
  subst hok
  have hlen := (write_ok wideDisk_sane hx).length
  rw [hl] at hlen
  have u := c116_written wideDisk_sane wideDisk_tidy rfl (by rw [hl]; rfl) (by decide) hx
  obtain ⟨s2, d2, h, b, e, -⟩ := c116_opens (cfg := GptConfig.new.setWritable true |>.setOnlyValidHeaders false) m hwk1.1 u
  have hlen1 : (zeros 20000 ++ s1.device.data.drop 20000).length = s1.device.data.length := by
    rw [List.length_append, zeros_length, List.length_drop]; omega
  have hby : ∀ i, 20000 ≤ i → byteAt (zeros 20000 ++ s1.device.data.drop 20000) i = byteAt s1.device.data i := by
    intro i hi
    rw [byteAt_append, zeros_length, if_neg (by omega), byteAt_drop, Nat.add_sub_cancel' hi]
  have hwk2 : Dev.Works { s1.device with data := zeros 20000 ++ s1.device.data.drop 20000 } :=
    ⟨hwk1.1.faults, hwk1.1.cap, by rw [hlen1]; exact hwk1.1.length, hwk1.1.pos⟩
  have hinv : ¬ PrimaryValid .lb512 (zeros 20000 ++ s1.device.data.drop 20000) := by
    intro hv
    have h1 := hv.signature
    have h2 := byteAt_slice (zeros 20000 ++ s1.device.data.drop 20000) 512 8 0
    rw [show slice (zeros 20000 ++ s1.device.data.drop 20000) 512 8 = _ from h1, if_pos (by omega)] at h2
    have h3 : byteAt (zeros 20000 ++ s1.device.data.drop 20000) 512 = 0 := by
      rw [byteAt_append, zeros_length, if_pos (by decide), byteAt_zeros]
    rw [h3] at h2
    exact absurd h2 (by decide)
  have htk : OpensFrom (GptConfig.new.setWritable true |>.setOnlyValidHeaders false) (zeros 20000 ++ s1.device.data.drop 20000) 399 399 1 :=
    .inr ⟨rfl, rfl, hinv, rfl⟩
  have q := u.behind
  have q2 := u.usable
  have q3 := u.front
  have hst : 20000 ≤ num s1.device.data (399 * 512 + 72) 8 * 512 := by
    have q1 : num s1.device.data (1 * 512 + 48) 8 < num s1.device.data (399 * 512 + 72) 8 := q.1
    have q2 : num s1.device.data (1 * 512 + 40) 8 ≤ num s1.device.data (1 * 512 + 48) 8 := q2
    have q3 : num s1.device.data (1 * 512 + 72) 8 + 64 ≤ num s1.device.data (1 * 512 + 40) 8 := q3.2
    omega
  have hh1 : ∀ i, 399 * (512 : Nat) ≤ i → i < (399 + 1) * 512 → byteAt (zeros 20000 ++ s1.device.data.drop 20000) i = byteAt s1.device.data i :=
    fun i hi _ => hby i (by omega)
  have ha1 : ∀ i, num s1.device.data (399 * 512 + 72) 8 * 512 ≤ i → i < num s1.device.data (399 * 512 + 72) 8 * 512 + 256 * 128 →
      byteAt (zeros 20000 ++ s1.device.data.drop 20000) i = byteAt s1.device.data i := fun i hi _ => hby i (by omega)
  obtain ⟨s3, d3, e3, hp, hg⟩ := c118_damage (cfg := GptConfig.new.setWritable true |>.setOnlyValidHeaders false) (me := 399) (alt := 1)
    hwk1.1 hwk2 u e hlen1 (.inr ⟨rfl, rfl⟩) hh1 ha1 htk
  have u2 : UefiCopy .lb512 (zeros 20000 ++ s1.device.data.drop 20000) 256 64 399 399 1 :=
    u.backupCopy.transfer (by decide) hlen1 hh1 ha1
  obtain ⟨s4, h4, e4, -, hu4, -⟩ := c118_repaired (m := m) (cfg := GptConfig.new.setWritable true |>.setOnlyValidHeaders false) (n := 256)
    (k := 64) (B := 399) (me := 399) (alt := 1) (d := { s1.device with data := zeros 20000 ++ s1.device.data.drop 20000 }) (s := s3)
    ⟨hwk2, by show List.length _ < _; rw [hlen1, hlen]; decide, u2, htk, rfl, rfl, (fun h => nomatch h), .start e3⟩ rfl
  exact ⟨s1, s2, d2, s3, d3, s4, rfl, e, e3, hp, hg, e4, hu4⟩

end Gpt
