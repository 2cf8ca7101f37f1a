import Verif.Model.Attributes
import Verif.Props.Write
import Verif.Props.Open
/-!
# Partition attributes: C106

The UEFI specification (2.10, table 5.8) numbers the attribute bits of an entry: 0 required, 1 no block I/O, 2 legacy BIOS bootable,
3–47 reserved, 48–63 for the partition type. They are bytes 48–55 of the entry.
-/

namespace Gpt

open Spec GptDisk

/-- Attribute bit `i`. -/
def Spec.attr (f : UInt64) (i : Nat) : Bool := f.toNat.testBit i

/-- Attribute bit `i` of the entry at `off`. -/
def Spec.diskAttr (data : Bytes) (off i : Nat) : Bool := (byteAt data (off + 48 + i / 8)).toNat.testBit (i % 8)

theorem leVal_testBit (l : Bytes) (i : Nat) : (leVal l).testBit i = (byteAt l (i / 8)).toNat.testBit (i % 8) := by
  induction l generalizing i with
  | nil => simp [leVal, byteAt]
  | cons b bs ih =>
    have hb := b.toNat_lt
    have e : leVal (b :: bs) = 2 ^ 8 * leVal bs + b.toNat := by
      rw [show leVal (b :: bs) = b.toNat + 256 * leVal bs from rfl]; omega
    rw [e, Nat.testBit_two_pow_mul_add _ (by omega)]
    split
    · next h =>
      have h0 : i / 8 = 0 := by omega
      have h1 : i % 8 = i := by omega
      rw [h0, h1]; rfl
    · next h =>
      rw [ih]
      have h0 : i / 8 = (i - 8) / 8 + 1 := by omega
      have h1 : i % 8 = (i - 8) % 8 := by omega
      rw [h0, h1]; rfl

theorem attr_ge (f : UInt64) {i : Nat} (h : 64 ≤ i) : attr f i = false := by
  unfold attr
  apply Nat.testBit_lt_two_pow
  exact Nat.lt_of_lt_of_le f.toNat_lt (Nat.pow_le_pow_right (by decide) h)

/-- Two attribute words with the same bits are equal. -/
theorem attr_ext {f g : UInt64} (h : ∀ i, i < 64 → attr f i = attr g i) : f = g := by
  apply UInt64.toNat_inj.mp
  apply Nat.eq_of_testBit_eq
  intro i
  by_cases hi : i < 64
  · exact h i hi
  · exact (attr_ge f (by omega)).trans (attr_ge g (by omega)).symm

theorem attr_and (f g : UInt64) (i : Nat) : attr (f &&& g) i = (attr f i && attr g i) := by
  unfold attr; rw [UInt64.toNat_and, Nat.testBit_and]
theorem attr_or (f g : UInt64) (i : Nat) : attr (f ||| g) i = (attr f i || attr g i) := by
  unfold attr; rw [UInt64.toNat_or, Nat.testBit_or]
theorem attr_xor (f g : UInt64) (i : Nat) : attr (f ^^^ g) i = (attr f i ^^ attr g i) := by
  unfold attr; rw [UInt64.toNat_xor, Nat.testBit_xor]
theorem attr_not (f : UInt64) {i : Nat} (h : i < 64) : attr (~~~f) i = !attr f i := by
  unfold attr
  have e : (~~~f).toNat = 2 ^ 64 - (f.toNat + 1) := by rw [UInt64.toNat_not]; show 2 ^ 64 - 1 - f.toNat = _; omega
  rw [e, Nat.testBit_two_pow_sub_succ f.toNat_lt, decide_eq_true h, Bool.true_and]
theorem attr_zero (i : Nat) : attr 0 i = false := by unfold attr; exact Nat.zero_testBit i
theorem attr_platform (i : Nat) : attr Attributes.platform.bits i = decide (i = 0) := by
  unfold attr; show (2 ^ 0).testBit i = _; rw [Nat.testBit_two_pow]; exact decide_eq_decide.mpr eq_comm
theorem attr_efi (i : Nat) : attr Attributes.efi.bits i = decide (i = 1) := by
  unfold attr; show (2 ^ 1).testBit i = _; rw [Nat.testBit_two_pow]; exact decide_eq_decide.mpr eq_comm
theorem attr_bootable (i : Nat) : attr Attributes.bootable.bits i = decide (i = 2) := by
  unfold attr; show (2 ^ 2).testBit i = _; rw [Nat.testBit_two_pow]; exact decide_eq_decide.mpr eq_comm
theorem attr_all (i : Nat) : attr Attributes.all.bits i = decide (i < 3) := by
  unfold Attributes.all
  simp only [attr_or, attr_platform, attr_efi, attr_bootable]
  rw [Bool.eq_iff_iff]; simp; omega

/-- **C106**. `PLATFORM`, `EFI` and `BOOTABLE` are attribute bits 0, 1 and 2; `contains` asks whether all bits of its argument are
there, `intersects` whether one is. -/
theorem c106_flags (f : UInt64) (a b : Attributes) :
    ((Attributes.fromBitsRetain f).contains .platform = attr f 0) ∧ ((Attributes.fromBitsRetain f).contains .efi = attr f 1) ∧
    ((Attributes.fromBitsRetain f).contains .bootable = attr f 2) ∧
    (a.contains b = true ↔ ∀ i, attr b.bits i = true → attr a.bits i = true) ∧
    (a.intersects b = true ↔ ∃ i, attr a.bits i = true ∧ attr b.bits i = true) ∧
    (a.isEmpty = true ↔ ∀ i, attr a.bits i = false) ∧
    (a.isAll = true ↔ attr a.bits 0 = true ∧ attr a.bits 1 = true ∧ attr a.bits 2 = true) := by
  have hc : ∀ a b : Attributes, a.contains b = true ↔ ∀ i, attr b.bits i = true → attr a.bits i = true := by
    intro a b
    unfold Attributes.contains
    rw [beq_iff_eq]
    constructor
    · intro h i hi
      rw [← h, attr_and, Bool.and_eq_true] at hi
      exact hi.1
    · intro h
      refine attr_ext fun i _ => ?_
      rw [attr_and]
      cases hb : attr b.bits i
      · simp
      · simp [h i hb]
  have hz : ∀ x : UInt64, x = 0 ↔ ∀ i, attr x i = false :=
    fun x => ⟨fun h i => by rw [h, attr_zero], fun h => attr_ext fun i _ => by rw [h, attr_zero]⟩
  refine ⟨?_, ?_, ?_, hc a b, ?_, ?_, ?_⟩
  · rw [Bool.eq_iff_iff, hc]; simp only [attr_platform, decide_eq_true_eq, forall_eq]; rfl
  · rw [Bool.eq_iff_iff, hc]; simp only [attr_efi, decide_eq_true_eq, forall_eq]; rfl
  · rw [Bool.eq_iff_iff, hc]; simp only [attr_bootable, decide_eq_true_eq, forall_eq]; rfl
  · unfold Attributes.intersects
    rw [bne_iff_ne, ne_eq, hz]
    simp only [attr_and, not_forall, Bool.not_eq_false, Bool.and_eq_true]
  · unfold Attributes.isEmpty
    rw [beq_iff_eq, hz]
  · unfold Attributes.isAll
    rw [beq_iff_eq]
    constructor
    · intro h
      have : ∀ i, i < 3 → attr a.bits i = true := by
        intro i hi
        rw [← h, attr_or, attr_all, decide_eq_true hi]; rfl
      exact ⟨this 0 (by decide), this 1 (by decide), this 2 (by decide)⟩
    · rintro ⟨h0, h1, h2⟩
      refine attr_ext fun i _ => ?_
      rw [attr_or, attr_all]
      by_cases hi : i < 3
      · have : i = 0 ∨ i = 1 ∨ i = 2 := by omega
        rcases this with rfl | rfl | rfl <;> simp [*]
      · simp [hi]

/-- **C106**. `from_bits` knows bits 0–2 only: it refuses every word with another bit. `from_bits_truncate` drops the others. -/
theorem c106_known (f : UInt64) (a : Attributes) :
    (Attributes.fromBits f = some a ↔ a.bits = f ∧ ∀ i, 3 ≤ i → attr f i = false) ∧
    (∀ i, attr (Attributes.fromBitsTruncate f).bits i = (decide (i < 3) && attr f i)) ∧
    (Attributes.fromBitsRetain f).bits = f := by
  have ht : ∀ i, attr (Attributes.fromBitsTruncate f).bits i = (decide (i < 3) && attr f i) := by
    intro i
    show attr (f &&& _) i = _
    rw [attr_and, attr_all, Bool.and_comm]
  have hk : (Attributes.fromBitsTruncate f).bits = f ↔ ∀ i, 3 ≤ i → attr f i = false := by
    constructor
    · intro h i hi
      rw [← h, ht, decide_eq_false (by omega)]; rfl
    · intro h
      refine attr_ext fun i _ => ?_
      rw [ht]
      by_cases hi : i < 3
      · simp [hi]
      · simp [hi, h i (by omega)]
  refine ⟨?_, ht, rfl⟩
  unfold Attributes.fromBits
  split
  · next h =>
    rw [Option.some.injEq]
    constructor
    · rintro rfl
      exact ⟨h, hk.mp h⟩
    · rintro ⟨h1, -⟩
      cases a
      simp only at h1
      subst h1
      exact congrArg Attributes.mk h
  · next h =>
    exact ⟨fun h' => (nomatch h'), fun h' => absurd (hk.mpr h'.2) h⟩

/-- **C106**. The set operations, bit by bit. `complement` keeps known bits only; the others keep unknown ones. -/
theorem c106_sets (a b : Attributes) (v : Bool) (i : Nat) :
    attr (a.union b).bits i = (attr a.bits i || attr b.bits i) ∧
    attr (a.intersection b).bits i = (attr a.bits i && attr b.bits i) ∧
    attr (a.difference b).bits i = (attr a.bits i && !attr b.bits i) ∧
    attr (a.toggle b).bits i = (attr a.bits i != attr b.bits i) ∧
    attr a.complement.bits i = (decide (i < 3) && !attr a.bits i) ∧
    attr (a.set b v).bits i = if attr b.bits i then v else attr a.bits i := by
  have hd : attr (a.difference b).bits i = (attr a.bits i && !attr b.bits i) := by
    show attr (_ &&& ~~~_) i = _
    rw [attr_and]
    by_cases hi : i < 64
    · rw [attr_not _ hi]
    · rw [attr_ge a.bits (by omega)]; rfl
  refine ⟨attr_or .., attr_and .., hd, ?_, ?_, ?_⟩
  · exact attr_xor ..
  · show attr (Attributes.fromBitsTruncate _).bits i = _
    rw [(c106_known _ a).2.1]
    by_cases hi : i < 3
    · rw [attr_not _ (by omega)]
    · simp [hi]
  · cases v
    · show attr (a.difference b).bits i = _
      rw [hd]
      cases attr a.bits i <;> cases attr b.bits i <;> rfl
    · show attr (a.union b).bits i = _
      rw [show attr (a.union b).bits i = _ from attr_or ..]
      cases attr a.bits i <;> cases attr b.bits i <;> rfl

/-- The attribute bits of an entry are those of its bytes 48–55, least significant first. -/
theorem diskAttr_of_entry {data : Bytes} {off : Nat} {p : Partition} (h : EntryAt data off p) {i : Nat} (hi : i < 64) :
    attr p.flags i = diskAttr data off i := by
  unfold attr diskAttr
  rw [h.flags]
  unfold num
  rw [leVal_testBit]
  congr 2
  rw [byteAt_slice, if_pos (by omega)]

/-- **C106**. Of every partition of an opened disk, attribute bit `i` is bit `i % 8` of byte `48 + i / 8` of its entry. -/
theorem c106_read (m : Mode) (cfg : GptConfig) (d d' : Dev) (s : GptDisk) (hok : openFromDevice m cfg d = (.ok s, d')) :
    ∃ h, s.header (ε := Empty) = .ok h ∧ ∀ k p, (k, p) ∈ s.partitions → ∀ i, i < 64 →
      attr p.flags i = diskAttr d.data (h.partStart.toNat * cfg.lbSize.usize + 128 * (k.toNat - 1)) i := by
  obtain ⟨h, h1, -, -, -, -, -, h2, -⟩ := c45_reflects m cfg d d' s hok
  exact ⟨h, h1, fun k p hm i hi => diskAttr_of_entry (h2 k p hm).2.2.2.1 hi⟩

theorem diskAttr_entry {data : Bytes} {off : Nat} {ps : List Partition} {n j : Nat} (ht : slice data off (n * 128) = tableBytes ps n)
    (hl : off + n * 128 ≤ data.length) (hr : ps.length ≤ n) (hj : j < ps.length) {i : Nat} (hi : i < 64) :
    diskAttr data (off + 128 * j) i = attr ps[j].flags i := by
  have e : slice data (off + 128 * j) 128 = ps[j].asBytes 128 := by
    rw [← slice_table_entry hj (n := n), ← ht, slice_slice (by omega), Nat.mul_comm]
  have he := entryAt_decode (data := data) (off := off + 128 * j) (by omega)
  rw [e, Partition.partitionOfBytes_asBytes] at he
  exact (diskAttr_of_entry he hi).symm

/-- **C106**. After a successful write, attribute bit `i` of the `j`th used partition is bit `i % 8` of byte `48 + i / 8` of slot `j`
of the primary array and, unless the backup is read-only, of the backup array. -/
theorem c106_written (m : Mode) (s s' : GptDisk) (h : Header) (k B : Nat) (hs : SaneDisk s h k B)
    (hok : writeInplace m s = (.ok (), s')) (j : Nat) (hj : j < (Spec.used s.partitions).length) (i : Nat) (hi : i < 64) :
    diskAttr s'.device.data (2 * s.config.lbSize.usize + 128 * j) i = attr (Spec.used s.partitions)[j].flags i ∧
    (s.config.readonlyBackup = false →
      diskAttr s'.device.data ((B - k) * s.config.lbSize.usize + 128 * j) i = attr (Spec.used s.partitions)[j].flags i) := by
  have w := write_ok hs hok
  have r := w.regions hs
  have g := geo_sane hs.sane hs.fits s.config
  have s1 := g.sep
  have s2 := g.sepB
  have s3 := g.fits
  have hn : (rebuiltP k B h).numParts = h.numParts := rfl
  rw [hn] at s1 s2
  have hl := w.length
  exact ⟨diskAttr_entry r.array (by omega) w.room hj hi, fun hro =>
    diskAttr_entry (r.backup hro).2 (by omega) w.room hj hi⟩

/-- **C106**. What is opened of a written disk answers `contains` as the partitions written do, for known and unknown bits. -/
theorem c106_kept (m m' : Mode) (s s' : GptDisk) (h : Header) (k B : Nat) (cfg : GptConfig) (d : Dev) (hs : SaneDisk s h k B)
    (hok : writeInplace m s = (.ok (), s')) (hd : d.data = s'.device.data) (hf : d.faults = []) (hp : d.pos < 2 ^ 64)
    (hlb : cfg.lbSize = s.config.lbSize) (hv : cfg.onlyValidHeaders = true → BackupValid cfg.lbSize d.data) :
    ∃ s2 d2, openFromDevice m' cfg d = (.ok s2, d2) ∧ s2.partitions.length = (Spec.used s.partitions).length ∧
      ∀ j (hj : j < (Spec.used s.partitions).length), ∃ i q, s2.partitions[j]? = some (i, q) ∧ ∀ a,
        (Attributes.fromBitsRetain q.flags).contains a = (Attributes.fromBitsRetain (Spec.used s.partitions)[j].flags).contains a := by
  obtain ⟨s2, d2, h2, e, -, -, -, -, -, -, -, -, -, -, hn⟩ := c30_write_open m m' s s' h k B cfg d hs hok hd hf hp hlb hv
  refine ⟨s2, d2, e, hn.length, fun j hj => ?_⟩
  obtain ⟨i, q, h1, -, h3⟩ := hn.entries j hj
  exact ⟨i, q, h1, fun a => by rw [h3.flags]⟩

/-- A partition that firmware may boot (bit 2) and Windows mounts read-only (bit 60, for the type). -/
def bootPart : Partition := { smallPart with flags := 0x1000000000000004 }

/-- `from_bits` refuses such a partition, `from_bits_truncate` forgets bit 60, `contains` sees bit 2. On disk bit 2 of byte 48
and bit 4 of byte 55 of the entry are set. -/
example (m : Mode) : ∃ s', writeInplace m (smallDisk [(1, smallPart), (3, bootPart)]) = (.ok (), s') ∧
    Attributes.fromBits bootPart.flags = none ∧ Attributes.fromBitsTruncate bootPart.flags = .bootable ∧
    (Attributes.fromBitsRetain bootPart.flags).contains .bootable = true ∧
    (byteAt s'.device.data (1024 + 128 + 48)).toNat.testBit 2 = true ∧ (byteAt s'.device.data (1024 + 128 + 55)).toNat.testBit 4 = true ∧
    (byteAt s'.device.data (1024 + 128 + 48)).toNat.testBit 0 = false := by
  obtain ⟨s', hw, -, -⟩ := smallDisk_written m [(1, smallPart), (3, bootPart)] (by decide)
  have h := fun i hi => (c106_written m _ s' smallHeader 1 9 (smallDisk_sane _) hw 1 (by decide) i hi).1
  exact ⟨s', hw, by decide, by decide, by decide, h 2 (by decide), h 60 (by decide), h 0 (by decide)⟩

/-- Every set of the three flags is known. -/
example : Attributes.fromBits 5 = some (Attributes.platform.union .bootable) := by decide

end Gpt
