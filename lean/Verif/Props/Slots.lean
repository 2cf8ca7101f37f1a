import Verif.Lemmas.Reopen
/-!
# The entry writers: C56
-/

namespace Gpt

open Spec

/-- `b` is `a` with the `n` bytes `f 0, f 1, …` stored at `off`; the device grows if they reach beyond its end. -/
structure Spec.StoredAt (a b : Bytes) (off n : Nat) (f : Nat → UInt8) : Prop where
  inside : ∀ j, j < n → byteAt b (off + j) = f j
  outside : ∀ i, i < off ∨ off + n ≤ i → byteAt b i = byteAt a i
  length : b.length = if n = 0 then a.length else max a.length (off + n)

theorem storedAt_patchW (data : Bytes) (off : Nat) (bs : Bytes) :
    Spec.StoredAt data (patchW data (off, bs)) off bs.length (byteAt bs) := by
  refine ⟨fun j hj => ?_, fun i hi => ?_, ?_⟩
  · rw [byteAt_patchW, if_pos (by simp only; omega)]
    simp only
    congr 1; omega
  · rw [byteAt_patchW, if_neg (by simp only; omega)]
  · unfold patchW
    by_cases h : bs = []
    · simp [h]
    · have : bs.length ≠ 0 := by simpa using h
      rw [if_neg h, if_neg this, patch_length]

/-- C56 in full, for single entries: either the slot is written, or (overflow included) an error is returned and nothing written. -/
def C56 : Prop :=
  ∀ (m : Mode) (p : Partition) (i st : UInt64) (lb : LbSize) (sz : UInt32) (d : Dev), d.faults = [] →
    st.toNat * lb.usize + i.toNat * sz.toNat + sz.toNat ≤ d.cap ∨ 2 ^ 64 ≤ st.toNat * lb.usize + i.toNat * sz.toNat →
    ((p.writeToDevice m i st lb sz d).1 = .ok () ∧
      Spec.StoredAt d.data (p.writeToDevice m i st lb sz d).2.data (st.toNat * lb.usize + i.toNat * sz.toNat) sz.toNat (byteAt (p.asBytes sz))) ∨
    (2 ^ 64 ≤ st.toNat * lb.usize + i.toNat * sz.toNat ∧ (∃ e, (p.writeToDevice m i st lb sz d).1 = .err e) ∧
      (p.writeToDevice m i st lb sz d).2.data = d.data)

/-- Both products fit: `write_to_device` adds them and writes there. -/
theorem writeToDevice_fit (m : Mode) (p : Partition) {i st : UInt64} {lb : LbSize} {sz : UInt32} (d : Dev)
    (h1 : st.toNat * lb.usize < 2 ^ 64) (h2 : i.toNat * sz.toNat < 2 ^ 64) :
    p.writeToDevice m i st lb sz d = ((do
      let a ← M.lift (add64 m (st * lb.u64) (i * sz.toUInt64))
      let _ ← Dev.seekStart a
      Dev.writeAll (p.asBytes sz)) : M Dev IoErr Unit) d := by
  have e1 : checkedMul64 st lb.u64 = some (st * lb.u64) := by
    unfold checkedMul64; rw [lb_u64_toNat, if_pos h1]
  have e2 : checkedMul64 i sz.toUInt64 = some (i * sz.toUInt64) := by
    unfold checkedMul64; rw [UInt32.toNat_toUInt64, if_pos h2]
  unfold Partition.writeToDevice
  simp only [M.bind_apply, M.lift_apply, e1, e2, Res.ofOption]

/-- **C56** is false: the sum of the two offsets is not checked. In release mode it wraps, so entry 4 of an array at LBA
`2^55 - 1` is written over LBA 0, and the call succeeds. -/
theorem c56_fails : ¬ C56 := by
  intro hc
  have h := hc .release Partition.zero 4 0x7fffffffffffff .lb512 128 ⟨[7], 0, 1024, [], []⟩ rfl (.inr (by decide))
  have e : (Partition.zero.writeToDevice .release 4 0x7fffffffffffff .lb512 128 ⟨[7], 0, 1024, [], []⟩).1 = .ok () ∧
      byteAt (Partition.zero.writeToDevice .release 4 0x7fffffffffffff .lb512 128 ⟨[7], 0, 1024, [], []⟩).2.data 0 = 0 := by
    rw [writeToDevice_fit _ _ _ (by decide) (by decide)]
    have ha : (add64 .release (0x7fffffffffffff * LbSize.lb512.u64) (4 * (128 : UInt32).toUInt64) : Res IoErr UInt64) = .ok 0 := by decide
    simp only [M.bind_apply, M.lift_apply, ha, Dev.seekStart_nil]
    rw [Dev.writeAll_nil rfl (by rw [Partition.asBytes_length]; decide)]
    refine ⟨rfl, ?_⟩
    rw [Dev.put_eq_patchW, byteAt_patchW, if_pos (by simp only [Partition.asBytes_length]; decide)]
    decide
  rcases h with ⟨-, h⟩ | ⟨-, ⟨x, h⟩, -⟩
  · have := h.outside 0 (.inl (by decide))
    rw [e.2] at this
    revert this
    decide
  · rw [e.1] at h; cases h

/-- **C56**, partial, single entries: on any device, for any faults, an `Ok` means exactly the slot was written, provided the offset
fits 64 bits. Missing: a sum of offsets of `2^64` or more, where the claim is false (`c56_fails`). -/
theorem c56_entry_partial (m : Mode) (p : Partition) (i st : UInt64) (lb : LbSize) (sz : UInt32) (d d' : Dev)
    (h : st.toNat * lb.usize + i.toNat * sz.toNat < 2 ^ 64) (hok : p.writeToDevice m i st lb sz d = (.ok (), d')) :
    Spec.StoredAt d.data d'.data (st.toNat * lb.usize + i.toNat * sz.toNat) sz.toNat (byteAt (p.asBytes sz)) := by
  have e : d'.data = _ := (Partition.writeToDevice_follows m p d h).ok hok
  rw [e]
  have := storedAt_patchW d.data (st.toNat * lb.usize + i.toNat * sz.toNat) (p.asBytes sz)
  rwa [Partition.asBytes_length] at this

/-- **C56**, partial, zeroing: likewise for `write_zero_entries_to_device`. -/
theorem c56_zero_partial (m : Mode) (i n st : UInt64) (lb : LbSize) (sz : UInt32) (d d' : Dev)
    (h : st.toNat * lb.usize + i.toNat * sz.toNat < 2 ^ 64) (hok : Partition.writeZeroEntries m i n st lb sz d = (.ok (), d')) :
    Spec.StoredAt d.data d'.data (st.toNat * lb.usize + i.toNat * sz.toNat) (n.toNat * sz.toNat) (fun _ => 0) := by
  have e : d'.data = _ := (Partition.writeZeroEntries_follows m d h).ok hok
  rw [e]
  have := storedAt_patchW d.data (st.toNat * lb.usize + i.toNat * sz.toNat) (zeros (n.toNat * sz.toNat))
  rw [zeros_length] at this
  exact ⟨fun j hj => (this.inside j hj).trans (byteAt_zeros ..), this.outside, this.length⟩

/-- Whatever the device does, a byte outside the slot is kept and a byte inside is old or new. -/
theorem c56_entry_torn (m : Mode) (p : Partition) (i st : UInt64) (lb : LbSize) (sz : UInt32) (d : Dev)
    (h : st.toNat * lb.usize + i.toNat * sz.toNat < 2 ^ 64) (j : Nat) :
    byteAt (p.writeToDevice m i st lb sz d).2.data j = byteAt d.data j ∨
    (st.toNat * lb.usize + i.toNat * sz.toNat ≤ j ∧ j < st.toNat * lb.usize + i.toNat * sz.toNat + sz.toNat ∧
      byteAt (p.writeToDevice m i st lb sz d).2.data j = byteAt (p.asBytes sz) (j - (st.toNat * lb.usize + i.toNat * sz.toNat))) := by
  obtain ⟨ws, ht, e, -⟩ := (Partition.writeToDevice_follows m p d h).writes
  simp only [id_eq] at e
  rw [e]
  rcases ht.byteAt d.data j with h' | ⟨w, hw, hc, h'⟩
  · exact .inl h'
  · simp only [List.mem_singleton] at hw
    subst hw
    obtain ⟨c1, c2⟩ := hc
    rw [Partition.asBytes_length] at c2
    exact .inr ⟨c1, c2, h'⟩

theorem c56_zero_torn (m : Mode) (i n st : UInt64) (lb : LbSize) (sz : UInt32) (d : Dev)
    (h : st.toNat * lb.usize + i.toNat * sz.toNat < 2 ^ 64) (j : Nat) :
    byteAt (Partition.writeZeroEntries m i n st lb sz d).2.data j = byteAt d.data j ∨
    (st.toNat * lb.usize + i.toNat * sz.toNat ≤ j ∧ j < st.toNat * lb.usize + i.toNat * sz.toNat + n.toNat * sz.toNat ∧
      byteAt (Partition.writeZeroEntries m i n st lb sz d).2.data j = 0) := by
  obtain ⟨ws, ht, e, -⟩ := (Partition.writeZeroEntries_follows m (n := n) d h).writes
  simp only [id_eq] at e
  rw [e]
  rcases ht.byteAt d.data j with h' | ⟨w, hw, hc, h'⟩
  · exact .inl h'
  · simp only [List.mem_singleton] at hw
    subst hw
    obtain ⟨c1, c2⟩ := hc
    rw [zeros_length] at c2
    exact .inr ⟨c1, c2, h'.trans (byteAt_zeros ..)⟩

/-- Without faults and with room on the device both succeed. -/
theorem c56_succeeds (m : Mode) (p : Partition) (i n st : UInt64) (lb : LbSize) (sz : UInt32) (d : Dev) (hf : d.faults = [])
    (h : st.toNat * lb.usize + i.toNat * sz.toNat < 2 ^ 64) :
    (st.toNat * lb.usize + i.toNat * sz.toNat + sz.toNat ≤ d.cap → (p.writeToDevice m i st lb sz d).1 = .ok ()) ∧
    (n.toNat * sz.toNat < 2 ^ 63 → st.toNat * lb.usize + i.toNat * sz.toNat + n.toNat * sz.toNat ≤ d.cap →
      (Partition.writeZeroEntries m i n st lb sz d).1 = .ok ()) := by
  have e1 : checkedMul64 st lb.u64 = some (st * lb.u64) := by
    unfold checkedMul64; rw [lb_u64_toNat, if_pos (by omega)]
  have e2 : checkedMul64 i sz.toUInt64 = some (i * sz.toUInt64) := by
    unfold checkedMul64; rw [UInt32.toNat_toUInt64, if_pos (by omega)]
  have f1 := (checkedMul64_some.mp e1).2
  have f2 := (checkedMul64_some.mp e2).2
  rw [lb_u64_toNat] at f1
  rw [UInt32.toNat_toUInt64] at f2
  have e3 : (add64 m (st * lb.u64) (i * sz.toUInt64) : Res IoErr UInt64) = .ok (st * lb.u64 + i * sz.toUInt64) :=
    add64_eq m (by rw [f1, f2]; exact h)
  have f3 : (st * lb.u64 + i * sz.toUInt64).toNat = st.toNat * lb.usize + i.toNat * sz.toNat := by
    rw [u64_add_toNat (by rw [f1, f2]; exact h), f1, f2]
  constructor
  · intro hc
    unfold Partition.writeToDevice
    simp only [M.bind_apply, M.lift_apply, e1, e2, e3, Res.ofOption, Dev.seekStart_nil hf]
    exact congrArg Prod.fst (Dev.writeAll_nil (d := { d with pos := (st * lb.u64 + i * sz.toUInt64).toNat }) hf
      (by show (st * lb.u64 + i * sz.toUInt64).toNat + _ ≤ d.cap; rw [Partition.asBytes_length, f3]; exact hc))
  · intro hn hc
    have e4 : checkedMul64 sz.toUInt64 n = some (sz.toUInt64 * n) := by
      unfold checkedMul64; rw [UInt32.toNat_toUInt64, if_pos (by rw [Nat.mul_comm]; omega)]
    have f4 := (checkedMul64_some.mp e4).2
    rw [UInt32.toNat_toUInt64] at f4
    unfold Partition.writeZeroEntries
    simp only [M.bind_apply, M.lift_apply, e1, e2, e3, e4, Res.ofOption, Dev.seekStart_nil hf,
      vecOf_pos (n := sz.toUInt64 * n) (by rw [f4, Nat.mul_comm]; exact hn)]
    exact congrArg Prod.fst (Dev.writeAll_nil (d := { d with pos := (st * lb.u64 + i * sz.toUInt64).toNat }) hf
      (by show (st * lb.u64 + i * sz.toUInt64).toNat + _ ≤ d.cap; rw [zeros_length, f3, f4, Nat.mul_comm sz.toNat]; exact hc))

/-- Products that do not fit 64 bits are errors, the device (content, position, pending faults) is exactly as it was; the
number of bytes to zero is checked after the seek, and must also be less than `2^63`. -/
theorem c56_overflow (m : Mode) (p : Partition) (i n st : UInt64) (lb : LbSize) (sz : UInt32) (d : Dev) :
    (2 ^ 64 ≤ st.toNat * lb.usize → p.writeToDevice m i st lb sz d = (.err (.other "partition overflow - start offset"), d) ∧
      Partition.writeZeroEntries m i n st lb sz d = (.err (.other "partition overflow - start offset"), d)) ∧
    (st.toNat * lb.usize < 2 ^ 64 → 2 ^ 64 ≤ i.toNat * sz.toNat →
      p.writeToDevice m i st lb sz d = (.err (.other "partition overflow"), d) ∧
      Partition.writeZeroEntries m i n st lb sz d = (.err (.other "partition overflow"), d)) ∧
    (2 ^ 63 ≤ n.toNat * sz.toNat → (Partition.writeZeroEntries m i n st lb sz d).1 ≠ .ok () ∧
      Dev.Quiet d (Partition.writeZeroEntries m i n st lb sz d).2) := by
  refine ⟨fun h => ?_, fun h0 h => ?_, fun h => ?_⟩
  · have e : checkedMul64 st lb.u64 = none := checkedMul64_none.mpr (by rw [lb_u64_toNat]; exact h)
    unfold Partition.writeToDevice Partition.writeZeroEntries
    simp only [M.bind_apply, M.lift_apply, e, Res.ofOption, and_self]
  · have e0 : checkedMul64 st lb.u64 = some (st * lb.u64) := by
      unfold checkedMul64; rw [lb_u64_toNat, if_pos h0]
    have e : checkedMul64 i sz.toUInt64 = none := checkedMul64_none.mpr (by rw [UInt32.toNat_toUInt64]; exact h)
    unfold Partition.writeToDevice Partition.writeZeroEntries
    simp only [M.bind_apply, M.lift_apply, e0, e, Res.ofOption, and_self]
  · have e : ∀ k, checkedMul64 sz.toUInt64 n = some k → (vecOf k : Res IoErr Unit) = .panic := by
      intro k hk
      rw [checkedMul64_some, UInt32.toNat_toUInt64, Nat.mul_comm] at hk
      unfold vecOf
      rw [if_neg (by omega)]
    constructor
    · intro hc
      have hc := (Prod.ext hc rfl : Partition.writeZeroEntries m i n st lb sz d = (.ok (), _))
      unfold Partition.writeZeroEntries at hc
      simp only [M.bind_ok, M.lift_ok, Res.ofOption_eq_ok] at hc
      obtain ⟨_, _, -, _, _, -, _, _, -, _, _, -, k, _, ⟨hk, -⟩, _, _, ⟨hv, -⟩, -⟩ := hc
      rw [e k hk] at hv
      simp at hv
    · have C := Dev.quiet_chain
      have : M.Pres Dev.Quiet (Partition.writeZeroEntries m i n st lb sz) := by
        unfold Partition.writeZeroEntries
        refine M.Pres.bind C (M.Pres.lift C _) fun _ => M.Pres.bind C (M.Pres.lift C _) fun _ =>
          M.Pres.bind C (M.Pres.lift C _) fun _ => M.Pres.bind C (Dev.seekStart_quiet _) fun _ => ?_
        cases hk : checkedMul64 sz.toUInt64 n with
        | none => exact fun d => .refl d
        | some k =>
          intro d
          simp only [M.bind_apply, M.lift_apply, Res.ofOption, e k hk]
          exact .refl d
      exact this d

/-- A number of bytes to zero that fits 64 bits but not the largest size of a vector panics in every build: nothing is written, but the
position has moved. -/
theorem c56_capacity (m : Mode) (i n st : UInt64) (lb : LbSize) (sz : UInt32) (d : Dev) (hf : d.faults = [])
    (h : st.toNat * lb.usize + i.toNat * sz.toNat < 2 ^ 64) (h1 : 2 ^ 63 ≤ n.toNat * sz.toNat) (h2 : n.toNat * sz.toNat < 2 ^ 64) :
    Partition.writeZeroEntries m i n st lb sz d = (.panic, { d with pos := st.toNat * lb.usize + i.toNat * sz.toNat }) := by
  have e1 : checkedMul64 st lb.u64 = some (st * lb.u64) := by
    unfold checkedMul64; rw [lb_u64_toNat, if_pos (by omega)]
  have e2 : checkedMul64 i sz.toUInt64 = some (i * sz.toUInt64) := by
    unfold checkedMul64; rw [UInt32.toNat_toUInt64, if_pos (by omega)]
  have f1 := (checkedMul64_some.mp e1).2
  have f2 := (checkedMul64_some.mp e2).2
  rw [lb_u64_toNat] at f1
  rw [UInt32.toNat_toUInt64] at f2
  have e3 : (add64 m (st * lb.u64) (i * sz.toUInt64) : Res IoErr UInt64) = .ok (st * lb.u64 + i * sz.toUInt64) :=
    add64_eq m (by rw [f1, f2]; exact h)
  have f3 : (st * lb.u64 + i * sz.toUInt64).toNat = st.toNat * lb.usize + i.toNat * sz.toNat := by
    rw [u64_add_toNat (by rw [f1, f2]; exact h), f1, f2]
  have e4 : checkedMul64 sz.toUInt64 n = some (sz.toUInt64 * n) := by
    unfold checkedMul64; rw [UInt32.toNat_toUInt64, if_pos (by rw [Nat.mul_comm]; exact h2)]
  have f4 := (checkedMul64_some.mp e4).2
  rw [UInt32.toNat_toUInt64, Nat.mul_comm] at f4
  have e5 : (vecOf (sz.toUInt64 * n) : Res IoErr Unit) = .panic := by
    unfold vecOf
    rw [if_neg (by omega)]
  unfold Partition.writeZeroEntries
  simp only [M.bind_apply, M.lift_apply, e1, e2, e3, e4, e5, Res.ofOption, Dev.seekStart_nil hf, f3]

/-- Such arguments. -/
example (d : Dev) (hf : d.faults = []) : Partition.writeZeroEntries .release 0 (2 ^ 56) 2 .lb512 128 d = (.panic, { d with pos := 1024 }) :=
  c56_capacity .release 0 (2 ^ 56) 2 .lb512 128 d hf (by decide) (by decide) (by decide)

/-- Sums that do not fit panic in debug builds, before anything is done to the device. -/
theorem c56_sum_debug (p : Partition) (i n st : UInt64) (lb : LbSize) (sz : UInt32) (d : Dev) (h1 : st.toNat * lb.usize < 2 ^ 64)
    (h2 : i.toNat * sz.toNat < 2 ^ 64) (h : 2 ^ 64 ≤ st.toNat * lb.usize + i.toNat * sz.toNat) :
    p.writeToDevice .debug i st lb sz d = (.panic, d) ∧ Partition.writeZeroEntries .debug i n st lb sz d = (.panic, d) := by
  have e1 : checkedMul64 st lb.u64 = some (st * lb.u64) := by
    unfold checkedMul64; rw [lb_u64_toNat, if_pos h1]
  have e2 : checkedMul64 i sz.toUInt64 = some (i * sz.toUInt64) := by
    unfold checkedMul64; rw [UInt32.toNat_toUInt64, if_pos h2]
  have f1 := (checkedMul64_some.mp e1).2
  have f2 := (checkedMul64_some.mp e2).2
  rw [lb_u64_toNat] at f1
  rw [UInt32.toNat_toUInt64] at f2
  have e3 : (add64 .debug (st * lb.u64) (i * sz.toUInt64) : Res IoErr UInt64) = .panic := by
    unfold add64
    rw [f1, f2, decide_eq_false (by omega)]
    rfl
  unfold Partition.writeToDevice Partition.writeZeroEntries
  simp only [M.bind_apply, M.lift_apply, e1, e2, e3, Res.ofOption, and_self]

/-- What was written can be read: after a 128-byte entry is written, the slot holds the entry (name as far as it fits). -/
theorem c56_read_back (m : Mode) (p : Partition) (i st : UInt64) (lb : LbSize) (d d' : Dev)
    (h : st.toNat * lb.usize + i.toNat * 128 < 2 ^ 64) (hok : p.writeToDevice m i st lb 128 d = (.ok (), d')) :
    ∃ q, EntryAt d'.data (st.toNat * lb.usize + i.toNat * 128) q ∧ SameEntry p q := by
  have hs := c56_entry_partial m p i st lb 128 d d' h hok
  have e128 : (128 : UInt32).toNat = 128 := rfl
  rw [e128] at hs
  have hl := hs.length
  rw [if_neg (by decide)] at hl
  refine ⟨storedPart p, ?_, storedPart_same p⟩
  have he := entryAt_decode (data := d'.data) (off := st.toNat * lb.usize + i.toNat * 128) (by omega)
  have : slice d'.data (st.toNat * lb.usize + i.toNat * 128) 128 = p.asBytes 128 :=
    slice_eq_of_byteAt (by omega) (Partition.asBytes_length ..) fun j hj => hs.inside j hj
  rw [this, Partition.partitionOfBytes_asBytes] at he
  exact he

/-- Writing entry 3 of the array at LBA 2 of an empty device without faults, in both modes. -/
example (m : Mode) (p : Partition) : ∃ d', p.writeToDevice m 3 2 .lb512 128 ⟨[], 0, 5120, [], []⟩ = (.ok (), d') ∧
    d'.data.length = 1536 ∧ ∀ j, j < 1408 → byteAt d'.data j = 0 := by
  have h := (c56_succeeds m p 3 0 2 .lb512 128 ⟨[], 0, 5120, [], []⟩ rfl (by decide)).1 (by decide)
  rcases e : p.writeToDevice m 3 2 .lb512 128 ⟨[], 0, 5120, [], []⟩ with ⟨r, d'⟩
  rw [e] at h
  simp only at h
  subst h
  have hs := c56_entry_partial m p 3 2 .lb512 128 _ d' (by decide) e
  refine ⟨d', rfl, ?_, fun j hj => ?_⟩
  · rw [hs.length]; decide
  · rw [hs.outside j (.inl (Nat.lt_of_lt_of_le hj (by decide)))]; rfl

end Gpt
