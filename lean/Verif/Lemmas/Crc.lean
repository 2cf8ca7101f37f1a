import Verif.Model.Crc32
import Verif.Lemmas.Bytes
/-!
# CRC-32 is linear and injective on windows of four bytes
-/

namespace Gpt

theorem crcBit_xor (a b : BitVec 32) : crcBit (a ^^^ b) = crcBit a ^^^ crcBit b := by
  unfold crcBit
  rw [BitVec.ushiftRight_xor_distrib, BitVec.getLsbD_xor]
  cases a.getLsbD 0 <;> cases b.getLsbD 0 <;> simp [BitVec.xor_assoc]
  · exact BitVec.xor_comm ..
  · rw [BitVec.xor_comm crcPoly, BitVec.xor_assoc, BitVec.xor_self, BitVec.xor_zero]

theorem crcShift8_xor (a b : BitVec 32) : crcShift8 (a ^^^ b) = crcShift8 a ^^^ crcShift8 b := by
  simp only [crcShift8, crcBit_xor]

theorem crcBit_zero : crcBit 0#32 = 0#32 := by decide

/-- The generator's top bit is set, so nothing but zero is mapped to zero. -/
theorem crcBit_eq_zero {a : BitVec 32} (h : crcBit a = 0#32) : a = 0#32 := by
  unfold crcBit at h
  by_cases hb : a.getLsbD 0 = true
  · rw [if_pos hb] at h
    have h31 := congrArg (fun x : BitVec 32 => x.getLsbD 31) h
    simp only [BitVec.getLsbD_xor, BitVec.getLsbD_ushiftRight] at h31
    rw [BitVec.getLsbD_of_ge a 32 (Nat.le_refl _)] at h31
    exact absurd h31 (by decide)
  · rw [if_neg hb, BitVec.xor_zero] at h
    have h0 := congrArg BitVec.toNat h
    rw [BitVec.toNat_ushiftRight, Nat.shiftRight_eq_div_pow] at h0
    have hb' : a.toNat % 2 = 0 := by
      have : a.getLsbD 0 = a.toNat.testBit 0 := rfl
      rw [this, Nat.testBit_zero] at hb
      simp only [decide_eq_true_eq] at hb
      omega
    apply BitVec.eq_of_toNat_eq
    have : (0#32).toNat = 0 := rfl
    omega

theorem crcShift8_eq_zero {a : BitVec 32} (h : crcShift8 a = 0#32) : a = 0#32 := by
  unfold crcShift8 at h
  exact crcBit_eq_zero (crcBit_eq_zero (crcBit_eq_zero (crcBit_eq_zero (crcBit_eq_zero (crcBit_eq_zero
    (crcBit_eq_zero (crcBit_eq_zero h)))))))

theorem xor_eq_zero {n : Nat} {a b : BitVec n} (h : a ^^^ b = 0#n) : a = b := by
  have : a ^^^ b ^^^ b = 0#n ^^^ b := by rw [h]
  rwa [BitVec.xor_assoc, BitVec.xor_self, BitVec.xor_zero, BitVec.zero_xor] at this

theorem crcShift8_inj {a b : BitVec 32} (h : crcShift8 a = crcShift8 b) : a = b := by
  apply xor_eq_zero
  apply crcShift8_eq_zero
  rw [crcShift8_xor, h, BitVec.xor_self]

theorem crcUpdate_append (s : BitVec 32) (a b : Bytes) : crcUpdate s (a ++ b) = crcUpdate (crcUpdate s a) b := by
  simp [crcUpdate, List.foldl_append]

/-- After the window, a difference never disappears. -/
theorem crcUpdate_inj : ∀ (bs : Bytes) (s t : BitVec 32), crcUpdate s bs = crcUpdate t bs → s = t := by
  intro bs
  induction bs with
  | nil => intro s t h; exact h
  | cons b bs ih =>
    intro s t h
    have h1 := ih _ _ h
    have h2 := crcShift8_inj h1
    apply xor_eq_zero
    have : s ^^^ t = (s ^^^ b.toBitVec.setWidth 32) ^^^ (t ^^^ b.toBitVec.setWidth 32) := by
      rw [BitVec.xor_assoc, BitVec.xor_comm t, ← BitVec.xor_assoc (b.toBitVec.setWidth 32), BitVec.xor_self,
        BitVec.zero_xor]
    rw [this, h2, BitVec.xor_self]

/-- A state whose low bit is clear is just shifted. -/
theorem crcBit_even {s : BitVec 32} (h : s.getLsbD 0 = false) : crcBit s = s >>> 1 := by
  unfold crcBit
  rw [h]
  simp

/-- A state whose low byte is zero is shifted by a byte. -/
theorem crcShift8_high (s : BitVec 32) (h : ∀ i, i < 8 → s.getLsbD i = false) : crcShift8 s = s >>> 8 := by
  have step : ∀ k, k < 8 → crcBit (s >>> k) = s >>> (k + 1) := by
    intro k hk
    rw [crcBit_even (by rw [BitVec.getLsbD_ushiftRight]; exact h _ (by omega)), ← BitVec.shiftRight_add]
  have e : s = s >>> 0 := by simp
  unfold crcShift8
  conv_lhs => rw [e]
  rw [step 0 (by omega), step 1 (by omega), step 2 (by omega), step 3 (by omega), step 4 (by omega), step 5 (by omega),
    step 6 (by omega), step 7 (by omega)]

/-- The byte `b` as a 32-bit word. -/
abbrev w (b : UInt8) : BitVec 32 := b.toBitVec.setWidth 32

theorem getLsbD_w_shift (b : UInt8) (k i : Nat) : (w b <<< k).getLsbD i = (decide (i < 32) && !decide (i < k) && (decide (i - k < 32) && b.toBitVec.getLsbD (i - k))) := by
  rw [BitVec.getLsbD_shiftLeft, BitVec.getLsbD_setWidth]

theorem crcShift8_w (b : UInt8) (k : Nat) (hk : k ≤ 16) : crcShift8 (w b <<< (k + 8)) = w b <<< k := by
  rw [crcShift8_high]
  · apply BitVec.eq_of_getLsbD_eq
    intro i hi
    rw [BitVec.getLsbD_ushiftRight, getLsbD_w_shift, getLsbD_w_shift]
    rw [show 8 + i - (k + 8) = i - k by omega]
    by_cases h1 : i < k
    · have : 8 + i < k + 8 := by omega
      simp [h1, this]
    · have h2 : ¬ (8 + i < k + 8) := by omega
      by_cases h3 : 8 + i < 32
      · simp [h1, h2, h3, hi]
      · have : b.toBitVec.getLsbD (i - k) = false := BitVec.getLsbD_of_ge _ _ (by omega)
        simp [this]
  · intro i hi
    rw [getLsbD_w_shift]
    have : i < k + 8 := by omega
    simp [this]

/-- Absorbing up to four bytes is an injective function of the bytes. -/
theorem crc_window4 (s : BitVec 32) (a0 a1 a2 a3 : UInt8) :
    crcUpdate s [a0, a1, a2, a3] =
      crcShift8 (crcShift8 (crcShift8 (crcShift8 (s ^^^ (w a0 ^^^ (w a1 <<< 8 ^^^ (w a2 <<< 16 ^^^ w a3 <<< 24))))))) := by
  simp only [crcUpdate, List.foldl_cons, List.foldl_nil, crcByte]
  have e1 := crcShift8_w a1 0 (by omega)
  have e2 := crcShift8_w a2 8 (by omega)
  have e3 := crcShift8_w a3 16 (by omega)
  have e2' := crcShift8_w a2 0 (by omega)
  have e3' := crcShift8_w a3 8 (by omega)
  have e3'' := crcShift8_w a3 0 (by omega)
  simp only [Nat.zero_add, BitVec.shiftLeft_zero] at e1 e2' e3''
  have key : s ^^^ (w a0 ^^^ (w a1 <<< 8 ^^^ (w a2 <<< 16 ^^^ w a3 <<< 24))) =
      (s ^^^ w a0) ^^^ (w a1 <<< 8 ^^^ (w a2 <<< 16 ^^^ w a3 <<< 24)) := by rw [BitVec.xor_assoc]
  rw [key, crcShift8_xor (s ^^^ w a0), crcShift8_xor (w a1 <<< 8), crcShift8_xor (w a2 <<< 16), e1, e2, e3]
  rw [← BitVec.xor_assoc (crcShift8 (s ^^^ w a0)), crcShift8_xor _ (w a2 <<< 8 ^^^ w a3 <<< 16), crcShift8_xor (w a2 <<< 8),
    e2', e3']
  rw [← BitVec.xor_assoc, crcShift8_xor _ (w a3 <<< 8), e3'']

theorem word_bit (i : Nat) (hi : i < 32) (x0 x1 x2 x3 : UInt8) :
    (w x0 ^^^ (w x1 <<< 8 ^^^ (w x2 <<< 16 ^^^ w x3 <<< 24))).getLsbD i =
      (if i < 8 then x0.toBitVec.getLsbD i else if i < 16 then x1.toBitVec.getLsbD (i - 8)
        else if i < 24 then x2.toBitVec.getLsbD (i - 16) else x3.toBitVec.getLsbD (i - 24)) := by
  simp only [BitVec.getLsbD_xor, getLsbD_w_shift, BitVec.getLsbD_setWidth, hi, decide_true, Bool.true_and]
  have oob : ∀ (x : UInt8) j, 8 ≤ j → x.toBitVec.getLsbD j = false := fun x j hj => BitVec.getLsbD_of_ge _ _ hj
  split_ifs with h1 h2 h3
  · have : i < 16 := by omega
    have : i < 24 := by omega
    simp [*]
  · have : ¬ i < 8 := by omega
    have : i < 24 := by omega
    have : i - 8 < 32 := by omega
    have := oob x0 i (by omega)
    simp [*]
  · have : ¬ i < 8 := by omega
    have : ¬ i < 16 := by omega
    have : i - 16 < 32 := by omega
    have := oob x0 i (by omega)
    have := oob x1 (i - 8) (by omega)
    simp [*]
  · have : ¬ i < 8 := by omega
    have : ¬ i < 16 := by omega
    have : i - 24 < 32 := by omega
    have := oob x0 i (by omega)
    have := oob x1 (i - 8) (by omega)
    have := oob x2 (i - 16) (by omega)
    simp [*]

theorem word_inj {a0 a1 a2 a3 b0 b1 b2 b3 : UInt8}
    (h : (w a0 ^^^ (w a1 <<< 8 ^^^ (w a2 <<< 16 ^^^ w a3 <<< 24))) =
      (w b0 ^^^ (w b1 <<< 8 ^^^ (w b2 <<< 16 ^^^ w b3 <<< 24)))) : a0 = b0 ∧ a1 = b1 ∧ a2 = b2 ∧ a3 = b3 := by
  have all : ∀ i, i < 32 → _ := fun i hi => (word_bit i hi a0 a1 a2 a3).symm.trans
    ((congrArg (fun x : BitVec 32 => x.getLsbD i) h).trans (word_bit i hi b0 b1 b2 b3))
  have ext8 : ∀ x y : UInt8, (∀ i, i < 8 → x.toBitVec.getLsbD i = y.toBitVec.getLsbD i) → x = y := by
    intro x y hxy
    have := BitVec.eq_of_getLsbD_eq hxy
    exact UInt8.toBitVec_inj.mp this
  refine ⟨ext8 _ _ fun i hi => ?_, ext8 _ _ fun i hi => ?_, ext8 _ _ fun i hi => ?_, ext8 _ _ fun i hi => ?_⟩
  · have := all i (by omega); rwa [if_pos hi, if_pos hi] at this
  · have := all (i + 8) (by omega)
    rw [if_neg (by omega), if_pos (by omega), if_neg (by omega), if_pos (by omega)] at this
    simpa using this
  · have := all (i + 16) (by omega)
    rw [if_neg (by omega), if_neg (by omega), if_pos (by omega), if_neg (by omega), if_neg (by omega), if_pos (by omega)] at this
    simpa using this
  · have := all (i + 24) (by omega)
    rw [if_neg (by omega), if_neg (by omega), if_neg (by omega), if_neg (by omega), if_neg (by omega), if_neg (by omega)] at this
    simpa using this

theorem crcUpdate_window_inj4 {s : BitVec 32} {a b : Bytes} (ha : a.length = 4) (hb : b.length = 4)
    (h : crcUpdate s a = crcUpdate s b) : a = b := by
  match a, ha, b, hb with
  | [a0, a1, a2, a3], _, [b0, b1, b2, b3], _ =>
    rw [crc_window4, crc_window4] at h
    have h1 := crcShift8_inj (crcShift8_inj (crcShift8_inj (crcShift8_inj h)))
    have h2 : ∀ x y : BitVec 32, s ^^^ x = s ^^^ y → x = y := by
      intro x y hxy
      have : s ^^^ (s ^^^ x) = s ^^^ (s ^^^ y) := by rw [hxy]
      rwa [← BitVec.xor_assoc, ← BitVec.xor_assoc, BitVec.xor_self, BitVec.zero_xor, BitVec.zero_xor] at this
    obtain ⟨r0, r1, r2, r3⟩ := word_inj (h2 _ _ h1)
    rw [r0, r1, r2, r3]

/-- The same for shorter windows. -/
theorem crcUpdate_window_inj {s : BitVec 32} {a b : Bytes} (hab : a.length = b.length) (ha : a.length ≤ 4)
    (h : crcUpdate s a = crcUpdate s b) : a = b := by
  have h2 : crcUpdate s (a ++ zeros (4 - a.length)) = crcUpdate s (b ++ zeros (4 - a.length)) := by
    rw [crcUpdate_append, crcUpdate_append, h]
  have h3 := crcUpdate_window_inj4 (by simp; omega) (by simp; omega) h2
  exact List.append_cancel_right h3

/-- Two messages that agree outside four consecutive bytes and differ inside have different checksums. -/
theorem crc32_burst {p a b q : Bytes} (hab : a.length = b.length) (ha : a.length ≤ 4) (hne : a ≠ b) :
    crc32 (p ++ a ++ q) ≠ crc32 (p ++ b ++ q) := by
  intro h
  unfold crc32 at h
  have h0 := congrArg UInt32.toBitVec h
  simp only at h0
  have h1 : crcUpdate 0xFFFFFFFF#32 (p ++ a ++ q) = crcUpdate 0xFFFFFFFF#32 (p ++ b ++ q) := by
    have : ∀ x y : BitVec 32, x ^^^ 0xFFFFFFFF#32 = y ^^^ 0xFFFFFFFF#32 → x = y := by
      intro x y hxy
      have : x ^^^ 0xFFFFFFFF#32 ^^^ 0xFFFFFFFF#32 = y ^^^ 0xFFFFFFFF#32 ^^^ 0xFFFFFFFF#32 := by rw [hxy]
      rwa [BitVec.xor_assoc, BitVec.xor_assoc, BitVec.xor_self, BitVec.xor_zero, BitVec.xor_zero] at this
    exact this _ _ h0
  rw [crcUpdate_append, crcUpdate_append, crcUpdate_append, crcUpdate_append] at h1
  exact hne (crcUpdate_window_inj hab ha (crcUpdate_inj _ _ _ h1))

theorem split_window (b : Bytes) (k n : Nat) : b = slice b 0 k ++ slice b k n ++ b.drop (k + n) := by
  rw [show slice b k n = slice b (0 + k) n by rw [Nat.zero_add], ← slice_add]
  simp [slice]

/-- The same, pointwise: bytes equal outside `[k, k+4)`, some byte different, equal lengths. -/
theorem crc32_ne {b c : Bytes} {k : Nat} (hl : b.length = c.length)
    (hout : ∀ i, i < k ∨ k + 4 ≤ i → byteAt b i = byteAt c i) (hne : b ≠ c) : crc32 b ≠ crc32 c := by
  have e1 : slice b 0 k = slice c 0 k := by
    refine bytes_ext (by simp [slice_length, hl]) fun i hi => ?_
    rw [slice_length] at hi
    rw [byteAt_slice, byteAt_slice, if_pos (by omega), if_pos (by omega)]
    exact hout _ (by omega)
  have e2 : b.drop (k + 4) = c.drop (k + 4) := by
    refine bytes_ext (by simp [hl]) fun i hi => ?_
    rw [byteAt_drop, byteAt_drop]
    exact hout _ (by omega)
  rw [split_window b k 4, split_window c k 4, e1, e2]
  refine crc32_burst ?_ ?_ ?_
  · simp [slice_length, hl]
  · rw [slice_length]; omega
  · intro e3
    apply hne
    rw [split_window b k 4, split_window c k 4, e1, e2, e3]

/-- The check value of CRC-32/ISO-HDLC, for the record: the checksum of "123456789". -/
example : crc32 [0x31, 0x32, 0x33, 0x34, 0x35, 0x36, 0x37, 0x38, 0x39] = 0xCBF43926 := by decide +kernel

end Gpt
