import Verif.Lemmas.Crc
import Mathlib.Algebra.Polynomial.Div
import Mathlib.Algebra.Polynomial.BigOperators
import Mathlib.Algebra.CharP.Two
import Mathlib.Algebra.Field.ZMod
import Mathlib.Tactic.LinearCombination
/-!
# The checksum is CRC-32: C70

The specification is the division of polynomials over the field with two elements, as in ISO 3309 / IEEE 802.3: the first bit of the
message (the least significant bit of the first byte) is the coefficient of the highest power.
-/

namespace Gpt

open Polynomial

noncomputable section

/-- A list of bits as a polynomial, the first bit at the highest power. -/
def Spec.poly (bits : List Bool) : (ZMod 2)[X] := bits.foldl (fun p b => p * X + if b then 1 else 0) 0

/-- The bits of a word, the least significant one first. -/
def Spec.bits {n : Nat} (v : BitVec n) : List Bool := (List.range n).map v.getLsbD

/-- The bits of a message. -/
def Spec.message (bs : Bytes) : List Bool := bs.flatMap fun b => Spec.bits b.toBitVec

/-- The generator of CRC-32 (ISO 3309, IEEE 802.3). -/
def Spec.generator : (ZMod 2)[X] :=
  X ^ 32 + X ^ 26 + X ^ 23 + X ^ 22 + X ^ 16 + X ^ 12 + X ^ 11 + X ^ 10 + X ^ 8 + X ^ 7 + X ^ 5 + X ^ 4 + X ^ 2 + X + 1

/-- The message followed by 32 zeros, with its first 32 bits complemented. -/
def Spec.dividend (bs : Bytes) : (ZMod 2)[X] :=
  Spec.poly (Spec.message bs) * X ^ 32 + Spec.poly (List.replicate 32 true) * X ^ (8 * bs.length)

/-- `c` is the CRC-32 of `bs`: the complement of its bits is the remainder of the dividend. -/
def Spec.IsCrc32 (bs : Bytes) (c : UInt32) : Prop :=
  Spec.poly ((Spec.bits c.toBitVec).map (!·)) = Spec.dividend bs %ₘ Spec.generator

open Spec

theorem poly_foldl (p : (ZMod 2)[X]) (l : List Bool) :
    l.foldl (fun p b => p * X + if b then 1 else 0) p = p * X ^ l.length + poly l := by
  induction l generalizing p with
  | nil => simp [poly]
  | cons b l ih =>
    have h : poly (b :: l) = _ := ih (0 * X + if b then 1 else 0)
    rw [List.foldl_cons, ih, h]
    simp only [List.length_cons]
    ring

theorem poly_append (a b : List Bool) : poly (a ++ b) = poly a * X ^ b.length + poly b := by
  rw [poly, List.foldl_append, poly_foldl]
  rfl

theorem poly_cons (b : Bool) (l : List Bool) : poly (b :: l) = (if b then 1 else 0) * X ^ l.length + poly l := by
  rw [show b :: l = [b] ++ l from rfl, poly_append]
  simp [poly]

theorem poly_nil : poly [] = 0 := rfl

theorem poly_false (n : Nat) : poly (List.replicate n false) = 0 := by
  induction n with
  | zero => rfl
  | succ n ih => rw [List.replicate_succ, poly_cons, ih]; simp

theorem two_zero (p : (ZMod 2)[X]) : p + p = 0 := CharTwo.add_self_eq_zero p

theorem poly_xor {ι : Type} (l : List ι) (f g : ι → Bool) :
    poly (l.map fun i => f i ^^ g i) = poly (l.map f) + poly (l.map g) := by
  induction l with
  | nil => simp [poly_nil]
  | cons i l ih =>
    simp only [List.map_cons, poly_cons, ih, List.length_map]
    cases f i <;> cases g i <;> simp
    · ring
    · ring
    · have := two_zero (X ^ l.length)
      linear_combination -this

theorem poly_bits_xor {n : Nat} (a b : BitVec n) : poly (bits (a ^^^ b)) = poly (bits a) + poly (bits b) := by
  unfold bits
  rw [← poly_xor]
  congr 1
  exact List.map_congr_left fun i _ => BitVec.getLsbD_xor

theorem bits_length {n : Nat} (a : BitVec n) : (bits a).length = n := by simp [bits]

theorem poly_bits_shift (s : BitVec 32) :
    poly (bits (s >>> 1)) = poly (bits s) * X + if s.getLsbD 0 then X ^ 32 else 0 := by
  have h1 : bits s = s.getLsbD 0 :: (List.range 31).map (fun i => s.getLsbD (i + 1)) := by
    unfold bits
    rw [List.range_succ_eq_map, List.map_cons, List.map_map]
    rfl
  have h2 : bits (s >>> 1) = (List.range 31).map (fun i => s.getLsbD (i + 1)) ++ [false] := by
    unfold bits
    rw [List.range_succ, List.map_append]
    simp [Nat.add_comm]
  have h0 : poly [false] = 0 := poly_false 1
  rw [h1, h2, poly_append, h0, poly_cons]
  simp only [List.length_map, List.length_range, List.length_singleton]
  cases s.getLsbD 0
  · simp
  · have := two_zero (X ^ 32)
    simp only [if_true]
    linear_combination -this

theorem poly_crcPoly : poly (bits crcPoly) = generator + X ^ 32 := by
  have : bits crcPoly = [false,false,false,false,false,true,false,false,true,true,false,false,false,false,false,true,false,false,false,true,true,true,false,true,true,false,true,true,false,true,true,true] := by decide
  rw [this]
  have h := two_zero (X ^ 32)
  simp only [poly, List.foldl, generator]
  simp
  linear_combination -h

theorem poly_crcBit (s : BitVec 32) : generator ∣ poly (bits (crcBit s)) + poly (bits s) * X := by
  unfold crcBit
  rw [poly_bits_xor, poly_bits_shift]
  cases s.getLsbD 0
  · have := two_zero (poly (bits s) * X)
    have h0 : poly (bits 0#32) = 0 := by
      have : bits 0#32 = List.replicate 32 false := by decide
      rw [this, poly_false]
    simp only [Bool.false_eq_true, if_false, h0]
    rw [add_zero, add_zero, this]
    exact dvd_zero _
  · have h1 := two_zero (poly (bits s) * X)
    have h2 := two_zero (X ^ 32)
    simp only [if_true, poly_crcPoly]
    refine ⟨1, ?_⟩
    linear_combination h1 + h2

/-- Congruence modulo the generator. -/
def Same (a b : (ZMod 2)[X]) : Prop := generator ∣ a + b

theorem Same.refl (a : (ZMod 2)[X]) : Same a a := by rw [Same, two_zero]; exact dvd_zero _

theorem Same.trans {a b c : (ZMod 2)[X]} (h1 : Same a b) (h2 : Same b c) : Same a c := by
  have h := dvd_add h1 h2
  have : a + b + (b + c) = a + c := by linear_combination two_zero b
  rwa [this] at h

theorem Same.mul {a b : (ZMod 2)[X]} (h : Same a b) (c : (ZMod 2)[X]) : Same (a * c) (b * c) := by
  rw [Same, ← add_mul]
  exact Dvd.dvd.mul_right h c

theorem Same.add {a b : (ZMod 2)[X]} (h : Same a b) (c : (ZMod 2)[X]) : Same (a + c) (b + c) := by
  have : a + c + (b + c) = a + b := by linear_combination two_zero c
  rw [Same, this]
  exact h

theorem poly_crcShift8 (s : BitVec 32) : Same (poly (bits (crcShift8 s))) (poly (bits s) * X ^ 8) := by
  unfold crcShift8
  have step : ∀ {a : BitVec 32} {k : Nat}, Same (poly (bits a)) (poly (bits s) * X ^ k) →
      Same (poly (bits (crcBit a))) (poly (bits s) * X ^ (k + 1)) := by
    intro a k h
    refine (show Same _ _ from poly_crcBit a).trans ?_
    have := h.mul X
    rwa [mul_assoc, ← pow_succ] at this
  have h0 : Same (poly (bits s)) (poly (bits s) * X ^ 0) := by rw [pow_zero, mul_one]; exact Same.refl _
  exact step (step (step (step (step (step (step (step h0)))))))

theorem poly_byte (b : UInt8) : poly (bits (b.toBitVec.setWidth 32)) = poly (bits b.toBitVec) * X ^ 24 := by
  have : bits (b.toBitVec.setWidth 32) = bits b.toBitVec ++ List.replicate 24 false := by
    unfold bits
    refine List.ext_getElem (by simp) fun i h1 h2 => ?_
    simp only [List.length_map, List.length_range] at h1
    rw [List.getElem_map, List.getElem_range, BitVec.getLsbD_setWidth]
    by_cases hi : i < 8
    · rw [List.getElem_append_left (by simpa using hi)]
      simp [h1]
    · rw [List.getElem_append_right (by simpa using hi)]
      rw [BitVec.getLsbD_of_ge _ i (by omega : 8 ≤ i), List.getElem_replicate, Bool.and_false]
  rw [this, poly_append, poly_false, List.length_replicate, add_zero]

theorem poly_crcByte (s : BitVec 32) (b : UInt8) :
    Same (poly (bits (crcByte s b))) (poly (bits s) * X ^ 8 + poly (bits b.toBitVec) * X ^ 32) := by
  have h := poly_crcShift8 (s ^^^ b.toBitVec.setWidth 32)
  rw [poly_bits_xor, poly_byte, add_mul, mul_assoc, ← pow_add] at h
  exact h

theorem message_length (bs : Bytes) : (message bs).length = 8 * bs.length := by
  induction bs with
  | nil => rfl
  | cons b bs ih =>
    rw [message, List.flatMap_cons, List.length_append, bits_length]
    rw [message] at ih
    rw [ih, List.length_cons]
    omega

theorem poly_crcUpdate (bs : Bytes) (s : BitVec 32) :
    Same (poly (bits (crcUpdate s bs))) (poly (bits s) * X ^ (8 * bs.length) + poly (message bs) * X ^ 32) := by
  induction bs generalizing s with
  | nil =>
    simp only [crcUpdate, List.foldl_nil, List.length_nil, Nat.mul_zero, pow_zero, mul_one, message, List.flatMap_nil, poly_nil,
      zero_mul, add_zero]
    exact Same.refl _
  | cons b bs ih =>
    have h1 := ih (crcByte s b)
    have h2 := ((poly_crcByte s b).mul (X ^ (8 * bs.length))).add (poly (message bs) * X ^ 32)
    have h := h1.trans h2
    have hm : message (b :: bs) = bits b.toBitVec ++ message bs := rfl
    rw [hm, poly_append, message_length]
    have e : (poly (bits s) * X ^ 8 + poly (bits b.toBitVec) * X ^ 32) * X ^ (8 * bs.length) + poly (message bs) * X ^ 32 =
        poly (bits s) * X ^ (8 * (b :: bs).length) + (poly (bits b.toBitVec) * X ^ (8 * bs.length) + poly (message bs)) * X ^ 32 := by
      rw [List.length_cons, Nat.mul_add]
      ring
    rw [e] at h
    exact h

theorem poly_degree (l : List Bool) : (poly l).degree < l.length := by
  induction l with
  | nil => rw [poly_nil, degree_zero]; exact WithBot.bot_lt_coe _
  | cons b l ih =>
    rw [poly_cons]
    refine lt_of_le_of_lt (degree_add_le _ _) (max_lt ?_ (ih.trans ?_))
    · cases b
      · simp
      · simp only [if_true, one_mul]
        rw [degree_X_pow]
        exact_mod_cast Nat.lt_succ_self _
    · exact_mod_cast Nat.lt_succ_self _

theorem generator_split : generator = X ^ 32 + poly (bits crcPoly) := by
  rw [poly_crcPoly]
  linear_combination -two_zero (X ^ 32)

theorem generator_monic : generator.Monic := by
  rw [generator_split]
  refine monic_X_pow_add ?_
  have := poly_degree (bits crcPoly)
  rwa [bits_length] at this

theorem generator_degree : generator.degree = 32 := by
  rw [generator_split]
  have := poly_degree (bits crcPoly)
  rw [bits_length] at this
  rw [degree_add_eq_left_of_degree_lt, degree_X_pow]
  · rfl
  · rw [degree_X_pow]; exact this

theorem poly_inj : ∀ {a b : List Bool}, a.length = b.length → poly a = poly b → a = b := by
  intro a
  induction a with
  | nil => intro b h _; cases b with | nil => rfl | cons _ _ => cases h
  | cons x a ih =>
    intro b h hp
    cases b with
    | nil => cases h
    | cons y b =>
      simp only [List.length_cons, Nat.add_right_cancel_iff] at h
      rw [poly_cons, poly_cons, h] at hp
      have hda := poly_degree a
      have hdb := poly_degree b
      rw [h] at hda
      have hc := congrArg (fun p => coeff p b.length) hp
      simp only [coeff_add, coeff_eq_zero_of_degree_lt hda, coeff_eq_zero_of_degree_lt hdb, add_zero] at hc
      have hxy : x = y := by
        cases x <;> cases y <;> simp at hc <;> rfl
      subst hxy
      rw [ih h (by simpa using hp)]

theorem bits_inj {n : Nat} {a b : BitVec n} (h : bits a = bits b) : a = b := by
  refine BitVec.eq_of_getLsbD_eq fun i hi => ?_
  have := congrArg (fun l => l[i]?) h
  simpa [bits, hi] using this

/-- **C70**. The checksum of headers and partition arrays is CRC-32: the polynomial division of ISO 3309. -/
theorem c70_crc32 (bs : Bytes) (c : UInt32) : IsCrc32 bs c ↔ crc32 bs = c := by
  have hones : bits 0xFFFFFFFF#32 = List.replicate 32 true := by decide
  have hnot : ∀ v : BitVec 32, (bits v).map (!·) = bits (v ^^^ 0xFFFFFFFF#32) := by
    intro v
    unfold bits
    rw [List.map_map]
    refine List.map_congr_left fun i hi => ?_
    have hi := List.mem_range.mp hi
    have h1 : (0xFFFFFFFF#32).getLsbD i = true := by
      have := BitVec.getLsbD_allOnes (v := 32) (i := i)
      rw [decide_eq_true hi] at this
      exact this
    rw [BitVec.getLsbD_xor, h1]
    simp
  have hkey : poly ((bits (crc32 bs).toBitVec).map (!·)) = dividend bs %ₘ generator := by
    have hx : (crc32 bs).toBitVec ^^^ 0xFFFFFFFF#32 = crcUpdate 0xFFFFFFFF#32 bs := by
      show crcUpdate _ bs ^^^ _ ^^^ _ = _
      rw [BitVec.xor_assoc, BitVec.xor_self, BitVec.xor_zero]
    rw [hnot, hx]
    have h := poly_crcUpdate bs 0xFFFFFFFF#32
    rw [hones] at h
    obtain ⟨q, hq⟩ := h
    have hd := poly_degree (bits (crcUpdate 0xFFFFFFFF#32 bs))
    rw [bits_length] at hd
    refine (div_modByMonic_unique q _ generator_monic ⟨?_, ?_⟩).2.symm
    · rw [← hq, dividend]
      linear_combination two_zero (poly (bits (crcUpdate 0xFFFFFFFF#32 bs)))
    · rw [generator_degree]
      exact hd
  constructor
  · intro h
    rw [IsCrc32, ← hkey] at h
    have h1 := poly_inj (by simp [bits_length]) h
    rw [hnot, hnot] at h1
    have h2 := bits_inj h1
    have h3 := congrArg (· ^^^ 0xFFFFFFFF#32) h2
    simp only [BitVec.xor_assoc, BitVec.xor_self, BitVec.xor_zero] at h3
    exact (UInt32.toBitVec_inj.mp h3).symm
  · rintro rfl
    exact hkey

/-- The check value of CRC-32/ISO-HDLC: the checksum of "123456789". -/
theorem c70_check_value : IsCrc32 [0x31, 0x32, 0x33, 0x34, 0x35, 0x36, 0x37, 0x38, 0x39] 0xCBF43926 :=
  (c70_crc32 _ _).mpr (by decide +kernel)

theorem le32_four (v : UInt32) : le32 v = [UInt8.ofNat v.toNat, UInt8.ofNat (v.toNat / 256), UInt8.ofNat (v.toNat / 256 / 256),
    UInt8.ofNat (v.toNat / 256 / 256 / 256)] := by
  have h : ∀ n, UInt8.ofNat (n % 256) = UInt8.ofNat n := fun n => by
    rw [← UInt8.toNat_inj, UInt8.toNat_ofNat', UInt8.toNat_ofNat']
    omega
  simp only [le32, leBytes, h]

theorem le32_word (v : UInt32) : v.toBitVec = w (UInt8.ofNat v.toNat) ^^^ (w (UInt8.ofNat (v.toNat / 256)) <<< 8 ^^^
    (w (UInt8.ofNat (v.toNat / 256 / 256)) <<< 16 ^^^ w (UInt8.ofNat (v.toNat / 256 / 256 / 256)) <<< 24)) := by
  refine BitVec.eq_of_getLsbD_eq fun i hi => ?_
  have byte : ∀ n j, j < 8 → (UInt8.ofNat n).toBitVec.getLsbD j = n.testBit j := by
    intro n j hj
    show (UInt8.ofNat n).toNat.testBit j = _
    rw [UInt8.toNat_ofNat', Nat.testBit_mod_two_pow, decide_eq_true hj, Bool.true_and]
  have down : ∀ n j, (n / 256).testBit j = n.testBit (8 + j) := by
    intro n j
    have := Nat.testBit_div_two_pow (n := 8) n j
    rw [Nat.add_comm]
    exact this
  have hv : v.toBitVec.getLsbD i = v.toNat.testBit i := rfl
  rw [word_bit i hi, hv]
  split_ifs with h1 h2 h3
  · rw [byte _ _ h1]
  · rw [byte _ _ (by omega), down]; congr 1; omega
  · rw [byte _ _ (by omega), down, down]; congr 1; omega
  · rw [byte _ _ (by omega), down, down, down]; congr 1; omega

/-- **C70**, self check. A message followed by its checksum, little-endian, has the fixed checksum 0x2144DF1C. -/
theorem c70_residue (bs : Bytes) : crc32 (bs ++ le32 (crc32 bs)) = 0x2144DF1C := by
  have h0 : (crc32 bs).toBitVec = crcUpdate 0xFFFFFFFF#32 bs ^^^ 0xFFFFFFFF#32 := rfl
  show (⟨crcUpdate _ (bs ++ le32 (crc32 bs)) ^^^ _⟩ : UInt32) = _
  rw [crcUpdate_append, le32_four, crc_window4, ← le32_word, h0, ← BitVec.xor_assoc, BitVec.xor_self, BitVec.zero_xor]
  decide

/-- The empty message, and a message of one byte: no other word is a CRC-32 of it. -/
example : IsCrc32 [] 0 ∧ IsCrc32 [0] 0xD202EF8D ∧ ¬ IsCrc32 [0] 0xD202EF8C := by
  rw [c70_crc32, c70_crc32, c70_crc32]
  decide +kernel

end

end Gpt
