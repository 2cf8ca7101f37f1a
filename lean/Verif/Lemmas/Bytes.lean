import Verif.Model.Device
import Verif.Lemmas.Base
import Mathlib.Tactic.SplitIfs
/-!
# Laws of byte strings
-/

namespace Gpt

/-! ## Little endian -/

@[simp] theorem leBytes_length (k n : Nat) : (leBytes k n).length = k := by
  induction k generalizing n with
  | zero => rfl
  | succ k ih => simp [leBytes, ih]

theorem leVal_leBytes (k n : Nat) : leVal (leBytes k n) = n % 256 ^ k := by
  induction k generalizing n with
  | zero => simp [leBytes, leVal, Nat.mod_one]
  | succ k ih =>
    simp only [leBytes, leVal, ih, UInt8.toNat_ofNat']
    rw [show 256 ^ (k + 1) = 256 * 256 ^ k from by rw [Nat.pow_succ, Nat.mul_comm], Nat.mod_mul]
    omega

theorem leVal_lt (b : Bytes) : leVal b < 256 ^ b.length := by
  induction b with
  | nil => simp [leVal]
  | cons x xs ih =>
    have hx := x.toNat_lt
    simp only [leVal, List.length_cons, Nat.pow_succ]
    omega

theorem leBytes_leVal (b : Bytes) : leBytes b.length (leVal b) = b := by
  induction b with
  | nil => rfl
  | cons x xs ih =>
    have hx := x.toNat_lt
    have h1 : (x.toNat + 256 * leVal xs) % 256 = x.toNat := by omega
    have h2 : (x.toNat + 256 * leVal xs) / 256 = leVal xs := by omega
    simp only [List.length_cons, leBytes, leVal, h1, h2, ih, UInt8.ofNat_toNat]

theorem leBytes_leVal' {b : Bytes} {k : Nat} (h : b.length = k) : leBytes k (leVal b) = b := by
  subst h; exact leBytes_leVal b

@[simp] theorem le16_length (x : UInt16) : (le16 x).length = 2 := leBytes_length ..
@[simp] theorem le32_length (x : UInt32) : (le32 x).length = 4 := leBytes_length ..
@[simp] theorem le64_length (x : UInt64) : (le64 x).length = 8 := leBytes_length ..
@[simp] theorem be64_length (x : UInt64) : (be64 x).length = 8 := by simp [be64]

theorem ofNat_leVal_le16 (x : UInt16) : UInt16.ofNat (leVal (le16 x)) = x := by
  have := x.toNat_lt
  rw [le16, leVal_leBytes, Nat.mod_eq_of_lt (by omega), UInt16.ofNat_toNat]
theorem ofNat_leVal_le32 (x : UInt32) : UInt32.ofNat (leVal (le32 x)) = x := by
  have := x.toNat_lt
  rw [le32, leVal_leBytes, Nat.mod_eq_of_lt (by omega), UInt32.ofNat_toNat]
theorem ofNat_leVal_le64 (x : UInt64) : UInt64.ofNat (leVal (le64 x)) = x := by
  have := x.toNat_lt
  rw [le64, leVal_leBytes, Nat.mod_eq_of_lt (by omega), UInt64.ofNat_toNat]
theorem ofNat_leVal_be64 (x : UInt64) : UInt64.ofNat (leVal (be64 x).reverse) = x := by
  rw [be64, List.reverse_reverse]; exact ofNat_leVal_le64 x

theorem le16_ofNat_leVal {b : Bytes} (h : b.length = 2) : le16 (UInt16.ofNat (leVal b)) = b := by
  have := leVal_lt b
  rw [h] at this
  rw [le16, UInt16.toNat_ofNat', Nat.mod_eq_of_lt (by omega), leBytes_leVal' h]
theorem le32_ofNat_leVal {b : Bytes} (h : b.length = 4) : le32 (UInt32.ofNat (leVal b)) = b := by
  have := leVal_lt b
  rw [h] at this
  rw [le32, UInt32.toNat_ofNat', Nat.mod_eq_of_lt (by omega), leBytes_leVal' h]
theorem le64_ofNat_leVal {b : Bytes} (h : b.length = 8) : le64 (UInt64.ofNat (leVal b)) = b := by
  have := leVal_lt b
  rw [h] at this
  rw [le64, UInt64.toNat_ofNat', Nat.mod_eq_of_lt (by omega), leBytes_leVal' h]
theorem be64_ofNat_leVal {b : Bytes} (h : b.length = 8) : be64 (UInt64.ofNat (leVal b.reverse)) = b := by
  have := leVal_lt b.reverse
  rw [List.length_reverse, h] at this
  rw [be64, UInt64.toNat_ofNat', Nat.mod_eq_of_lt (by omega), leBytes_leVal' (by simpa using h), List.reverse_reverse]

/-! ## Bytes by position -/

/-- The byte at position `i`, 0 beyond the end. -/
def byteAt (d : Bytes) (i : Nat) : UInt8 := d[i]?.getD 0

@[simp] theorem zeros_length (n : Nat) : (zeros n).length = n := List.length_replicate

@[simp] theorem byteAt_zeros (n i : Nat) : byteAt (zeros n) i = 0 := by
  unfold byteAt zeros
  rw [List.getElem?_replicate]
  split <;> rfl

theorem byteAt_of_length_le {d : Bytes} {i : Nat} (h : d.length ≤ i) : byteAt d i = 0 := by
  unfold byteAt; rw [List.getElem?_eq_none h]; rfl

theorem byteAt_append (a b : Bytes) (i : Nat) :
    byteAt (a ++ b) i = if i < a.length then byteAt a i else byteAt b (i - a.length) := by
  unfold byteAt
  rw [List.getElem?_append]
  split <;> rfl

theorem byteAt_take (d : Bytes) (n i : Nat) : byteAt (d.take n) i = if i < n then byteAt d i else 0 := by
  unfold byteAt
  rw [List.getElem?_take]
  split <;> rfl

theorem byteAt_drop (d : Bytes) (n i : Nat) : byteAt (d.drop n) i = byteAt d (n + i) := by
  unfold byteAt
  rw [List.getElem?_drop]

theorem byteAt_slice (d : Bytes) (off n i : Nat) : byteAt (slice d off n) i = if i < n then byteAt d (off + i) else 0 := by
  rw [slice, byteAt_take, byteAt_drop]

/-- Two byte strings of the same length with the same bytes are the same. -/
theorem bytes_ext {a b : Bytes} (hl : a.length = b.length) (h : ∀ i, i < a.length → byteAt a i = byteAt b i) : a = b := by
  apply List.ext_getElem hl
  intro i h1 h2
  have := h i h1
  unfold byteAt at this
  rw [List.getElem?_eq_getElem h1, List.getElem?_eq_getElem h2] at this
  exact this

theorem slice_length (d : Bytes) (off n : Nat) : (slice d off n).length = min n (d.length - off) := by
  simp [slice]

theorem slice_length_of_le {d : Bytes} {off n : Nat} (h : off + n ≤ d.length) : (slice d off n).length = n := by
  rw [slice_length]; omega

theorem slice_eq_of_byteAt {d b : Bytes} {off n : Nat} (h : off + n ≤ d.length) (hb : b.length = n)
    (hby : ∀ i, i < n → byteAt d (off + i) = byteAt b i) : slice d off n = b := by
  apply bytes_ext
  · rw [slice_length_of_le h, hb]
  · intro i hi
    rw [slice_length_of_le h] at hi
    rw [byteAt_slice, if_pos hi, hby i hi]

theorem slice_congr {d d' : Bytes} {off n : Nat} (h : off + n ≤ d.length) (h' : off + n ≤ d'.length)
    (hby : ∀ i, off ≤ i → i < off + n → byteAt d i = byteAt d' i) : slice d off n = slice d' off n := by
  apply slice_eq_of_byteAt h (slice_length_of_le h')
  intro i hi
  rw [byteAt_slice, if_pos hi]
  exact hby _ (by omega) (by omega)

theorem slice_zero_length {d : Bytes} {n : Nat} (h : d.length = n) : slice d 0 n = d := by
  subst h; simp [slice]

theorem slice_slice {d : Bytes} {a n b k : Nat} (h : b + k ≤ n) : slice (slice d a n) b k = slice d (a + b) k := by
  unfold slice
  rw [List.drop_take, List.take_take, List.drop_drop]
  congr 1
  omega

theorem slice_append_left {a b : Bytes} {off n : Nat} (h : off + n ≤ a.length) : slice (a ++ b) off n = slice a off n := by
  unfold slice
  rw [List.drop_append_of_le_length (by omega), List.take_append_of_le_length (by simp; omega)]

theorem slice_append_right {a b : Bytes} {off n : Nat} (h : a.length ≤ off) :
    slice (a ++ b) off n = slice b (off - a.length) n := by
  unfold slice
  rw [List.drop_append]
  rw [List.drop_eq_nil_of_le h]
  rfl

theorem slice_add (d : Bytes) (off n k : Nat) : slice d off (n + k) = slice d off n ++ slice d (off + n) k := by
  unfold slice
  rw [List.take_add, List.drop_drop]

/-! ## `patch` and `resize` -/

theorem patch_length (d : Bytes) (off : Nat) (bs : Bytes) : (patch d off bs).length = max d.length (off + bs.length) := by
  unfold patch
  simp only [List.length_append, List.length_take, zeros_length, List.length_drop]
  omega

theorem byteAt_patch (d : Bytes) (off : Nat) (bs : Bytes) (i : Nat) :
    byteAt (patch d off bs) i = if off ≤ i ∧ i < off + bs.length then byteAt bs (i - off) else byteAt d i := by
  unfold patch
  simp only [byteAt_append, byteAt_take, byteAt_zeros, byteAt_drop, List.length_append, List.length_take, zeros_length]
  split_ifs <;> first
    | rfl
    | (exfalso; omega)
    | (congr 1; omega)
    | (rw [byteAt_of_length_le (d := d) (by omega)])

theorem byteAt_patch_outside {d bs : Bytes} {off i : Nat} (h : i < off ∨ off + bs.length ≤ i) :
    byteAt (patch d off bs) i = byteAt d i := by
  rw [byteAt_patch, if_neg (by omega)]

theorem byteAt_patch_inside {d bs : Bytes} {off i : Nat} (h1 : off ≤ i) (h2 : i < off + bs.length) :
    byteAt (patch d off bs) i = byteAt bs (i - off) := by
  rw [byteAt_patch, if_pos ⟨h1, h2⟩]

theorem slice_patch_self (d : Bytes) (off : Nat) (bs : Bytes) : slice (patch d off bs) off bs.length = bs := by
  apply slice_eq_of_byteAt
  · rw [patch_length]; omega
  · rfl
  · intro i hi
    rw [byteAt_patch_inside (by omega) (by omega)]
    congr 1
    omega

@[simp] theorem resize_length (b : Bytes) (n : Nat) : (resize b n).length = n := by
  unfold resize
  simp only [List.length_append, List.length_take, zeros_length]
  omega

theorem byteAt_resize (b : Bytes) (n i : Nat) : byteAt (resize b n) i = if i < n then byteAt b i else 0 := by
  unfold resize
  simp only [byteAt_append, byteAt_take, byteAt_zeros, List.length_take]
  by_cases h : i < n
  · by_cases h2 : i < b.length
    · rw [if_pos (by omega)]
    · rw [if_neg (by omega), if_pos h, byteAt_of_length_le (by omega)]
  · rw [if_neg (by omega), if_neg h]

theorem resize_of_length {b : Bytes} {n : Nat} (h : b.length = n) : resize b n = b := by
  subst h; simp [resize, zeros]

theorem rd8_eq (b : Bytes) (off : Nat) : rd8 b off = byteAt b off := by
  unfold rd8 byteAt
  rw [List.headD_eq_head?_getD, List.head?_drop]

end Gpt
