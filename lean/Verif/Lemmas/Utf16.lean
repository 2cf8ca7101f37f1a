import Verif.Model.Utf16
import Verif.Spec.Name
import Mathlib.Tactic.SplitIfs
/-!
# UTF-16 encoding and decoding
-/

namespace Gpt

theorem char_range (c : Char) : c.toNat < 0xD800 ∨ (0xDFFF < c.toNat ∧ c.toNat < 0x110000) := by
  have := c.valid
  unfold UInt32.isValidChar Nat.isValidChar at this
  exact this

theorem u16_toNat_ofNat {n : Nat} (h : n < 65536) : (UInt16.ofNat n).toNat = n := by
  rw [UInt16.toNat_ofNat', Nat.mod_eq_of_lt (by omega)]

theorem decode_single {u : UInt16} {rest : List UInt16} (h : u.toNat < 0xD800 ∨ 0xDFFF < u.toNat) :
    decodeUnits (u :: rest) = Char.ofNat u.toNat :: decodeUnits rest := by
  rw [decodeUnits.eq_def]
  dsimp only
  rw [if_pos]
  rw [UInt16.lt_iff_toNat_lt, UInt16.lt_iff_toNat_lt]
  exact h

theorem decode_pair {u v : UInt16} {rest : List UInt16} (hu : 0xD800 ≤ u.toNat) (hu2 : u.toNat < 0xDC00)
    (hv : 0xDC00 ≤ v.toNat) (hv2 : v.toNat ≤ 0xDFFF) : decodeUnits (u :: v :: rest) =
    Char.ofNat (0x10000 + (u.toNat - 0xD800) * 0x400 + (v.toNat - 0xDC00)) :: decodeUnits rest := by
  rw [decodeUnits]
  have e1 : (0xD800 : UInt16).toNat = 0xD800 := rfl
  have e2 : (0xDFFF : UInt16).toNat = 0xDFFF := rfl
  have e3 : (0xDC00 : UInt16).toNat = 0xDC00 := rfl
  rw [if_neg (by rw [UInt16.lt_iff_toNat_lt, UInt16.lt_iff_toNat_lt]; omega),
    if_neg (by rw [UInt16.le_iff_toNat_le]; omega)]
  rw [if_pos (by rw [UInt16.le_iff_toNat_le, UInt16.le_iff_toNat_le]; omega)]

/-- A high surrogate at the end. -/
theorem decode_half {u : UInt16} (hu : 0xD800 ≤ u.toNat) (hu2 : u.toNat < 0xDC00) :
    decodeUnits [u] = [Char.ofNat 0xFFFD] := by
  rw [decodeUnits]
  have e1 : (0xD800 : UInt16).toNat = 0xD800 := rfl
  have e2 : (0xDFFF : UInt16).toNat = 0xDFFF := rfl
  have e3 : (0xDC00 : UInt16).toNat = 0xDC00 := rfl
  rw [if_neg (by rw [UInt16.lt_iff_toNat_lt, UInt16.lt_iff_toNat_lt]; omega),
    if_neg (by rw [UInt16.le_iff_toNat_le]; omega)]
  rfl

theorem decode_encode_char (c : Char) (rest : List UInt16) :
    decodeUnits (encodeChar c ++ rest) = c :: decodeUnits rest := by
  have hr := char_range c
  unfold encodeChar
  split
  · rename_i h
    rw [List.cons_append, List.nil_append, decode_single] <;> rw [u16_toNat_ofNat h]
    · rw [Char.ofNat_toNat]
    · omega
  · rename_i h
    have h1 : (UInt16.ofNat (0xD800 + (c.toNat - 0x10000) / 0x400)).toNat = 0xD800 + (c.toNat - 0x10000) / 0x400 :=
      u16_toNat_ofNat (by omega)
    have h2 : (UInt16.ofNat (0xDC00 + (c.toNat - 0x10000) % 0x400)).toNat = 0xDC00 + (c.toNat - 0x10000) % 0x400 :=
      u16_toNat_ofNat (by omega)
    rw [List.cons_append, List.cons_append, List.nil_append, decode_pair] <;> simp only [h1, h2]
    · rw [show 0x10000 + (0xD800 + (c.toNat - 0x10000) / 0x400 - 0xD800) * 0x400 +
          (0xDC00 + (c.toNat - 0x10000) % 0x400 - 0xDC00) = c.toNat from by omega, Char.ofNat_toNat]
    all_goals omega

theorem decode_flatMap (cs : List Char) : decodeUnits (cs.flatMap encodeChar) = cs := by
  induction cs with
  | nil => rfl
  | cons c cs ih => rw [List.flatMap_cons, decode_encode_char, ih]

theorem encodeChar_length (c : Char) : (encodeChar c).length = Spec.width c := by
  unfold encodeChar Spec.width
  split <;> rfl

/-- Units of a character are non-zero unless it is NUL. -/
theorem encodeChar_ne_zero {c : Char} (h : c.toNat ≠ 0) : ∀ u ∈ encodeChar c, u ≠ 0 := by
  have hr := char_range c
  intro u hu
  rw [Ne, ← UInt16.toNat_inj]
  have e0 : (0 : UInt16).toNat = 0 := rfl
  unfold encodeChar at hu
  split at hu
  · rename_i h1
    simp only [List.mem_singleton] at hu
    rw [hu, u16_toNat_ofNat h1]; omega
  · simp only [List.mem_cons, List.not_mem_nil, or_false] at hu
    rcases hu with rfl | rfl <;> rw [u16_toNat_ofNat (by omega)] <;> omega

theorem takeWhile_append_of_all {α : Type} (p : α → Bool) (a b : List α) (h : ∀ x ∈ a, p x = true) :
    (a ++ b).takeWhile p = a ++ b.takeWhile p := by
  induction a with
  | nil => rfl
  | cons x xs ih =>
    rw [List.cons_append, List.takeWhile_cons_of_pos (h x (by simp)), ih (fun y hy => h y (by simp [hy])),
      List.cons_append]

/-- What the reader makes of the first `n` units of an encoded name. -/
theorem decode_take (n : Nat) (cs : List Char) :
    decodeUnits (((cs.flatMap encodeChar).take n).takeWhile (· != 0)) = Spec.storedName n cs := by
  induction cs generalizing n with
  | nil => simp [Spec.storedName, decodeUnits]
  | cons c cs ih =>
    have hr := char_range c
    rw [List.flatMap_cons, Spec.storedName]
    split
    · rename_i h0
      have he : encodeChar c = [0] := by
        unfold encodeChar; rw [if_pos (by omega), h0]; rfl
      rw [he]
      cases n <;> simp [decodeUnits]
    · rename_i h0
      have hnz := encodeChar_ne_zero h0
      split
      · rename_i hw
        rw [List.take_append, List.take_of_length_le (by rw [encodeChar_length]; exact hw),
          takeWhile_append_of_all _ _ _ (fun x hx => by simpa using hnz x hx), decode_encode_char, encodeChar_length, ih]
      · rename_i hw
        split
        · rename_i hn; subst hn; simp [decodeUnits]
        · rename_i hn
          have hn1 : n = 1 := by unfold Spec.width at hw; split at hw <;> omega
          subst hn1
          have hbig : ¬ c.toNat < 0x10000 := by
            intro hb; unfold Spec.width at hw; rw [if_pos hb] at hw; omega
          unfold encodeChar
          rw [if_neg hbig]
          have h1 : (UInt16.ofNat (0xD800 + (c.toNat - 0x10000) / 0x400)).toNat = 0xD800 + (c.toNat - 0x10000) / 0x400 :=
            u16_toNat_ofNat (by omega)
          have hne : (UInt16.ofNat (0xD800 + (c.toNat - 0x10000) / 0x400)) ≠ 0 := by
            rw [Ne, ← UInt16.toNat_inj, h1]; simp
          rw [List.cons_append, List.take_succ_cons, List.take_zero, List.takeWhile_cons_of_pos (by simpa using hne),
            List.takeWhile_nil]
          exact decode_half (by omega) (by omega)

end Gpt
