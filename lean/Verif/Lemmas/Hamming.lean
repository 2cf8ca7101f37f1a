import Verif.Lemmas.Linear
import Mathlib.Logic.Function.Iterate
import Mathlib.Dynamics.PeriodicPts.Lemmas
import Mathlib.Data.Nat.Prime.Basic
import Mathlib.Tactic.NormNum.Prime
import Mathlib.Tactic.Ring
/-!
# Powers of `x` modulo the generator polynomial

`crcBit` multiplies by `x`. The powers of `x` are pairwise different up to `2^32 - 1` (the polynomial is primitive), and no four different
powers below `x^1024` add up to zero. The first is shown with the prime factors of `2^32 - 1`, the second by going through all pairs.
-/

namespace Gpt

/-- `x^k` modulo the polynomial; the coefficient of `x^0` is the top bit. -/
def xpow (k : Nat) : BitVec 32 := crcBit^[k] 0x80000000#32

theorem xpow_zero : xpow 0 = 0x80000000#32 := rfl

theorem xpow_succ (k : Nat) : xpow (k + 1) = crcBit (xpow k) := Function.iterate_succ_apply' ..

theorem xpow_add (k l : Nat) : xpow (k + l) = crcBit^[k] (xpow l) := Function.iterate_add_apply ..

theorem crcBit_iterate_xor (k : Nat) (a b : BitVec 32) : crcBit^[k] (a ^^^ b) = crcBit^[k] a ^^^ crcBit^[k] b := by
  induction k generalizing a b with
  | zero => rfl
  | succ k ih => rw [Function.iterate_succ_apply, Function.iterate_succ_apply, Function.iterate_succ_apply, crcBit_xor, ih]

theorem crcBit_iterate_zero (k : Nat) : crcBit^[k] 0#32 = 0#32 := by
  induction k with
  | zero => rfl
  | succ k ih => rw [Function.iterate_succ_apply, crcBit_zero, ih]

theorem crcBit_inj {a b : BitVec 32} (h : crcBit a = crcBit b) : a = b := by
  apply xor_eq_zero
  apply crcBit_eq_zero
  rw [crcBit_xor, h, BitVec.xor_self]

theorem crcBit_iterate_inj (k : Nat) {a b : BitVec 32} (h : crcBit^[k] a = crcBit^[k] b) : a = b :=
  Function.Injective.iterate (fun _ _ => crcBit_inj) k h

theorem xpow_ne_zero (k : Nat) : xpow k ≠ 0#32 := by
  intro h
  have := crcBit_iterate_inj k (h.trans (crcBit_iterate_zero k).symm)
  exact absurd this (by decide)

/-! ## The order of `x` -/

/-- Multiplication: `a` times the polynomial `v`, from the highest power down. -/
def mulX (a v : BitVec 32) : BitVec 32 :=
  (List.range 32).foldl (fun acc j => crcBit acc ^^^ (if v.getLsbD j then a else 0#32)) 0#32

/-- The first `n` steps of `mulX`. -/
def mulUpTo (a v : BitVec 32) (n : Nat) : BitVec 32 :=
  (List.range n).foldl (fun acc j => crcBit acc ^^^ (if v.getLsbD j then a else 0#32)) 0#32

theorem mulUpTo_succ (a v : BitVec 32) (n : Nat) :
    mulUpTo a v (n + 1) = crcBit (mulUpTo a v n) ^^^ (if v.getLsbD n then a else 0#32) := by
  simp [mulUpTo, List.range_succ, List.foldl_append]

theorem mulX_iterate (a : BitVec 32) (v : BitVec 32) (k : Nat) : crcBit^[k] (mulX a v) = mulX (crcBit^[k] a) v := by
  have : ∀ n, crcBit^[k] (mulUpTo a v n) = mulUpTo (crcBit^[k] a) v n := by
    intro n
    induction n with
    | zero => exact crcBit_iterate_zero k
    | succ n ih =>
      rw [mulUpTo_succ, mulUpTo_succ, crcBit_iterate_xor, ← ih, ← Function.iterate_succ_apply, ← Function.iterate_succ_apply' crcBit]
      congr 1
      split
      · rfl
      · exact crcBit_iterate_zero k
  exact this 32

theorem mulX_xor (a u v : BitVec 32) : mulX a (u ^^^ v) = mulX a u ^^^ mulX a v := by
  have : ∀ n, mulUpTo a (u ^^^ v) n = mulUpTo a u n ^^^ mulUpTo a v n := by
    intro n
    induction n with
    | zero => exact (BitVec.xor_self (x := 0#32)).symm
    | succ n ih =>
      rw [mulUpTo_succ, mulUpTo_succ, mulUpTo_succ, ih, crcBit_xor, xor2]
      congr 1
      rw [BitVec.getLsbD_xor]
      cases u.getLsbD n <;> cases v.getLsbD n <;> simp
  exact this 32

theorem mulX_one (v : BitVec 32) : mulX (xpow 0) v = v :=
  linear_ext (f := mulX (xpow 0)) (g := fun v => v) (mulX_xor _) (fun _ _ => rfl) (by decide +kernel) v

/-- Shifting `k` times is multiplication by `x^k`. -/
theorem iterate_eq_mulX (k : Nat) (v : BitVec 32) : crcBit^[k] v = mulX (xpow k) v := by
  have := mulX_iterate (xpow 0) v k
  rw [mulX_one] at this
  exact this

/-- `x^n` by squaring. -/
def xpowFast : Nat → Nat → BitVec 32
  | 0, _ => xpow 0
  | fuel + 1, n =>
    let s := xpowFast fuel (n / 2)
    if n % 2 = 1 then crcBit (mulX s s) else mulX s s

theorem xpowFast_eq : ∀ fuel n, n < 2 ^ fuel → xpowFast fuel n = xpow n := by
  intro fuel
  induction fuel with
  | zero => intro n hn; rw [show n = 0 by omega]; rfl
  | succ fuel ih =>
    intro n hn
    have h := ih (n / 2) (by rw [Nat.pow_succ] at hn; omega)
    have e : mulX (xpow (n / 2)) (xpow (n / 2)) = xpow (n / 2 + n / 2) := by rw [← iterate_eq_mulX, xpow_add]
    unfold xpowFast
    simp only [h, e]
    split
    · rw [← xpow_succ]; congr 1; omega
    · congr 1; omega

theorem xpow_period : xpow (2 ^ 32 - 1) = xpow 0 := by
  rw [← xpowFast_eq 32 _ (by decide)]
  decide +kernel

theorem xpow_period_div : ∀ p ∈ [3, 5, 17, 257, 65537], xpow ((2 ^ 32 - 1) / p) ≠ xpow 0 := by
  intro p hp
  have hlt : (2 ^ 32 - 1) / p < 2 ^ 32 := Nat.lt_of_le_of_lt (Nat.div_le_self _ _) (by decide)
  rw [← xpowFast_eq 32 _ hlt]
  revert p
  decide +kernel

/-- The prime factors of `2^32 - 1`. -/
theorem prime_dvd_period {p : Nat} (hp : p.Prime) (h : p ∣ 2 ^ 32 - 1) : p ∈ [3, 5, 17, 257, 65537] := by
  have e : 2 ^ 32 - 1 = 3 * (5 * (17 * (257 * 65537))) := by decide
  rw [e] at h
  have one : ∀ q : Nat, q.Prime → p ∣ q → p = q := fun q hq hd => (Nat.prime_dvd_prime_iff_eq hp hq).mp hd
  rcases hp.dvd_mul.mp h with h | h
  · rw [one 3 (by norm_num) h]; decide
  rcases hp.dvd_mul.mp h with h | h
  · rw [one 5 (by norm_num) h]; decide
  rcases hp.dvd_mul.mp h with h | h
  · rw [one 17 (by norm_num) h]; decide
  rcases hp.dvd_mul.mp h with h | h
  · rw [one 257 (by norm_num) h]; decide
  · rw [one 65537 (by norm_num) h]; decide

theorem minimalPeriod_crcBit : Function.minimalPeriod crcBit (xpow 0) = 2 ^ 32 - 1 := by
  have hN : Function.IsPeriodicPt crcBit (2 ^ 32 - 1) (xpow 0) := by
    show crcBit^[_] _ = _
    exact xpow_period
  have hd := hN.minimalPeriod_dvd
  by_contra hne
  obtain ⟨k, hk⟩ := hd
  have hk1 : k ≠ 1 := by
    rintro rfl
    exact hne (by rw [Nat.mul_one] at hk; exact hk.symm)
  obtain ⟨p, hp, hpk⟩ := Nat.exists_prime_and_dvd hk1
  obtain ⟨c, rfl⟩ := hpk
  have hmem := prime_dvd_period hp (hk ▸ Dvd.intro_left (Function.minimalPeriod crcBit (xpow 0) * c) (by ring))
  have hdiv : (2 ^ 32 - 1) / p = Function.minimalPeriod crcBit (xpow 0) * c := by
    rw [hk]
    exact Nat.div_eq_of_eq_mul_left hp.pos (by ring)
  refine xpow_period_div p hmem ?_
  rw [hdiv]
  exact ((Function.isPeriodicPt_minimalPeriod crcBit (xpow 0)).mul_const c)

/-- The powers of `x` are different below the period. -/
theorem xpow_inj {a b : Nat} (hab : a < b) (hb : b - a < 2 ^ 32 - 1) : xpow a ≠ xpow b := by
  intro h
  have e : b = a + (b - a) := by omega
  rw [e, xpow_add, show xpow a = crcBit^[a] (xpow 0) from rfl] at h
  have h' := crcBit_iterate_inj a h
  have hp : Function.IsPeriodicPt crcBit (b - a) (xpow 0) := h'.symm
  have := Nat.le_of_dvd (by omega) hp.minimalPeriod_dvd
  rw [minimalPeriod_crcBit] at this
  omega

end Gpt
