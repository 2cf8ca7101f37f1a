import Verif.Lemmas.Crc
/-!
# Linear functions of words
-/

namespace Gpt

theorem xor2 (a b c d : BitVec 32) : (a ^^^ b) ^^^ (c ^^^ d) = (a ^^^ c) ^^^ (b ^^^ d) := by
  refine BitVec.eq_of_getLsbD_eq fun i hi => ?_
  simp only [BitVec.getLsbD_xor]
  cases a.getLsbD i <;> cases b.getLsbD i <;> cases c.getLsbD i <;> cases d.getLsbD i <;> rfl

/-- Linear functions that agree on single bits are equal. -/
theorem linear_ext {f g : BitVec 32 → BitVec 32} (hf : ∀ u v, f (u ^^^ v) = f u ^^^ f v) (hg : ∀ u v, g (u ^^^ v) = g u ^^^ g v)
    (h : ∀ i, i < 32 → f (BitVec.twoPow 32 i) = g (BitVec.twoPow 32 i)) (v : BitVec 32) : f v = g v := by
  have zero : ∀ {f : BitVec 32 → BitVec 32}, (∀ u v, f (u ^^^ v) = f u ^^^ f v) → f 0#32 = 0#32 := by
    intro f hf
    have := hf 0#32 0#32
    rwa [BitVec.xor_self, BitVec.xor_self] at this
  have key : ∀ n, n ≤ 32 → ∀ v : BitVec 32, (∀ i, n ≤ i → v.getLsbD i = false) → f v = g v := by
    intro n
    induction n with
    | zero =>
      intro _ v hv
      have : v = 0#32 := BitVec.eq_of_getLsbD_eq fun i _ => by rw [hv i (Nat.zero_le _), BitVec.getLsbD_zero]
      rw [this, zero hf, zero hg]
    | succ n ih =>
      intro hn v hv
      cases hb : v.getLsbD n with
      | false =>
        refine ih (by omega) v fun i hi => ?_
        rcases Nat.eq_or_lt_of_le hi with rfl | hi
        · exact hb
        · exact hv i hi
      | true =>
        have hu := ih (by omega) (v ^^^ BitVec.twoPow 32 n) fun i hi => by
          rw [BitVec.getLsbD_xor, BitVec.getLsbD_twoPow]
          rcases Nat.eq_or_lt_of_le hi with rfl | hi
          · rw [hb]
            simp
            omega
          · rw [hv i hi]
            simp
            omega
        have e : v = (v ^^^ BitVec.twoPow 32 n) ^^^ BitVec.twoPow 32 n := by
          rw [BitVec.xor_assoc, BitVec.xor_self, BitVec.xor_zero]
        rw [e, hf, hg, hu, h n (by omega)]
  exact key 32 (Nat.le_refl _) v fun i hi => BitVec.getLsbD_of_ge _ _ hi

end Gpt
