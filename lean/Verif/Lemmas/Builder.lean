import Verif.Lemmas.Header
/-!
# `HeaderBuilder::build` in exact arithmetic
-/

namespace Gpt

/-- Blocks needed for `n` bytes. -/
def blocksFor (n : Nat) (lb : LbSize) : Nat := (n + (lb.usize - 1)) / lb.usize

/-- `blocksFor` is the smallest number of blocks that is enough. -/
theorem blocksFor_spec (n : Nat) (lb : LbSize) :
    n ≤ blocksFor n lb * lb.usize ∧ blocksFor n lb * lb.usize < n + lb.usize := by
  unfold blocksFor
  have hp := lb_pos lb
  have h1 := Nat.div_add_mod (n + (lb.usize - 1)) lb.usize
  have h2 := Nat.mod_lt (n + (lb.usize - 1)) hp
  rw [Nat.mul_comm] at h1
  omega

namespace HeaderBuilder

/-- The blocks of one partition array. -/
def lbs (b : HeaderBuilder) (lb : LbSize) : Nat := blocksFor (b.numParts.toNat * b.partSize.toNat) lb

theorem lbs_lt {b : HeaderBuilder} {lb : LbSize} (h : b.numParts.toNat * b.partSize.toNat < 2 ^ 32) : b.lbs lb < 2 ^ 32 := by
  have h1 := (blocksFor_spec (b.numParts.toNat * b.partSize.toNat) lb).2
  have h2 := lb_le lb
  have h3 := lb_ge lb
  unfold lbs
  have : blocksFor (b.numParts.toNat * b.partSize.toNat) lb * 512 ≤ blocksFor (b.numParts.toNat * b.partSize.toNat) lb * lb.usize :=
    Nat.mul_le_mul_left _ h2
  omega

theorem divCeil_eq {ε : Type} (m : Mode) {n : UInt64} (lb : LbSize) (h : n.toNat < 2 ^ 32) :
    (divCeil m n lb.u64 : Res ε UInt64) = .ok (UInt64.ofNat (blocksFor n.toNat lb)) := by
  have hle := lb_le lb
  have hge := lb_ge lb
  have hu := lb_u64_toNat lb
  have h1 : (1 : UInt64).toNat = 1 := rfl
  unfold divCeil
  rw [sub64_eq m (by rw [hu, h1]; omega)]
  have hsub : (lb.u64 - 1).toNat = lb.usize - 1 := by rw [u64_sub_toNat (by rw [hu, h1]; omega), hu, h1]
  simp only [Res.ok_bind]
  rw [add64_eq m (by rw [hsub]; omega)]
  simp only [Res.ok_bind, Res.pure_eq, Res.ok.injEq]
  apply UInt64.toNat_inj.mp
  rw [UInt64.toNat_div, u64_add_toNat (by rw [hsub]; omega), hsub, hu, UInt64.toNat_ofNat']
  rw [Nat.mod_eq_of_lt]
  · rfl
  · calc (n.toNat + (lb.usize - 1)) / lb.usize ≤ n.toNat + (lb.usize - 1) := Nat.div_le_self _ _
      _ < 2 ^ 64 := by omega

/-- The values `build` computes. -/
def outFirst (b : HeaderBuilder) (lb : LbSize) : Nat := max b.firstUsable.toNat (2 + b.lbs lb)
def outLast (b : HeaderBuilder) (lb : LbSize) : Nat := max b.lastUsable.toNat (b.backupLba.toNat - (b.lbs lb + 1))
def outStart (b : HeaderBuilder) (lb : LbSize) : Nat := (if b.primary then b.primaryLba.toNat else b.outLast lb) + 1

/-- The header `build` makes from exact values. -/
def out (b : HeaderBuilder) (lb : LbSize) : Header where
  signature := efiPart
  revision := (1, 0)
  headerSizeLe := 92
  crc32 := 0
  reserved := 0
  currentLba := if b.primary then b.primaryLba else b.backupLba
  backupLba := if b.primary then b.backupLba else b.primaryLba
  firstUsable := UInt64.ofNat (b.outFirst lb)
  lastUsable := UInt64.ofNat (b.outLast lb)
  diskGuid := b.diskGuid
  partStart := UInt64.ofNat (b.outStart lb)
  numParts := b.numParts
  partSize := b.partSize
  crc32Parts := 0

theorem outFirst_lt {b : HeaderBuilder} {lb : LbSize} (h : b.numParts.toNat * b.partSize.toNat < 2 ^ 32) : b.outFirst lb < 2 ^ 64 := by
  have := lbs_lt (lb := lb) h
  have := b.firstUsable.toNat_lt
  unfold outFirst; omega

theorem outLast_lt (b : HeaderBuilder) (lb : LbSize) : b.outLast lb < 2 ^ 64 := by
  have := b.lastUsable.toNat_lt
  have := b.backupLba.toNat_lt
  unfold outLast; omega

/-- `build` in exact arithmetic, as long as the array size fits 32 bits. Only the final `+ 1` can still overflow, when the
primary LBA (or the last usable LBA) is the largest 64-bit number. -/
theorem build_eq (m : Mode) (b : HeaderBuilder) (lb : LbSize) (h : b.numParts.toNat * b.partSize.toNat < 2 ^ 32) :
    build m b lb =
      if b.backupLba.toNat < b.primaryLba.toNat then .err .missingBackupLba
      else if b.backupLba.toNat < b.lbs lb + 1 then .err .backupLbaToEarly
      else if b.outLast lb < b.outFirst lb then .err .backupLbaToEarly
      else if b.outStart lb < 2 ^ 64 ∨ m = .release then .ok (b.out lb)
      else .panic := by
  have hlbs := lbs_lt (lb := lb) h
  have h1 : (1 : UInt64).toNat = 1 := rfl
  have h2 : (2 : UInt64).toNat = 2 := rfl
  have hF := outFirst_lt (lb := lb) h
  have hL := outLast_lt b lb
  unfold build
  by_cases hmiss : b.backupLba.toNat < b.primaryLba.toNat
  · rw [if_pos (UInt64.lt_iff_toNat_lt.mpr hmiss), if_pos hmiss]
  · rw [if_neg (fun e => hmiss (UInt64.lt_iff_toNat_lt.mp e)), if_neg hmiss]
    simp only
    rw [mul32_eq m h]
    simp only [Res.ok_bind]
    have hsz : (b.numParts * b.partSize).toUInt64.toNat = b.numParts.toNat * b.partSize.toNat := by
      rw [UInt32.toNat_toUInt64, u32_mul_toNat h]
    rw [divCeil_eq m lb (by rw [hsz]; exact h), hsz]
    simp only [Res.ok_bind]
    have hl : (UInt64.ofNat (blocksFor (b.numParts.toNat * b.partSize.toNat) lb)).toNat = b.lbs lb := by
      rw [UInt64.toNat_ofNat', Nat.mod_eq_of_lt (by unfold lbs at hlbs; omega)]; rfl
    generalize UInt64.ofNat (blocksFor (b.numParts.toNat * b.partSize.toNat) lb) = L at hl
    rw [add64_eq m (by rw [hl, h2]; omega)]
    simp only [Res.ok_bind]
    rw [add64_eq m (by rw [hl, h1]; omega)]
    simp only [Res.ok_bind]
    have hL1 : (L + 1).toNat = b.lbs lb + 1 := by rw [u64_add_toNat (by rw [hl, h1]; omega), hl, h1]
    have hL2 : (2 + L).toNat = 2 + b.lbs lb := by rw [u64_add_toNat (by rw [hl, h2]; omega), hl, h2]
    by_cases hearly : b.backupLba.toNat < b.lbs lb + 1
    · rw [if_pos hearly, show checkedSub64 b.backupLba (L + 1) = none from checkedSub64_none.mpr (by rw [hL1]; exact hearly)]
      rfl
    · rw [if_neg hearly]
      have hsub : checkedSub64 b.backupLba (L + 1) = some (b.backupLba - (L + 1)) := by
        unfold checkedSub64; rw [if_pos (by rw [hL1]; omega)]
      have hsubN : (b.backupLba - (L + 1)).toNat = b.backupLba.toNat - (b.lbs lb + 1) := by
        rw [u64_sub_toNat (by rw [hL1]; omega), hL1]
      rw [hsub]
      simp only [Res.ofOption_some, Res.ok_bind]
      have hfirst : max64 b.firstUsable (2 + L) = UInt64.ofNat (b.outFirst lb) := by
        apply UInt64.toNat_inj.mp
        rw [max64_toNat, hL2, UInt64.toNat_ofNat', Nat.mod_eq_of_lt hF]; rfl
      have hlast : max64 b.lastUsable (b.backupLba - (L + 1)) = UInt64.ofNat (b.outLast lb) := by
        apply UInt64.toNat_inj.mp
        rw [max64_toNat, hsubN, UInt64.toNat_ofNat', Nat.mod_eq_of_lt hL]; rfl
      rw [hfirst, hlast]
      have hgt : (UInt64.ofNat (b.outFirst lb) > UInt64.ofNat (b.outLast lb)) ↔ b.outLast lb < b.outFirst lb := by
        rw [gt_iff_lt, UInt64.lt_iff_toNat_lt, UInt64.toNat_ofNat', UInt64.toNat_ofNat', Nat.mod_eq_of_lt hF, Nat.mod_eq_of_lt hL]
      by_cases hfl : b.outLast lb < b.outFirst lb
      · rw [if_pos (hgt.mpr hfl), if_pos hfl]
      · rw [if_neg (fun e => hfl (hgt.mp e)), if_neg hfl]
        have hlastN : (UInt64.ofNat (b.outLast lb)).toNat = b.outLast lb := by
          rw [UInt64.toNat_ofNat', Nat.mod_eq_of_lt hL]
        have key : ∀ x : UInt64, ∀ n : Nat, x.toNat = n → n + 1 = b.outStart lb →
            (add64 m x 1 : Res HeaderError UInt64) = if b.outStart lb < 2 ^ 64 ∨ m = .release then
              .ok (UInt64.ofNat (b.outStart lb)) else .panic := by
          intro x n hx hn
          have hxe : x + 1 = UInt64.ofNat (b.outStart lb) := by
            apply UInt64.toNat_inj.mp
            rw [UInt64.toNat_add, UInt64.toNat_ofNat', hx, h1, hn]
          by_cases hlt : b.outStart lb < 2 ^ 64
          · rw [add64_eq m (by rw [hx, h1]; omega), hxe, if_pos (.inl hlt)]
          · cases m
            · rw [if_neg (by simp only [not_or]; exact ⟨hlt, by simp⟩)]
              unfold add64; rw [decide_eq_false (by rw [hx, h1]; omega)]; rfl
            · rw [add64_release, hxe, if_pos (.inr rfl)]
        cases hp : b.primary
        · simp only [Bool.false_eq_true, if_false]
          rw [key _ _ hlastN (by unfold outStart; rw [hp]; rfl)]
          split <;> simp [out, hp]
        · simp only [if_true]
          rw [key _ _ rfl (by unfold outStart; rw [hp]; rfl)]
          split <;> simp [out, hp]

/-- In debug builds a successful `build` had no overflow. -/
theorem build_debug_noOverflow {b : HeaderBuilder} {lb : LbSize} {h : Header} (hb : build .debug b lb = .ok h) :
    b.numParts.toNat * b.partSize.toNat < 2 ^ 32 := by
  unfold build at hb
  split at hb
  · simp at hb
  · rw [Res.bind_eq_ok] at hb
    obtain ⟨x, hx, _⟩ := hb
    unfold mul32 at hx
    rw [arith_debug_ok] at hx
    simpa using hx.1

/-- Success of `build`, inverted. -/
theorem build_ok {m : Mode} {b : HeaderBuilder} {lb : LbSize} {h : Header}
    (hns : b.numParts.toNat * b.partSize.toNat < 2 ^ 32) (hb : build m b lb = .ok h) :
    h = b.out lb ∧ b.primaryLba.toNat ≤ b.backupLba.toNat ∧ b.lbs lb + 1 ≤ b.backupLba.toNat ∧
      b.outFirst lb ≤ b.outLast lb ∧ (m = .debug → b.outStart lb < 2 ^ 64) := by
  rw [build_eq m b lb hns] at hb
  split at hb
  · simp at hb
  · split at hb
    · simp at hb
    · split at hb
      · simp at hb
      · split at hb
        · rename_i hor
          simp only [Res.ok.injEq] at hb
          refine ⟨hb.symm, by omega, by omega, by omega, ?_⟩
          rintro rfl
          simpa using hor
        · simp at hb

theorem out_first {b : HeaderBuilder} {lb : LbSize} (h : b.numParts.toNat * b.partSize.toNat < 2 ^ 32) :
    (b.out lb).firstUsable.toNat = b.outFirst lb := by
  simp only [out, UInt64.toNat_ofNat']; rw [Nat.mod_eq_of_lt (outFirst_lt h)]

theorem out_last (b : HeaderBuilder) (lb : LbSize) : (b.out lb).lastUsable.toNat = b.outLast lb := by
  simp only [out, UInt64.toNat_ofNat']; rw [Nat.mod_eq_of_lt (outLast_lt b lb)]

theorem out_start {b : HeaderBuilder} {lb : LbSize} (h : b.outStart lb < 2 ^ 64) : (b.out lb).partStart.toNat = b.outStart lb := by
  simp only [out, UInt64.toNat_ofNat']; rw [Nat.mod_eq_of_lt h]

/-- Without overflow `build` never panics. -/
theorem build_noPanic {m : Mode} {b : HeaderBuilder} {lb : LbSize}
    (hns : b.numParts.toNat * b.partSize.toNat < 2 ^ 32) (hs : b.outStart lb < 2 ^ 64) : build m b lb ≠ .panic := by
  rw [build_eq m b lb hns]
  split
  · simp
  · split
    · simp
    · split
      · simp
      · rw [if_pos (.inl hs)]; simp

end HeaderBuilder

end Gpt
