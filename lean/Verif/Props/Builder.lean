import Verif.Props.Header
import Verif.Spec.Layout
/-!
# C11–C14, C16, C57: header layout
-/

namespace Gpt

open HeaderBuilder

theorem justEnough_blocksFor (n : Nat) (lb : LbSize) : Spec.JustEnough lb n (blocksFor n lb) where
  enough := (blocksFor_spec n lb).1
  minimal := fun j hj => by
    have h := (blocksFor_spec n lb).2
    have hp := lb_pos lb
    by_contra hc
    have h1 : (j + 1) * lb.usize ≤ blocksFor n lb * lb.usize := Nat.mul_le_mul_right _ (by omega)
    rw [Nat.add_mul, Nat.one_mul] at h1
    omega

theorem justEnough_unique {lb : LbSize} {n k j : Nat} (h1 : Spec.JustEnough lb n k) (h2 : Spec.JustEnough lb n j) : k = j :=
  Nat.le_antisymm (h1.minimal j h2.enough) (h2.minimal k h1.enough)

/-- A builder made by `HeaderBuilder::new` and any of the setters except `last_usable`. -/
structure HeaderBuilder.Fresh (b : HeaderBuilder) : Prop where
  primaryLba : b.primaryLba = 1
  lastUsable : b.lastUsable = 0

theorem fresh_new (u g : Uuid) (n s : UInt32) (bl f : UInt64) (p : Bool) :
    ((((((HeaderBuilder.new u).setDiskGuid g).setNumParts n).setPartSize s).setBackupLba bl).setFirstUsable f
      |>.setPrimary p).Fresh := ⟨rfl, rfl⟩

/-- `num_parts * part_size` fits 32 bits; in debug builds `build` panics otherwise. -/
theorem fits_of_ok {m : Mode} {b : HeaderBuilder} {lb : LbSize} {h : Header}
    (hm : m = .debug ∨ b.numParts.toNat * b.partSize.toNat < 2 ^ 32) (hb : build m b lb = .ok h) :
    b.numParts.toNat * b.partSize.toNat < 2 ^ 32 := by
  rcases hm with rfl | h
  · exact build_debug_noOverflow hb
  · exact h

/-! ## C11 -/

/-- **C11**, the claim: the two headers a fresh builder makes describe disjoint regions in the right order, with arrays that are
just large enough; the backup array is adjacent to the backup header and the backup header is where it was asked for. -/
def C11 : Prop := ∀ (m : Mode) (lb : LbSize) (b : HeaderBuilder) (p q : Header), b.Fresh →
    build m (b.setPrimary true) lb = .ok p → build m (b.setPrimary false) lb = .ok q →
    ∃ k, Spec.Layout lb k p q ∧ p.numParts = b.numParts ∧ p.partSize = b.partSize ∧ p.backupLba = b.backupLba ∧
      q.partStart.toNat + k = b.backupLba.toNat ∧ p.lastUsable.toNat + 1 = q.partStart.toNat

/-- The claim is false in release builds: `num_parts * part_size` is computed in 32 bits, so with `2^25` entries of 128 bytes the
array gets no block at all, and the first usable block is block 2. -/
theorem c11_fails : ¬ C11 := by
  intro hC
  obtain ⟨k, hl, -, -, -, hq, -⟩ := hC .release .lb512 (((HeaderBuilder.new ⟨1, 2, 3, 4⟩).setBackupLba 999).setNumParts 0x2000000)
    _ _ ⟨rfl, rfl⟩ rfl rfl
  have h1 : 0x2000000 * 128 ≤ k * 512 := hl.arrays.enough
  have h2 : 999 + k = 999 := hq
  omega

/-- **C11**, what holds: the claim in debug builds, and in release builds when the array size fits 32 bits. -/
theorem c11_partial (m : Mode) (lb : LbSize) (b : HeaderBuilder) (p q : Header) (hb : b.Fresh)
    (hm : m = .debug ∨ b.numParts.toNat * b.partSize.toNat < 2 ^ 32)
    (hp : build m (b.setPrimary true) lb = .ok p) (hq : build m (b.setPrimary false) lb = .ok q) :
    ∃ k, Spec.Layout lb k p q ∧ p.numParts = b.numParts ∧ p.partSize = b.partSize ∧ p.backupLba = b.backupLba ∧
      q.partStart.toNat + k = b.backupLba.toNat ∧ p.lastUsable.toNat + 1 = q.partStart.toNat := by
  have hns : b.numParts.toNat * b.partSize.toNat < 2 ^ 32 := fits_of_ok (b := b.setPrimary true) hm hp
  have hk : b.lbs lb < 2 ^ 32 := lbs_lt hns
  obtain ⟨ep, p1, p2, p3, _⟩ := build_ok (b := b.setPrimary true) hns hp
  obtain ⟨eq, q1, q2, q3, _⟩ := build_ok (b := b.setPrimary false) hns hq
  have hpl : b.primaryLba.toNat = 1 := by rw [hb.primaryLba]; rfl
  have hlu : b.lastUsable.toNat = 0 := by rw [hb.lastUsable]; rfl
  have hb64 := b.backupLba.toNat_lt
  have eF : ∀ x, (b.setPrimary x).outFirst lb = max b.firstUsable.toNat (2 + b.lbs lb) := fun _ => rfl
  have eL : ∀ x, (b.setPrimary x).outLast lb = b.backupLba.toNat - (b.lbs lb + 1) := fun x => by
    show max b.lastUsable.toNat _ = _
    rw [hlu, Nat.zero_max]; rfl
  have eS1 : (b.setPrimary true).outStart lb = 2 := by
    show b.primaryLba.toNat + 1 = 2; omega
  have eS2 : (b.setPrimary false).outStart lb = b.backupLba.toNat - (b.lbs lb + 1) + 1 := by
    show (b.setPrimary false).outLast lb + 1 = _; rw [eL]
  have hbk : (b.setPrimary true).lbs lb = b.lbs lb := rfl
  have hbk' : (b.setPrimary true).backupLba = b.backupLba := rfl
  rw [hbk, hbk'] at p2
  rw [eF, eL] at p3
  have f1 := out_first (b := b.setPrimary true) (lb := lb) hns
  have f2 := out_last (b.setPrimary true) lb
  have f3 := out_start (b := b.setPrimary true) (lb := lb) (by rw [eS1]; decide)
  have f4 := out_start (b := b.setPrimary false) (lb := lb) (by rw [eS2]; omega)
  rw [eF] at f1
  rw [eL] at f2
  rw [eS1] at f3
  rw [eS2] at f4
  subst ep eq
  refine ⟨b.lbs lb, ⟨justEnough_blocksFor _ _, rfl, rfl, hpl, f3, ?_, ?_, ?_, ?_, rfl⟩, rfl, rfl, rfl, ?_, ?_⟩
  · rw [f3, f1]; omega
  · rw [f1, f2]; exact p3
  · rw [f2, f4]; omega
  · rw [f4]; show _ ≤ b.backupLba.toNat; omega
  · rw [f4]; omega
  · rw [f2, f4]

/-- The builder `create_from_device` uses, for a disk of 1000 blocks. -/
example : ∃ p q, build .debug (((HeaderBuilder.new ⟨1, 2, 3, 4⟩).setBackupLba 999).setPrimary true) .lb512 = .ok p ∧
    build .debug (((HeaderBuilder.new ⟨1, 2, 3, 4⟩).setBackupLba 999).setPrimary false) .lb512 = .ok q ∧
    p.firstUsable = 34 ∧ q.partStart = 967 := ⟨_, _, rfl, rfl, rfl, rfl⟩

/-! ## C12 -/

/-- An LBA is left for partitions: at or after `first_usable` and the primary array, before the backup array of `k`
blocks that ends at the backup header. -/
def Spec.Room (first k backup : Nat) : Prop := ∃ u, first ≤ u ∧ 2 + k ≤ u ∧ u + k + 1 ≤ backup

/-- **C12**, the claim for builders with a backup LBA: `build` fails with `BackupLbaToEarly` when no usable block would be left,
and otherwise succeeds, or panics. -/
def C12 : Prop := ∀ (m : Mode) (lb : LbSize) (b : HeaderBuilder) (k : Nat), b.Fresh → b.backupLba ≠ 0 →
    Spec.JustEnough lb (b.numParts.toNat * b.partSize.toNat) k →
    (build m b lb = .err .backupLbaToEarly ↔ ¬ Spec.Room b.firstUsable.toNat k b.backupLba.toNat ∧ build m b lb ≠ .panic)

/-- The claim is false in release builds, for the reason of `c11_fails`. -/
theorem c12_fails : ¬ C12 := by
  intro hC
  have h := hC .release .lb512 (((HeaderBuilder.new ⟨1, 2, 3, 4⟩).setBackupLba 999).setNumParts 0x2000000) _ ⟨rfl, rfl⟩ (by decide)
    (justEnough_blocksFor _ _)
  have hr : ¬ Spec.Room 0 (blocksFor ((0x2000000 : UInt32).toNat * (128 : UInt32).toNat) .lb512) 999 := by
    rintro ⟨u, -, h2, h3⟩
    have : blocksFor ((0x2000000 : UInt32).toNat * (128 : UInt32).toNat) .lb512 = 8388608 := by decide
    omega
  have h2 := h.mpr ⟨hr, by simp [show build .release (((HeaderBuilder.new ⟨1, 2, 3, 4⟩).setBackupLba 999).setNumParts 0x2000000) .lb512 = .ok _ from rfl]⟩
  cases h2

/-- **C12**, what holds. On a fresh builder whose array size fits 32 bits: `MissingBackupLba` exactly when the backup LBA is below
the primary LBA 1; `BackupLbaToEarly` exactly when no usable block would be left; success otherwise. In particular no
panic, in debug or release builds. -/
theorem c12_partial (m : Mode) (lb : LbSize) (b : HeaderBuilder) (k : Nat) (hb : b.Fresh)
    (hns : b.numParts.toNat * b.partSize.toNat < 2 ^ 32)
    (hk : Spec.JustEnough lb (b.numParts.toNat * b.partSize.toNat) k) :
    (build m b lb = .err .missingBackupLba ↔ b.backupLba = 0) ∧
    (build m b lb = .err .backupLbaToEarly ↔ b.backupLba ≠ 0 ∧ ¬ Spec.Room b.firstUsable.toNat k b.backupLba.toNat) ∧
    ((∃ h, build m b lb = .ok h) ↔ Spec.Room b.firstUsable.toNat k b.backupLba.toNat) := by
  have hpl : b.primaryLba.toNat = 1 := by rw [hb.primaryLba]; rfl
  have hlu : b.lastUsable.toNat = 0 := by rw [hb.lastUsable]; rfl
  have hkk : k = b.lbs lb := justEnough_unique hk (justEnough_blocksFor _ _)
  have hk32 : b.lbs lb < 2 ^ 32 := lbs_lt hns
  have hb64 := b.backupLba.toNat_lt
  subst hkk
  have eF : b.outFirst lb = max b.firstUsable.toNat (2 + b.lbs lb) := rfl
  have eL : b.outLast lb = b.backupLba.toNat - (b.lbs lb + 1) := by
    show max b.lastUsable.toNat _ = _
    rw [hlu, Nat.zero_max]
  have eS : b.outStart lb < 2 ^ 64 := by
    unfold outStart
    rw [eL, hpl]
    split <;> omega
  have h0 : b.backupLba = 0 ↔ b.backupLba.toNat = 0 := by
    rw [← UInt64.toNat_inj]; rfl
  have hroom : Spec.Room b.firstUsable.toNat (b.lbs lb) b.backupLba.toNat ↔
      b.lbs lb + 1 ≤ b.backupLba.toNat ∧ b.outFirst lb ≤ b.outLast lb := by
    rw [eF, eL]
    constructor
    · rintro ⟨u, h1, h2, h3⟩; omega
    · rintro ⟨h1, h2⟩
      exact ⟨max b.firstUsable.toNat (2 + b.lbs lb), by omega, by omega, by omega⟩
  rw [build_eq m b lb hns, hpl, hroom, Ne, h0]
  by_cases c1 : b.backupLba.toNat < 1
  · simp only [if_pos c1]
    simp; omega
  · simp only [if_neg c1]
    by_cases c2 : b.backupLba.toNat < b.lbs lb + 1
    · simp only [if_pos c2]
      simp; omega
    · simp only [if_neg c2]
      by_cases c3 : b.outLast lb < b.outFirst lb
      · simp only [if_pos c3]
        simp; omega
      · simp only [if_neg c3, if_pos (Or.inl eS)]
        simp; omega

/-- **C12** (overflow). With overflow checks `build` panics exactly when the array size does not fit 32 bits (and the
backup LBA is set); without them it never panics. -/
theorem c12_panic (lb : LbSize) (b : HeaderBuilder) (hb : b.Fresh) :
    (build .debug b lb = .panic ↔ b.backupLba ≠ 0 ∧ 2 ^ 32 ≤ b.numParts.toNat * b.partSize.toNat) ∧
    build .release b lb ≠ .panic := by
  have hpl : b.primaryLba.toNat = 1 := by rw [hb.primaryLba]; rfl
  have h0 : b.backupLba = 0 ↔ b.backupLba.toNat = 0 := by
    rw [← UInt64.toNat_inj]; rfl
  constructor
  · by_cases hns : b.numParts.toNat * b.partSize.toNat < 2 ^ 32
    · have hk := justEnough_blocksFor (b.numParts.toNat * b.partSize.toNat) lb
      obtain ⟨h1, h2, h3⟩ := c12_partial .debug lb b _ hb hns hk
      constructor
      · intro e
        exfalso
        rw [e] at h1 h2 h3
        simp only [reduceCtorEq, false_iff, exists_false] at h1 h2 h3
        exact h2 ⟨h1, h3⟩
      · rintro ⟨_, h⟩; omega
    · have hmul : (mul32 .debug b.numParts b.partSize : Res HeaderError UInt32) = .panic := by
        unfold mul32; rw [decide_eq_false hns]; rfl
      unfold build
      rw [hmul]
      have hlt : (b.backupLba < b.primaryLba) ↔ b.backupLba = 0 := by
        rw [UInt64.lt_iff_toNat_lt, hpl, h0]; omega
      by_cases hz : b.backupLba = 0
      · rw [if_pos (hlt.mpr hz)]; simp [hz]
      · rw [if_neg (fun e => hz (hlt.mp e))]
        simp only [Res.panic_bind, true_iff]
        exact ⟨hz, by omega⟩
  · unfold build
    have hd : ∀ x : UInt64, ∃ y, (divCeil .release x lb.u64 : Res HeaderError UInt64) = .ok y := fun x => by
      unfold divCeil
      rw [sub64_release]
      simp only [Res.ok_bind]
      rw [add64_release]
      exact ⟨_, rfl⟩
    split
    · simp
    · simp only
      rw [mul32_release]
      simp only [Res.ok_bind]
      obtain ⟨y, hy⟩ := hd (b.numParts * b.partSize).toUInt64
      rw [hy]
      simp only [Res.ok_bind, add64_release]
      cases checkedSub64 b.backupLba (y + 1) with
      | none => simp
      | some z =>
        simp only [Res.ofOption_some, Res.ok_bind]
        split
        · simp
        · split <;> simp

/-- Both sides of C12 occur: 68 blocks are the smallest disk for 512-byte blocks and 128 entries of 128 bytes. -/
example : (∃ h, build .debug ((HeaderBuilder.new ⟨1, 2, 3, 4⟩).setBackupLba 67) .lb512 = .ok h) ∧
    build .debug ((HeaderBuilder.new ⟨1, 2, 3, 4⟩).setBackupLba 66) .lb512 = .err .backupLbaToEarly ∧
    build .debug (HeaderBuilder.new ⟨1, 2, 3, 4⟩) .lb512 = .err .missingBackupLba ∧
    build .debug ((((HeaderBuilder.new ⟨1, 2, 3, 4⟩).setBackupLba 67).setNumParts 0x2000000)) .lb512 = .panic :=
  ⟨⟨_, rfl⟩, rfl, rfl, rfl⟩

/-! ## C13, C14 -/

theorem fromHeader_out {b : HeaderBuilder} {lb : LbSize} (hle : b.primaryLba.toNat ≤ b.backupLba.toNat) :
    fromHeader (b.out lb) =
      { b with
        primary := b.primary && decide (b.primaryLba < b.backupLba)
        firstUsable := UInt64.ofNat (b.outFirst lb), lastUsable := UInt64.ofNat (b.outLast lb) } := by
  have hlt : ∀ x y : UInt64, x.toNat ≤ y.toNat → ¬ (y < x) := fun x y h e => by
    rw [UInt64.lt_iff_toNat_lt] at e; omega
  have heq : ¬ b.primaryLba < b.backupLba → b.primaryLba = b.backupLba := fun e => by
    rw [UInt64.lt_iff_toNat_lt] at e
    exact UInt64.toNat_inj.mp (by omega)
  unfold fromHeader out
  cases hp : b.primary
  · simp only [Bool.false_eq_true, if_false, if_neg (hlt _ _ hle), Bool.false_and]
    rw [decide_eq_false (hlt _ _ hle)]
  · simp only [if_true, Bool.true_and]
    by_cases h : b.primaryLba < b.backupLba
    · simp only [if_pos h]
    · simp only [if_neg h]
      rw [heq h]

/-- Building again from a builder whose usable range was already computed changes nothing. -/
theorem out_out {b : HeaderBuilder} {lb : LbSize} (x : Bool) (hns : b.numParts.toNat * b.partSize.toNat < 2 ^ 32) :
    let c : HeaderBuilder := { b with primary := x, firstUsable := UInt64.ofNat (b.outFirst lb), lastUsable := UInt64.ofNat (b.outLast lb) }
    c.outFirst lb = b.outFirst lb ∧ c.outLast lb = b.outLast lb := by
  intro c
  have h1 : c.firstUsable.toNat = b.outFirst lb := by
    show (UInt64.ofNat _).toNat = _; exact u64_ofNat_toNat (outFirst_lt hns)
  have h2 : c.lastUsable.toNat = b.outLast lb := by
    show (UInt64.ofNat _).toNat = _; exact u64_ofNat_toNat (outLast_lt b lb)
  constructor
  · show max c.firstUsable.toNat (2 + b.lbs lb) = _
    rw [h1]; unfold outFirst; omega
  · show max c.lastUsable.toNat (b.backupLba.toNat - (b.lbs lb + 1)) = _
    rw [h2]; unfold outLast; omega

/-- C13 when the array size fits 32 bits. -/
theorem mirror_fits (m : Mode) (lb : LbSize) (b : HeaderBuilder) (h k : Header) (x : Bool)
    (hm : m = .debug ∨ b.numParts.toNat * b.partSize.toNat < 2 ^ 32)
    (hb : build m b lb = .ok h) (hk : build m ((fromHeader h).setPrimary x) lb = .ok k) :
    (x = !b.primary → k.currentLba = h.backupLba ∧ k.backupLba = h.currentLba) ∧
    (x = b.primary → k.currentLba = h.currentLba ∧ k.backupLba = h.backupLba) ∧
    k.diskGuid = h.diskGuid ∧ k.firstUsable = h.firstUsable ∧ k.lastUsable = h.lastUsable ∧ k.numParts = h.numParts ∧
    k.partSize = h.partSize ∧ h.diskGuid = b.diskGuid ∧ h.numParts = b.numParts ∧ h.partSize = b.partSize := by
  have hns := fits_of_ok hm hb
  obtain ⟨eh, h1, h2, h3, _⟩ := build_ok hns hb
  subst eh
  rw [fromHeader_out h1] at hk
  obtain ⟨ek, _, _, _, _⟩ := build_ok (by exact hns) hk
  subst ek
  obtain ⟨o1, o2⟩ := out_out (lb := lb) (b := b) x hns
  refine ⟨?_, ?_, rfl, ?_, ?_, rfl, rfl, rfl, rfl, rfl⟩
  · rintro rfl
    unfold out setPrimary
    cases b.primary <;> exact ⟨rfl, rfl⟩
  · rintro rfl
    unfold out setPrimary
    cases b.primary <;> exact ⟨rfl, rfl⟩
  · show UInt64.ofNat _ = UInt64.ofNat _
    exact congrArg UInt64.ofNat o1
  · show UInt64.ofNat _ = UInt64.ofNat _
    exact congrArg UInt64.ofNat o2

/-- C14 when the array size fits 32 bits. -/
theorem stable_fits (m : Mode) (lb : LbSize) (b : HeaderBuilder) (h : Header)
    (hm : m = .debug ∨ b.numParts.toNat * b.partSize.toNat < 2 ^ 32)
    (hb : build m b lb = .ok h) (hne : h.currentLba ≠ h.backupLba) :
    build m (fromHeader h) lb = .ok h ∧
    (∀ k, build m ((fromHeader h).setPrimary (!b.primary)) lb = .ok k → build m ((fromHeader k).setPrimary b.primary) lb = .ok h) := by
  have hns := fits_of_ok hm hb
  obtain ⟨eh, h1, h2, h3, h4⟩ := build_ok hns hb
  subst eh
  have hlt : b.primaryLba < b.backupLba := by
    rw [UInt64.lt_iff_toNat_lt]
    rcases Nat.lt_or_ge b.primaryLba.toNat b.backupLba.toNat with h | h
    · exact h
    · exfalso
      have := UInt64.toNat_inj.mp (Nat.le_antisymm h1 h)
      apply hne
      unfold out
      cases b.primary <;> simp [this]
  have key : ∀ c : HeaderBuilder, c = { b with firstUsable := UInt64.ofNat (b.outFirst lb), lastUsable := UInt64.ofNat (b.outLast lb) } →
      build m c lb = .ok (b.out lb) := by
    rintro c rfl
    obtain ⟨o1, o2⟩ := out_out (lb := lb) (b := b) b.primary hns
    have ol : ∀ c : HeaderBuilder, c.numParts = b.numParts → c.partSize = b.partSize → c.lbs lb = b.lbs lb := by
      intro c e1 e2; unfold lbs; rw [e1, e2]
    have oS : (outStart { b with firstUsable := UInt64.ofNat (b.outFirst lb), lastUsable := UInt64.ofNat (b.outLast lb) } lb) =
        b.outStart lb := by
      unfold outStart
      have : ∀ a c : Nat, a = c → (if b.primary = true then b.primaryLba.toNat else a) + 1 = (if b.primary = true then b.primaryLba.toNat else c) + 1 := by
        rintro a _ rfl; rfl
      exact this _ _ o2
    rw [build_eq m _ lb (by exact hns)]
    rw [if_neg (by simp only; omega), if_neg (by rw [ol { b with firstUsable := UInt64.ofNat (b.outFirst lb), lastUsable := UInt64.ofNat (b.outLast lb) } rfl rfl]; simp only; omega)]
    have o1' : (outFirst { b with firstUsable := UInt64.ofNat (b.outFirst lb), lastUsable := UInt64.ofNat (b.outLast lb) } lb) = b.outFirst lb := o1
    have o2' : (outLast { b with firstUsable := UInt64.ofNat (b.outFirst lb), lastUsable := UInt64.ofNat (b.outLast lb) } lb) = b.outLast lb := o2
    rw [o1', o2', oS, if_neg (by omega), if_pos (by
      cases m
      · exact .inl (h4 rfl)
      · exact .inr rfl)]
    unfold out
    rw [o1', o2', oS]
  constructor
  · apply key
    rw [fromHeader_out h1]
    simp [hlt]
  · intro k hk
    rw [fromHeader_out h1] at hk
    obtain ⟨ek, g1, _⟩ := build_ok (by exact hns) hk
    subst ek
    rw [fromHeader_out g1]
    apply key
    obtain ⟨o1, o2⟩ := out_out (lb := lb) (b := b) (!b.primary) hns
    unfold setPrimary
    simp only
    rw [o1, o2]

/-- The same array size with entries of one byte. -/
def HeaderBuilder.flat (b : HeaderBuilder) : HeaderBuilder := { b with numParts := b.numParts * b.partSize, partSize := 1 }

theorem flat_fits (b : HeaderBuilder) : b.flat.numParts.toNat * b.flat.partSize.toNat < 2 ^ 32 := by
  show (b.numParts * b.partSize).toNat * 1 < 2 ^ 32
  rw [Nat.mul_one]
  exact UInt32.toNat_lt _

def Res.map {ε α β : Type} (f : α → β) : Res ε α → Res ε β
  | .ok a => .ok (f a)
  | .err e => .err e
  | .panic => .panic

theorem Res.map_ok {ε α β : Type} {f : α → β} {r : Res ε α} {b : β} : r.map f = .ok b ↔ ∃ a, r = .ok a ∧ f a = b := by
  cases r <;> simp [Res.map]

/-- Without overflow checks, `build` looks at the two counts only through their product. -/
theorem build_flat (b : HeaderBuilder) (lb : LbSize) : build .release b lb =
    (build .release b.flat lb).map fun h => { h with numParts := b.numParts, partSize := b.partSize } := by
  have e : b.flat.numParts * b.flat.partSize = b.numParts * b.partSize := by
    show b.numParts * b.partSize * 1 = b.numParts * b.partSize
    rw [UInt32.mul_one]
  have hd : ∀ x : UInt64, ∃ y, (divCeil .release x lb.u64 : Res HeaderError UInt64) = .ok y := fun x => by
    unfold divCeil
    rw [sub64_release]
    simp only [Res.ok_bind]
    rw [add64_release]
    exact ⟨_, rfl⟩
  obtain ⟨y, hy⟩ := hd (b.numParts * b.partSize).toUInt64
  unfold build
  rw [mul32_release, mul32_release, e]
  simp only [Res.ok_bind, hy, add64_release]
  show _ = Res.map _ (if b.backupLba < b.primaryLba then _ else _)
  split
  · rfl
  · show _ = Res.map _ ((Res.ofOption HeaderError.backupLbaToEarly (checkedSub64 b.backupLba (y + 1))).bind _)
    cases checkedSub64 b.backupLba (y + 1) with
    | none => rfl
    | some z =>
      show (if max64 b.firstUsable (2 + y) > max64 b.lastUsable z then _ else _) =
        Res.map _ (if max64 b.firstUsable (2 + y) > max64 b.lastUsable z then _ else _)
      split
      · rfl
      · have ep : b.flat.primary = b.primary := rfl
        rw [ep]
        cases b.primary <;> rfl

theorem setPrimary_flat (b : HeaderBuilder) (x : Bool) : (b.setPrimary x).flat = b.flat.setPrimary x := rfl

theorem flat_eq {b : HeaderBuilder} {h : Header} (e1 : h.numParts = b.flat.numParts) (e2 : h.partSize = b.flat.partSize) :
    (fromHeader { h with numParts := b.numParts, partSize := b.partSize }).flat = fromHeader h := by
  unfold HeaderBuilder.flat fromHeader
  rw [e1, e2]
  rfl

theorem fromHeader_flat {b : HeaderBuilder} {lb : LbSize} {h : Header} (hb : build .release b.flat lb = .ok h) :
    (fromHeader { h with numParts := b.numParts, partSize := b.partSize }).flat = fromHeader h := by
  obtain ⟨e, _⟩ := build_ok (flat_fits b) hb
  exact flat_eq (e ▸ rfl) (e ▸ rfl)

/-- **C13**. Whatever header the library built (primary or backup), the header of the other kind built from it has the
two LBAs exchanged and agrees in GUID, usable range, partition count and entry size. -/
theorem c13_mirror (m : Mode) (lb : LbSize) (b : HeaderBuilder) (h k : Header) (x : Bool)
    (hb : build m b lb = .ok h) (hk : build m ((fromHeader h).setPrimary x) lb = .ok k) :
    (x = !b.primary → k.currentLba = h.backupLba ∧ k.backupLba = h.currentLba) ∧
    (x = b.primary → k.currentLba = h.currentLba ∧ k.backupLba = h.backupLba) ∧
    k.diskGuid = h.diskGuid ∧ k.firstUsable = h.firstUsable ∧ k.lastUsable = h.lastUsable ∧ k.numParts = h.numParts ∧
    k.partSize = h.partSize ∧ h.diskGuid = b.diskGuid ∧ h.numParts = b.numParts ∧ h.partSize = b.partSize := by
  cases m with
  | debug => exact mirror_fits .debug lb b h k x (.inl rfl) hb hk
  | release =>
    rw [build_flat, Res.map_ok] at hb hk
    obtain ⟨h', hb, rfl⟩ := hb
    obtain ⟨k', hk, rfl⟩ := hk
    rw [setPrimary_flat, fromHeader_flat hb] at hk
    obtain ⟨c1, c2, c3, c4, c5, c6, c7, c8, _, _⟩ := mirror_fits .release lb b.flat h' k' x (.inr (flat_fits b)) hb hk
    exact ⟨c1, c2, c3, c4, c5, rfl, rfl, c8, rfl, rfl⟩

/-- **C14**. Feeding a built header back through `from_header` and `build` gives the same header, and a second round
trip through the other header does too. The primary and backup LBA must differ (they do for every header made by a
fresh builder): with equal LBAs `from_header` cannot tell a primary header from a backup header. -/
theorem c14_stable (m : Mode) (lb : LbSize) (b : HeaderBuilder) (h : Header)
    (hb : build m b lb = .ok h) (hne : h.currentLba ≠ h.backupLba) :
    build m (fromHeader h) lb = .ok h ∧
    (∀ k, build m ((fromHeader h).setPrimary (!b.primary)) lb = .ok k → build m ((fromHeader k).setPrimary b.primary) lb = .ok h) := by
  cases m with
  | debug => exact stable_fits .debug lb b h (.inl rfl) hb hne
  | release =>
    rw [build_flat, Res.map_ok] at hb
    obtain ⟨h', hb, rfl⟩ := hb
    obtain ⟨s1, s2⟩ := stable_fits .release lb b.flat h' (.inr (flat_fits b)) hb hne
    refine ⟨?_, fun k hk => ?_⟩
    · rw [build_flat, Res.map_ok]
      refine ⟨h', ?_, rfl⟩
      rw [fromHeader_flat hb]
      exact s1
    · rw [build_flat, Res.map_ok, setPrimary_flat, fromHeader_flat hb] at hk
      obtain ⟨k', hk, rfl⟩ := hk
      rw [build_flat, Res.map_ok, setPrimary_flat]
      refine ⟨h', ?_, rfl⟩
      have hn := mirror_fits .release lb b.flat h' k' _ (.inr (flat_fits b)) hb hk
      have e : (fromHeader { k' with numParts := b.numParts, partSize := b.partSize }).flat = fromHeader k' := by
        obtain ⟨_, _, _, _, _, e1, e2, _, e3, e4⟩ := hn
        exact flat_eq (e1.trans e3) (e2.trans e4)
      exact (congrArg (fun z => build .release (setPrimary z b.primary) lb) e).trans (s2 k' hk)

/-- The hypotheses of C13 and C14 are met. -/
example : ∃ h k, build .debug ((HeaderBuilder.new ⟨1, 2, 3, 4⟩).setBackupLba 999) .lb512 = .ok h ∧
    h.currentLba ≠ h.backupLba ∧ build .debug ((fromHeader h).setPrimary false) .lb512 = .ok k ∧ k.partStart = 967 :=
  ⟨_, _, rfl, by decide, rfl, rfl⟩

/-! ## C16 -/

/-- The full claim of C16: the array that starts right after `last_usable` ends at or before the backup header. -/
def C16 : Prop := ∀ (m : Mode) (lb : LbSize) (b : HeaderBuilder) (h : Header) (k : Nat),
  b.numParts.toNat * b.partSize.toNat < 2 ^ 32 → build m b lb = .ok h →
  Spec.JustEnough lb (h.numParts.toNat * h.partSize.toNat) k →
  h.lastUsable.toNat + 1 + k ≤ max h.currentLba.toNat h.backupLba.toNat

/-- **C16 is false**: `last_usable` is the maximum of the previous and the computed value. Asking for more entries on a
header that was built before leaves `last_usable` where it is, although the larger array no longer fits behind it. -/
theorem c16_fails : ¬ C16 := by
  intro hc
  have hk := justEnough_blocksFor (256 * 128) .lb512
  have := hc .debug .lb512
    (((fromHeader (HeaderBuilder.out ((HeaderBuilder.new ⟨1, 2, 3, 4⟩).setBackupLba 999) .lb512)).setNumParts 256)) _ _
    (by decide) rfl hk
  revert this
  decide

/-- The same for a disk that became smaller: the new backup LBA is ignored and the array starts beyond the end. -/
theorem c16_fails_shrunk : ∃ (h k : Header),
    build .debug ((HeaderBuilder.new ⟨1, 2, 3, 4⟩).setBackupLba 999) .lb512 = .ok h ∧
    build .debug (((fromHeader h).setBackupLba 500).setPrimary false) .lb512 = .ok k ∧
    k.currentLba = 500 ∧ k.partStart = 967 := ⟨_, _, rfl, rfl, rfl, rfl⟩

/-- **C16**, what holds: if the `last_usable` given to the builder leaves room for the array (0, as in a fresh builder,
always does), the array fits, and this is necessary too. -/
theorem c16_partial (m : Mode) (lb : LbSize) (b : HeaderBuilder) (h : Header) (k : Nat)
    (hm : m = .debug ∨ b.numParts.toNat * b.partSize.toNat < 2 ^ 32) (hb : build m b lb = .ok h)
    (hk : Spec.JustEnough lb (h.numParts.toNat * h.partSize.toNat) k) :
    h.lastUsable.toNat + 1 + k ≤ max h.currentLba.toNat h.backupLba.toNat ↔
      b.lastUsable.toNat + 1 + k ≤ b.backupLba.toNat ∨ b.lastUsable.toNat = 0 := by
  have hns := fits_of_ok hm hb
  obtain ⟨eh, h1, h2, h3, _⟩ := build_ok hns hb
  subst eh
  have hkk : k = b.lbs lb := justEnough_unique hk (justEnough_blocksFor _ _)
  have hmax : max (b.out lb).currentLba.toNat (b.out lb).backupLba.toNat = b.backupLba.toNat := by
    unfold out
    cases b.primary <;> simp <;> omega
  rw [hmax, out_last]
  unfold outLast
  omega

/-- A header built by a fresh builder and rebuilt with the same or a smaller count keeps the array below the backup
header (`Spec.Layout` again for the rebuilt pair). -/
theorem c16_rebuilt_partial (m : Mode) (lb : LbSize) (b : HeaderBuilder) (h h' : Header) (x : Bool) (n : UInt32) (k : Nat)
    (hb : b.Fresh) (hm : m = .debug ∨ b.numParts.toNat * b.partSize.toNat < 2 ^ 32) (h1 : build m b lb = .ok h)
    (hn : max n.toNat 128 ≤ b.numParts.toNat)
    (h2 : build m (((fromHeader h).setNumParts n).setPrimary x) lb = .ok h')
    (hk : Spec.JustEnough lb (h'.numParts.toNat * h'.partSize.toNat) k) :
    h'.lastUsable.toNat + 1 + k ≤ max h'.currentLba.toNat h'.backupLba.toNat := by
  have hns := fits_of_ok hm h1
  obtain ⟨eh, g1, g2, g3, _⟩ := build_ok hns h1
  subst eh
  rw [fromHeader_out g1] at h2
  have hle : (max32 n minNumParts).toNat ≤ b.numParts.toNat := by
    rw [max32_toNat]; exact hn
  have hns' : (max32 n minNumParts).toNat * b.partSize.toNat < 2 ^ 32 :=
    Nat.lt_of_le_of_lt (Nat.mul_le_mul_right _ hle) hns
  have hnum : h'.numParts.toNat * h'.partSize.toNat = (max32 n minNumParts).toNat * b.partSize.toNat := by
    obtain ⟨e, _⟩ := build_ok (by exact hns') h2
    subst e; rfl
  rw [c16_partial m lb _ h' k (.inr (by exact hns')) h2 hk]
  left
  rw [hnum] at hk
  have hkk : k ≤ b.lbs lb := hk.minimal _ (Nat.le_trans (Nat.mul_le_mul_right _ hle) (blocksFor_spec _ lb).1)
  have hlu : b.lastUsable.toNat = 0 := by rw [hb.lastUsable]; rfl
  show (UInt64.ofNat (b.outLast lb)).toNat + 1 + k ≤ b.backupLba.toNat
  rw [u64_ofNat_toNat (outLast_lt b lb)]
  unfold outLast
  rw [hlu]
  omega

example : ∃ h h', build .debug ((HeaderBuilder.new ⟨1, 2, 3, 4⟩).setBackupLba 999 |>.setNumParts 256) .lb512 = .ok h ∧
    build .debug (((fromHeader h).setNumParts 130).setPrimary false) .lb512 = .ok h' ∧ h'.partStart = 966 := ⟨_, _, rfl, rfl, rfl⟩

end Gpt
