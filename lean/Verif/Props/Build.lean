import Verif.Props.Builder
import Verif.Props.Table
import Verif.Props.Write
/-!
# C86, C87: every outcome of `HeaderBuilder::build` and of `update_partitions`
-/

namespace Gpt

open Spec

/-! ## C86 -/

/-- The header `build` makes: `k` blocks for an array, `last` the last usable block. -/
structure Spec.Makes (b : HeaderBuilder) (k : Nat) (h : Header) : Prop where
  signature : h.signature = "EFI PART".toUTF8.data.toList
  revision : h.revision = (1, 0)
  size : h.headerSizeLe = 92
  zeros : h.crc32 = 0 ∧ h.reserved = 0 ∧ h.crc32Parts = 0
  current : h.currentLba = if b.primary then b.primaryLba else b.backupLba
  backup : h.backupLba = if b.primary then b.backupLba else b.primaryLba
  first : h.firstUsable.toNat = max b.firstUsable.toNat (2 + k)
  last : h.lastUsable.toNat = max b.lastUsable.toNat (b.backupLba.toNat - (k + 1))
  guid : h.diskGuid = b.diskGuid
  start : h.partStart.toNat = ((if b.primary then b.primaryLba.toNat else h.lastUsable.toNat) + 1) % 2 ^ 64
  count : h.numParts = b.numParts
  entry : h.partSize = b.partSize

/-- There is a usable block, given `k` blocks for each array. -/
def Spec.HasRoom (b : HeaderBuilder) (k : Nat) : Prop :=
  k + 1 ≤ b.backupLba.toNat ∧ max b.firstUsable.toNat (2 + k) ≤ max b.lastUsable.toNat (b.backupLba.toNat - (k + 1))

/-- What `build` gives. The size of an array is computed in 32 bits. -/
inductive Spec.Built (m : Mode) (lb : LbSize) (b : HeaderBuilder) : Res HeaderError Header → Prop where
  /-- the backup header is before the primary one (or was not set) -/
  | noBackup : b.backupLba.toNat < b.primaryLba.toNat → Built m lb b (.err .missingBackupLba)
  /-- the size of the array does not fit 32 bits -/
  | tooLarge : b.primaryLba.toNat ≤ b.backupLba.toNat → m = .debug → 2 ^ 32 ≤ b.numParts.toNat * b.partSize.toNat → Built m lb b .panic
  /-- no usable block -/
  | noRoom (k : Nat) : b.primaryLba.toNat ≤ b.backupLba.toNat → (m = .debug → b.numParts.toNat * b.partSize.toNat < 2 ^ 32) →
      JustEnough lb (b.numParts.toNat * b.partSize.toNat % 2 ^ 32) k → ¬ HasRoom b k → Built m lb b (.err .backupLbaToEarly)
  /-- the block before the array is the last one a 64-bit number can name -/
  | noStart (k : Nat) : b.primaryLba.toNat ≤ b.backupLba.toNat → m = .debug → b.numParts.toNat * b.partSize.toNat < 2 ^ 32 →
      JustEnough lb (b.numParts.toNat * b.partSize.toNat % 2 ^ 32) k → HasRoom b k →
      (if b.primary then b.primaryLba.toNat else max b.lastUsable.toNat (b.backupLba.toNat - (k + 1))) = 2 ^ 64 - 1 → Built m lb b .panic
  | header (k : Nat) (h : Header) : b.primaryLba.toNat ≤ b.backupLba.toNat → (m = .debug → b.numParts.toNat * b.partSize.toNat < 2 ^ 32) →
      JustEnough lb (b.numParts.toNat * b.partSize.toNat % 2 ^ 32) k → HasRoom b k →
      (m = .debug → (if b.primary then b.primaryLba.toNat else max b.lastUsable.toNat (b.backupLba.toNat - (k + 1))) ≠ 2 ^ 64 - 1) →
      Makes b k h → Built m lb b (.ok h)

theorem makes_unique {b : HeaderBuilder} {k : Nat} {h h' : Header} (a : Makes b k h) (c : Makes b k h') : h = h' := by
  have e1 : h.firstUsable = h'.firstUsable := UInt64.toNat_inj.mp (a.first.trans c.first.symm)
  have e2 : h.lastUsable = h'.lastUsable := UInt64.toNat_inj.mp (a.last.trans c.last.symm)
  have e3 : h.partStart = h'.partStart := UInt64.toNat_inj.mp (by rw [a.start, c.start, e2])
  obtain ⟨a1, a2, a3, a4, a5, a6, -, -, a9, -, a11, a12⟩ := a
  obtain ⟨c1, c2, c3, c4, c5, c6, -, -, c9, -, c11, c12⟩ := c
  cases h
  cases h'
  simp only [Header.mk.injEq] at *
  exact ⟨a1.trans c1.symm, a2.trans c2.symm, a3.trans c3.symm, a4.1.trans c4.1.symm, a4.2.1.trans c4.2.1.symm, a5.trans c5.symm,
    a6.trans c6.symm, e1, e2, a9.trans c9.symm, e3, a11.trans c11.symm, a12.trans c12.symm, a4.2.2.trans c4.2.2.symm⟩

theorem built_unique {m : Mode} {lb : LbSize} {b : HeaderBuilder} {r r' : Res HeaderError Header} (h : Built m lb b r) (h' : Built m lb b r') :
    r = r' := by
  cases h with
  | noBackup a =>
    cases h' with
    | noBackup => rfl
    | tooLarge a' | noRoom _ a' | noStart _ a' | header _ _ a' => omega
  | tooLarge a e c =>
    cases h' with
    | noBackup => omega
    | tooLarge => rfl
    | noRoom _ _ a' => exact absurd (a' e) (by omega)
    | noStart => rfl
    | header _ _ _ a' => exact absurd (a' e) (by omega)
  | noRoom k a c e f =>
    cases h' with
    | noBackup => omega
    | tooLarge _ e' c' => exact absurd (c e') (by omega)
    | noRoom => rfl
    | noStart k' _ _ _ e' f' => exact absurd (justEnough_unique e e' ▸ f') f
    | header k' _ _ _ e' f' => exact absurd (justEnough_unique e e' ▸ f') f
  | noStart k a e c f g i =>
    cases h' with
    | noBackup => omega
    | tooLarge => rfl
    | noRoom k' _ _ e' f' => exact absurd g (justEnough_unique f e' ▸ f')
    | noStart => rfl
    | header k' _ _ _ e' f' g' =>
      obtain rfl := justEnough_unique f e'
      exact absurd i (g' e)
  | header k x a c e f g i =>
    cases h' with
    | noBackup => omega
    | tooLarge _ e' c' => exact absurd (c e') (by omega)
    | noRoom k' _ _ e' f' => exact absurd f (justEnough_unique e e' ▸ f')
    | noStart k' _ e' _ f' _ i' =>
      obtain rfl := justEnough_unique e f'
      exact absurd i' (g e')
    | header k' y _ _ e' _ _ i' =>
      obtain rfl := justEnough_unique e e'
      rw [makes_unique i i']

theorem makes_out {b : HeaderBuilder} {lb : LbSize} (hn : b.numParts.toNat * b.partSize.toNat < 2 ^ 32) : Makes b (b.lbs lb) (b.out lb) where
  signature := (by decide +kernel : efiPart = _)
  revision := rfl
  size := rfl
  zeros := ⟨rfl, rfl, rfl⟩
  current := rfl
  backup := rfl
  first := HeaderBuilder.out_first hn
  last := HeaderBuilder.out_last b lb
  guid := rfl
  start := by
    rw [HeaderBuilder.out_last]
    show (UInt64.ofNat _).toNat = _
    rw [UInt64.toNat_ofNat']
    rfl
  count := rfl
  entry := rfl

theorem built_fits {m : Mode} {lb : LbSize} {b : HeaderBuilder} (hn : b.numParts.toNat * b.partSize.toNat < 2 ^ 32) :
    Built m lb b (b.build m lb) := by
  have hj := justEnough_blocksFor (b.numParts.toNat * b.partSize.toNat % 2 ^ 32) lb
  rw [Nat.mod_eq_of_lt hn] at hj
  have hj : JustEnough lb (b.numParts.toNat * b.partSize.toNat % 2 ^ 32) (b.lbs lb) := by rw [Nat.mod_eq_of_lt hn]; exact hj
  have hL : b.outLast lb < 2 ^ 64 := HeaderBuilder.outLast_lt b lb
  have hP := b.primaryLba.toNat_lt
  rw [HeaderBuilder.build_eq m b lb hn]
  split
  · exact .noBackup ‹_›
  · rename_i h1
    split
    · rename_i h2
      exact .noRoom _ (by omega) (fun _ => hn) hj (fun h => by unfold HasRoom at h; omega)
    · rename_i h2
      split
      · rename_i h3
        exact .noRoom _ (by omega) (fun _ => hn) hj (fun h => by
          have := h.2
          unfold HeaderBuilder.outLast HeaderBuilder.outFirst at h3
          omega)
      · rename_i h3
        have hr : HasRoom b (b.lbs lb) := ⟨by omega, by unfold HeaderBuilder.outLast HeaderBuilder.outFirst at h3; omega⟩
        have hs : (if b.primary then b.primaryLba.toNat else max b.lastUsable.toNat (b.backupLba.toNat - (b.lbs lb + 1))) + 1 = b.outStart lb := rfl
        split
        · rename_i h4
          refine .header _ _ (by omega) (fun _ => hn) hj hr (fun hm => ?_) (makes_out hn)
          subst hm
          rcases h4 with h4 | h4
          · omega
          · cases h4
        · rename_i h4
          rw [not_or] at h4
          refine .noStart (b.lbs lb) (by omega) (by cases m <;> simp_all) hn hj hr ?_
          have : b.outStart lb ≤ 2 ^ 64 := by
            rw [← hs]
            split
            · omega
            · unfold HeaderBuilder.outLast at hL
              omega
          omega

/-- **C86**: what `build` gives, for every builder and both builds. -/
theorem c86_build (m : Mode) (lb : LbSize) (b : HeaderBuilder) (r : Res HeaderError Header) : b.build m lb = r ↔ Built m lb b r := by
  have key : Built m lb b (b.build m lb) := by
    by_cases hn : b.numParts.toNat * b.partSize.toNat < 2 ^ 32
    · exact built_fits hn
    · cases m with
      | debug =>
        by_cases h1 : b.backupLba.toNat < b.primaryLba.toNat
        · have : b.build .debug lb = .err .missingBackupLba := by
            unfold HeaderBuilder.build
            rw [if_pos (UInt64.lt_iff_toNat_lt.mpr h1)]
          rw [this]
          exact .noBackup h1
        · have : b.build .debug lb = .panic := by
            unfold HeaderBuilder.build
            rw [if_neg (fun e => h1 (UInt64.lt_iff_toNat_lt.mp e))]
            simp only
            unfold mul32 arith
            rw [decide_eq_false (by simpa using hn)]
            rfl
          rw [this]
          exact .tooLarge (by omega) rfl (by omega)
      | release =>
        have hflat := built_fits (m := .release) (lb := lb) (flat_fits b)
        have e1 : b.flat.numParts.toNat * b.flat.partSize.toNat = b.numParts.toNat * b.partSize.toNat % 2 ^ 32 := by
          show (b.numParts * b.partSize).toNat * 1 = _
          rw [Nat.mul_one, UInt32.toNat_mul]
        have e2 : b.flat.numParts.toNat * b.flat.partSize.toNat % 2 ^ 32 = b.numParts.toNat * b.partSize.toNat % 2 ^ 32 := by
          rw [e1, Nat.mod_mod]
        rw [build_flat]
        generalize b.flat.build .release lb = r at hflat
        cases hflat with
        | noBackup h => exact .noBackup h
        | tooLarge _ h => cases h
        | noRoom k a c e f => exact .noRoom k a (fun h => by cases h) (e2 ▸ e) f
        | noStart _ _ h => cases h
        | header k h a c e f g i =>
          refine .header k _ a (fun h => by cases h) (e2 ▸ e) f (fun h => by cases h) ?_
          exact ⟨i.signature, i.revision, i.size, i.zeros, i.current, i.backup, i.first, i.last, i.guid, i.start, rfl, rfl⟩
  exact ⟨fun h => h ▸ key, fun h => built_unique key h⟩

/-- A primary header for a device of 100 blocks. -/
def someBuilder : HeaderBuilder := ⟨true, ⟨1, 2, 3, 4⟩, 1, 99, 0, 0, 128, 128⟩

theorem just32 : JustEnough .lb512 (128 * 128 % 2 ^ 32) 32 :=
  ⟨by decide, fun j hj => by
    have e : LbSize.lb512.usize = 512 := rfl
    rw [e] at hj; omega⟩

example (m : Mode) : ∃ h, someBuilder.build m .lb512 = .ok h ∧ h.firstUsable = 34 ∧ h.lastUsable = 66 := by
  cases m <;> exact ⟨_, rfl, rfl, rfl⟩
-- one block short of what the two arrays and one usable block need
example (m : Mode) : { someBuilder with backupLba := 66 }.build m .lb512 = .err .backupLbaToEarly :=
  (c86_build _ _ _ _).mpr (.noRoom 32 (by decide) (fun _ => by decide) just32 (by unfold HasRoom; decide))
example (m : Mode) : { someBuilder with backupLba := 0 }.build m .lb512 = .err .missingBackupLba := (c86_build _ _ _ _).mpr (.noBackup (by decide))
example : { someBuilder with numParts := 2 ^ 25 }.build .debug .lb512 = .panic :=
  (c86_build _ _ _ _).mpr (.tooLarge (by decide) rfl (by decide))
-- a last usable block beyond the backup header is kept
example : { someBuilder with lastUsable := 2 ^ 64 - 1 }.build .release .lb512 =
    .ok { smallHeader with backupLba := 99, firstUsable := 34, lastUsable := 2 ^ 64 - 1, numParts := 128 } := by decide +kernel
example : { someBuilder with lastUsable := 2 ^ 64 - 1, primary := false }.build .debug .lb512 = .panic :=
  (c86_build _ _ _ _).mpr (.noStart 32 (by decide) rfl (by decide) just32 (by unfold HasRoom; decide +kernel) (by decide +kernel))

/-! ## C87 -/

/-- The primary header is rebuilt from the header in use: new count, the last block of the device, the GUID of the disk. -/
def Spec.primaryFrom (s : GptDisk) (h : Header) (count : UInt32) (last : UInt64) : HeaderBuilder where
  primary := true
  diskGuid := s.guid
  primaryLba := if h.currentLba < h.backupLba then h.currentLba else h.backupLba
  backupLba := last
  firstUsable := h.firstUsable
  lastUsable := h.lastUsable
  numParts := count
  partSize := h.partSize

/-- The backup header is built from the new primary one. -/
def Spec.backupFrom (h : Header) : HeaderBuilder where
  primary := false
  diskGuid := h.diskGuid
  primaryLba := h.currentLba
  backupLba := h.backupLba
  firstUsable := h.firstUsable
  lastUsable := h.lastUsable
  numParts := h.numParts
  partSize := h.partSize

/-- Rebuilding the headers of `s` (which has the new table already), `h` the header in use. -/
inductive Spec.Rebuilt (m : Mode) (s : GptDisk) (h : Header) : Res GptError Unit → GptDisk → Prop where
  /-- fewer than three blocks -/
  | small : s.device.data.length < 3 * s.config.lbSize.usize → Rebuilt m s h (.err (.header .toSmallForBackup)) s
  /-- the primary header cannot be built -/
  | failed (count : UInt32) (last : UInt64) (e : HeaderError) : 3 * s.config.lbSize.usize ≤ s.device.data.length →
      count.toNat = max 128 (s.partitions.length % 2 ^ 32) → last.toNat = s.device.data.length / s.config.lbSize.usize - 1 →
      Built m s.config.lbSize (primaryFrom s h count last) (.err e) → Rebuilt m s h (.err (.header e)) s
  | crashed (count : UInt32) (last : UInt64) : 3 * s.config.lbSize.usize ≤ s.device.data.length →
      count.toNat = max 128 (s.partitions.length % 2 ^ 32) → last.toNat = s.device.data.length / s.config.lbSize.usize - 1 →
      Built m s.config.lbSize (primaryFrom s h count last) .panic → Rebuilt m s h .panic s
  /-- with `readonly_backup` the backup header stays -/
  | primary (count : UInt32) (last : UInt64) (h1 : Header) : 3 * s.config.lbSize.usize ≤ s.device.data.length →
      count.toNat = max 128 (s.partitions.length % 2 ^ 32) → last.toNat = s.device.data.length / s.config.lbSize.usize - 1 →
      Built m s.config.lbSize (primaryFrom s h count last) (.ok h1) → s.config.readonlyBackup = true →
      Rebuilt m s h (.ok ()) { s with primaryHeader := .ok h1 }
  | both (count : UInt32) (last : UInt64) (h1 h2 : Header) : 3 * s.config.lbSize.usize ≤ s.device.data.length →
      count.toNat = max 128 (s.partitions.length % 2 ^ 32) → last.toNat = s.device.data.length / s.config.lbSize.usize - 1 →
      Built m s.config.lbSize (primaryFrom s h count last) (.ok h1) → s.config.readonlyBackup = false →
      Built m s.config.lbSize (backupFrom h1) (.ok h2) →
      Rebuilt m s h (.ok ()) { s with primaryHeader := .ok h1, backupHeader := .ok h2 }
  /-- the array of the backup would begin at 2^64 -/
  | half (count : UInt32) (last : UInt64) (h1 : Header) : 3 * s.config.lbSize.usize ≤ s.device.data.length →
      count.toNat = max 128 (s.partitions.length % 2 ^ 32) → last.toNat = s.device.data.length / s.config.lbSize.usize - 1 →
      Built m s.config.lbSize (primaryFrom s h count last) (.ok h1) → s.config.readonlyBackup = false → m = .debug →
      h1.lastUsable.toNat = 2 ^ 64 - 1 → Rebuilt m s h .panic { s with primaryHeader := .ok h1 }

/-- What `update_partitions` gives, `h` the header in use. -/
inductive Spec.Updated (m : Mode) (s : GptDisk) (h : Header) (t : PMap) : Res GptError Unit → GptDisk → Prop where
  | zero (p : Partition) : (0, p) ∈ t → Updated m s h t .panic s
  | refused : (∀ p, (0, p) ∉ t) → h.numParts.toNat < max 128 (t.length % 2 ^ 32) → s.config.changePartitionCount = false →
      Updated m s h t (.err .partitionCountWouldChange) s
  | goes (r : Res GptError Unit) (s' : GptDisk) : (∀ p, (0, p) ∉ t) →
      (max 128 (t.length % 2 ^ 32) ≤ h.numParts.toNat ∨ s.config.changePartitionCount = true) →
      Rebuilt m { s with partitions := t } h r s' → Updated m s h t r s'

theorem initBuilder_eq {s : GptDisk} {h : Header} (hh : s.tryHeader = .ok h) (bak : UInt64) (fresh : Uuid) :
    s.initBuilder bak fresh = primaryFrom s h (max32 (UInt32.ofNat s.partitions.length) minNumParts) bak := by
  unfold GptDisk.initBuilder
  rw [hh]
  rfl

theorem count_toNat (n : Nat) : (max32 (UInt32.ofNat n) minNumParts).toNat = max 128 (n % 2 ^ 32) := by
  rw [max32_toNat, UInt32.toNat_ofNat', Nat.max_comm]
  rfl

/-- The backup header built from a header just built. -/
theorem backup_built {m : Mode} {lb : LbSize} {b : HeaderBuilder} {h1 : Header} (hp : b.primary = true) (hb : Built m lb b (.ok h1)) :
    ((HeaderBuilder.fromHeader h1).setPrimary false) = backupFrom h1 ∧
    ((m = .debug ∧ h1.lastUsable.toNat = 2 ^ 64 - 1 ∧ Built m lb (backupFrom h1) .panic) ∨
     ((m = .debug → h1.lastUsable.toNat ≠ 2 ^ 64 - 1) ∧ ∃ h2, Built m lb (backupFrom h1) (.ok h2))) := by
  cases hb with
  | header k _ a c e f g i =>
    have hc : h1.currentLba = b.primaryLba := by rw [i.current, hp]; rfl
    have hbk : h1.backupLba = b.backupLba := by rw [i.backup, hp]; rfl
    have eb : ((HeaderBuilder.fromHeader h1).setPrimary false) = backupFrom h1 := by
      unfold HeaderBuilder.fromHeader HeaderBuilder.setPrimary backupFrom
      simp only [HeaderBuilder.mk.injEq, true_and, and_true]
      by_cases hlt : h1.currentLba < h1.backupLba
      · rw [if_pos hlt, if_pos hlt]
        exact ⟨rfl, rfl⟩
      · rw [if_neg hlt, if_neg hlt]
        have : h1.currentLba = h1.backupLba := by
          apply UInt64.toNat_inj.mp
          rw [UInt64.lt_iff_toNat_lt] at hlt
          rw [hc, hbk] at hlt ⊢
          omega
        exact ⟨this.symm, this⟩
    refine ⟨eb, ?_⟩
    have a' : (backupFrom h1).primaryLba.toNat ≤ (backupFrom h1).backupLba.toNat := by
      show h1.currentLba.toNat ≤ h1.backupLba.toNat
      rw [hc, hbk]; exact a
    have en : (backupFrom h1).numParts.toNat * (backupFrom h1).partSize.toNat = b.numParts.toNat * b.partSize.toNat := by
      show h1.numParts.toNat * h1.partSize.toNat = _
      rw [i.count, i.entry]
    have elast : max (backupFrom h1).lastUsable.toNat ((backupFrom h1).backupLba.toNat - (k + 1)) = h1.lastUsable.toNat := by
      show max h1.lastUsable.toNat (h1.backupLba.toNat - (k + 1)) = _
      rw [hbk, i.last]
      omega
    have room : HasRoom (backupFrom h1) k := by
      refine ⟨?_, ?_⟩
      · show _ ≤ h1.backupLba.toNat
        rw [hbk]; exact f.1
      · rw [elast, i.last]
        show max h1.firstUsable.toNat (2 + k) ≤ _
        rw [i.first]
        have := f.2
        omega
    have hbp : (if (backupFrom h1).primary then (backupFrom h1).primaryLba.toNat else
        max (backupFrom h1).lastUsable.toNat ((backupFrom h1).backupLba.toNat - (k + 1))) = h1.lastUsable.toNat := elast
    by_cases hx : m = .debug ∧ h1.lastUsable.toNat = 2 ^ 64 - 1
    · exact .inl ⟨hx.1, hx.2, .noStart k a' hx.1 (by rw [en]; exact c hx.1) (by rw [en]; exact e) room (by rw [hbp]; exact hx.2)⟩
    · refine .inr ⟨fun hm hl => hx ⟨hm, hl⟩, ?_⟩
      have hl1 := h1.lastUsable.toNat_lt
      have hf1 := h1.firstUsable.toNat_lt
      refine ⟨⟨"EFI PART".toUTF8.data.toList, (1, 0), 92, 0, 0, h1.backupLba, h1.currentLba, h1.firstUsable, h1.lastUsable, h1.diskGuid,
        UInt64.ofNat (h1.lastUsable.toNat + 1), h1.numParts, h1.partSize, 0⟩, .header k _ a' (fun hm => by rw [en]; exact c hm)
        (by rw [en]; exact e) room (fun hm => by rw [hbp]; exact fun hl => hx ⟨hm, hl⟩) ?_⟩
      refine ⟨rfl, rfl, rfl, ⟨rfl, rfl, rfl⟩, rfl, rfl, ?_, elast.symm, rfl, ?_, rfl, rfl⟩
      · show h1.firstUsable.toNat = max h1.firstUsable.toNat (2 + k)
        rw [i.first]
        omega
      · show (UInt64.ofNat (h1.lastUsable.toNat + 1)).toNat = (h1.lastUsable.toNat + 1) % 2 ^ 64
        rw [UInt64.toNat_ofNat']

theorem rebuilt_run {m : Mode} {s : GptDisk} {h : Header} (fresh : Uuid) (hh : s.tryHeader = .ok h) (hf : s.device.faults = [])
    (hp : s.device.pos < 2 ^ 64) (hlen : s.device.data.length < 2 ^ 64) :
    Rebuilt m s h (GptDisk.initHeaders m fresh s).1 (GptDisk.initHeaders m fresh s).2 := by
  have hbk := findBackupLba_nil (lb := s.config.lbSize) hf hp hlen
  by_cases hs : s.device.data.length < 3 * s.config.lbSize.usize
  · rw [if_pos hs] at hbk
    rw [GptDisk.initHeaders_find_err hbk]
    exact .small hs
  · rw [if_neg hs] at hbk
    have hlast : (UInt64.ofNat (lastBlock s.device.data.length s.config.lbSize)).toNat = s.device.data.length / s.config.lbSize.usize - 1 := by
      rw [UInt64.toNat_ofNat', Nat.mod_eq_of_lt]
      · rfl
      · unfold lastBlock
        have := Nat.div_le_self s.device.data.length s.config.lbSize.usize
        omega
    have hcount := count_toNat s.partitions.length
    have hb := (c86_build m s.config.lbSize (s.initBuilder (UInt64.ofNat (lastBlock s.device.data.length s.config.lbSize)) fresh) _).mp rfl
    rw [initBuilder_eq hh] at hb
    generalize UInt64.ofNat (lastBlock s.device.data.length s.config.lbSize) = last at hbk hlast hb
    cases hr : (primaryFrom s h (max32 (UInt32.ofNat s.partitions.length) minNumParts) last).build m s.config.lbSize with
    | err e =>
      rw [hr] at hb
      rw [GptDisk.initHeaders_build_err hbk (by rw [initBuilder_eq hh]; exact hr)]
      exact .failed _ last e (by omega) hcount hlast hb
    | panic =>
      rw [hr] at hb
      have : GptDisk.initHeaders m fresh s = (.panic, s) := by
        unfold GptDisk.initHeaders
        simp only [M.bind_apply, M.get_apply]
        unfold GptDisk.onDev
        simp only [M.zoom_apply, M.mapErr_apply, hbk, Res.mapErr_ok, M.lift_apply]
        rw [← initBuilder_eq hh last fresh] at hr
        unfold GptDisk.initBuilder at hr
        simp only [hr, Res.mapErr_panic]
      rw [this]
      exact .crashed _ last (by omega) hcount hlast hb
    | ok h1 =>
      rw [hr] at hb
      obtain ⟨eb, hb2⟩ := backup_built rfl hb
      have hr' : (s.initBuilder last fresh).build m s.config.lbSize = .ok h1 := by rw [initBuilder_eq hh]; exact hr
      cases hro : s.config.readonlyBackup with
      | true =>
        rw [GptDisk.initHeaders_eq (h2 := h1) hbk hr' (fun h => by rw [hro] at h; cases h), hro]
        exact .primary _ last h1 (by omega) hcount hlast hb hro
      | false =>
        rcases hb2 with ⟨hm, hl, hp2⟩ | ⟨-, h2, hp2⟩
        · have hp2 := (c86_build _ _ _ _).mpr hp2
          rw [← eb] at hp2
          have : GptDisk.initHeaders m fresh s = (.panic, { s with primaryHeader := .ok h1 }) := by
            unfold GptDisk.initHeaders
            simp only [M.bind_apply, M.get_apply]
            unfold GptDisk.onDev
            simp only [M.zoom_apply, M.mapErr_apply, hbk, Res.mapErr_ok, M.lift_apply]
            unfold GptDisk.initBuilder at hr'
            simp only [hr', Res.mapErr_ok, M.modify_apply, hro]
            simp [M.bind_apply, hp2]
          rw [this]
          exact .half _ last h1 (by omega) hcount hlast hb hro hm hl
        · have hp3 := (c86_build _ _ _ _).mpr hp2
          rw [← eb] at hp3
          rw [GptDisk.initHeaders_eq hbk hr' (fun _ => hp3), hro]
          exact .both _ last h1 h2 (by omega) hcount hlast hb hro hp2

theorem rebuilt_unique {m : Mode} {s s1 s2 : GptDisk} {h : Header} {r1 r2 : Res GptError Unit} (a : Rebuilt m s h r1 s1)
    (b : Rebuilt m s h r2 s2) : r1 = r2 ∧ s1 = s2 := by
  have key : ∀ {c c' : UInt32} {l l' : UInt64} {x x' : Res HeaderError Header}, c.toNat = max 128 (s.partitions.length % 2 ^ 32) →
      c'.toNat = max 128 (s.partitions.length % 2 ^ 32) → l.toNat = s.device.data.length / s.config.lbSize.usize - 1 →
      l'.toNat = s.device.data.length / s.config.lbSize.usize - 1 → Built m s.config.lbSize (primaryFrom s h c l) x →
      Built m s.config.lbSize (primaryFrom s h c' l') x' → x = x' := fun h1 h2 h3 h4 h5 h6 => by
    obtain rfl := UInt32.toNat_inj.mp (h1.trans h2.symm)
    obtain rfl := UInt64.toNat_inj.mp (h3.trans h4.symm)
    exact built_unique h5 h6
  cases a with
  | small a1 =>
    cases b with
    | small => exact ⟨rfl, rfl⟩
    | failed _ _ _ b1 | crashed _ _ b1 | primary _ _ _ b1 | both _ _ _ _ b1 | half _ _ _ b1 => omega
  | failed c l e a1 a2 a3 a4 =>
    cases b with
    | small => omega
    | failed c' l' e' b1 b2 b3 b4 => cases key a2 b2 a3 b3 a4 b4; exact ⟨rfl, rfl⟩
    | crashed c' l' b1 b2 b3 b4 => cases key a2 b2 a3 b3 a4 b4
    | primary c' l' _ b1 b2 b3 b4 => cases key a2 b2 a3 b3 a4 b4
    | both c' l' _ _ b1 b2 b3 b4 => cases key a2 b2 a3 b3 a4 b4
    | half c' l' _ b1 b2 b3 b4 => cases key a2 b2 a3 b3 a4 b4
  | crashed c l a1 a2 a3 a4 =>
    cases b with
    | small => omega
    | failed c' l' e' b1 b2 b3 b4 => cases key a2 b2 a3 b3 a4 b4
    | crashed c' l' b1 b2 b3 b4 => exact ⟨rfl, rfl⟩
    | primary c' l' _ b1 b2 b3 b4 => cases key a2 b2 a3 b3 a4 b4
    | both c' l' _ _ b1 b2 b3 b4 => cases key a2 b2 a3 b3 a4 b4
    | half c' l' _ b1 b2 b3 b4 => cases key a2 b2 a3 b3 a4 b4
  | primary c l x a1 a2 a3 a4 a5 =>
    cases b with
    | small => omega
    | failed c' l' e' b1 b2 b3 b4 => cases key a2 b2 a3 b3 a4 b4
    | crashed c' l' b1 b2 b3 b4 => cases key a2 b2 a3 b3 a4 b4
    | primary c' l' _ b1 b2 b3 b4 => cases key a2 b2 a3 b3 a4 b4; exact ⟨rfl, rfl⟩
    | both c' l' _ _ b1 b2 b3 b4 b5 => rw [a5] at b5; cases b5
    | half c' l' _ b1 b2 b3 b4 b5 => rw [a5] at b5; cases b5
  | both c l x y a1 a2 a3 a4 a5 a6 =>
    cases b with
    | small => omega
    | failed c' l' e' b1 b2 b3 b4 => cases key a2 b2 a3 b3 a4 b4
    | crashed c' l' b1 b2 b3 b4 => cases key a2 b2 a3 b3 a4 b4
    | primary c' l' _ b1 b2 b3 b4 b5 => rw [a5] at b5; cases b5
    | both c' l' _ _ b1 b2 b3 b4 b5 b6 =>
      cases key a2 b2 a3 b3 a4 b4
      cases built_unique a6 b6
      exact ⟨rfl, rfl⟩
    | half c' l' _ b1 b2 b3 b4 b5 b6 b7 =>
      cases key a2 b2 a3 b3 a4 b4
      rcases (backup_built rfl a4).2 with ⟨-, -, hb⟩ | ⟨hb, -⟩
      · cases built_unique a6 hb
      · exact absurd b7 (hb b6)
  | half c l x a1 a2 a3 a4 a5 a6 a7 =>
    cases b with
    | small => omega
    | failed c' l' e' b1 b2 b3 b4 => cases key a2 b2 a3 b3 a4 b4
    | crashed c' l' b1 b2 b3 b4 => cases key a2 b2 a3 b3 a4 b4
    | primary c' l' _ b1 b2 b3 b4 b5 => rw [a5] at b5; cases b5
    | both c' l' _ _ b1 b2 b3 b4 b5 b6 =>
      cases key a2 b2 a3 b3 a4 b4
      rcases (backup_built rfl a4).2 with ⟨-, -, hb⟩ | ⟨hb, -⟩
      · cases built_unique b6 hb
      · exact absurd a7 (hb a6)
    | half c' l' _ b1 b2 b3 b4 b5 => cases key a2 b2 a3 b3 a4 b4; exact ⟨rfl, rfl⟩

/-- **C87**: what `update_partitions` gives on a device that works. -/
theorem c87_update (m : Mode) (s s' : GptDisk) (h : Header) (t : PMap) (fresh : Uuid) (r : Res GptError Unit)
    (hh : s.header (ε := Empty) = .ok h) (hf : s.device.faults = []) (hp : s.device.pos < 2 ^ 64) (hlen : s.device.data.length < 2 ^ 64) :
    GptDisk.updatePartitions m t fresh s = (r, s') ↔ Updated m s h t r s' := by
  have ht := GptDisk.header_ok_iff.mp hh
  have run : Updated m s h t (GptDisk.updatePartitions m t fresh s).1 (GptDisk.updatePartitions m t fresh s).2 := by
    by_cases h0 : ∃ p, (0, p) ∈ t
    · obtain ⟨p, h0⟩ := h0
      have : GptDisk.updatePartitions m t fresh s = (.panic, s) := by
        unfold GptDisk.updatePartitions
        rw [if_pos]
        · rfl
        · cases hg : PMap.get t 0 with
          | none => exact absurd h0 (PMap.get_none_iff.mp hg p)
          | some => rfl
      rw [this]
      exact .zero p h0
    · have h0 : ∀ p, (0, p) ∉ t := fun p hm => h0 ⟨p, hm⟩
      have hg : PMap.get t 0 = none := PMap.get_none_iff.mpr h0
      have hw := wouldChange_iff h (UInt32.ofNat t.length)
      rw [UInt32.toNat_ofNat', Nat.max_comm] at hw
      by_cases hc : h.numPartsWouldChange (UInt32.ofNat t.length) = true → s.config.changePartitionCount = true
      · rw [updatePartitions_eq hg ht hc]
        refine .goes _ _ h0 ?_ (rebuilt_run (s := s.withParts t) fresh ht hf hp hlen)
        by_cases hlt : h.numParts.toNat < max 128 (t.length % 2 ^ 32)
        · exact .inr (hc (hw.mpr hlt))
        · exact .inl (by omega)
      · rw [Classical.not_imp] at hc
        have hcc : s.config.changePartitionCount = false := by simpa using hc.2
        have : GptDisk.updatePartitions m t fresh s = (.err .partitionCountWouldChange, s) := by
          unfold GptDisk.updatePartitions
          simp only [hg, Option.isSome_none, Bool.false_eq_true, if_false, M.bind_apply, M.get_apply, M.lift_apply]
          rw [GptDisk.header_ok_iff.mpr ht]
          simp only
          rw [hc.1, hcc]
          rfl
        rw [this]
        exact .refused h0 (hw.mp hc.1) hcc
  constructor
  · intro e
    rw [e] at run
    exact run
  · intro hu
    generalize GptDisk.updatePartitions m t fresh s = o at run
    obtain ⟨r1, s1⟩ := o
    simp only at run
    cases run with
    | zero p a =>
      cases hu with
      | zero => rfl
      | refused b | goes _ _ b => exact absurd a (b p)
    | refused a b c =>
      cases hu with
      | zero p d => exact absurd d (a p)
      | refused => rfl
      | goes _ _ d e =>
        rcases e with e | e
        · omega
        · rw [c] at e; cases e
    | goes _ _ a b c =>
      cases hu with
      | zero p d => exact absurd d (a p)
      | refused d e f =>
        rcases b with b | b
        · omega
        · rw [f] at b; cases b
      | goes _ _ d e f =>
        obtain ⟨rfl, rfl⟩ := rebuilt_unique c f
        rfl

/-- **C87**, what a caller sees after `Ok`. -/
theorem c87_ok (m : Mode) (s s' : GptDisk) (h : Header) (t : PMap) (fresh : Uuid) (hh : s.header (ε := Empty) = .ok h)
    (hf : s.device.faults = []) (hp : s.device.pos < 2 ^ 64) (hlen : s.device.data.length < 2 ^ 64)
    (hok : GptDisk.updatePartitions m t fresh s = (.ok (), s')) :
    s'.partitions = t ∧ s'.device = s.device ∧ s'.guid = s.guid ∧ ∃ h', s'.header (ε := Empty) = .ok h' ∧
      h'.numParts.toNat = max 128 (t.length % 2 ^ 32) ∧ h'.diskGuid = s.guid ∧
      h'.backupLba.toNat = s.device.data.length / s.config.lbSize.usize - 1 ∧ h.firstUsable.toNat ≤ h'.firstUsable.toNat ∧
      h.lastUsable.toNat ≤ h'.lastUsable.toNat ∧ h'.firstUsable.toNat ≤ h'.lastUsable.toNat := by
  have key : ∀ {c : UInt32} {l : UInt64} {h1 : Header}, c.toNat = max 128 (t.length % 2 ^ 32) →
      l.toNat = s.device.data.length / s.config.lbSize.usize - 1 →
      Built m s.config.lbSize (primaryFrom { s with partitions := t } h c l) (.ok h1) →
      h1.numParts.toNat = max 128 (t.length % 2 ^ 32) ∧ h1.diskGuid = s.guid ∧
      h1.backupLba.toNat = s.device.data.length / s.config.lbSize.usize - 1 ∧ h.firstUsable.toNat ≤ h1.firstUsable.toNat ∧
      h.lastUsable.toNat ≤ h1.lastUsable.toNat ∧ h1.firstUsable.toNat ≤ h1.lastUsable.toNat := by
    intro c l h1 hc hl hb
    cases hb with
    | header k _ a1 a2 a3 a4 a5 a6 =>
      refine ⟨by rw [a6.count]; exact hc, a6.guid, by rw [a6.backup]; exact hl, ?_, ?_, ?_⟩
      · rw [a6.first]
        exact Nat.le_max_left _ _
      · rw [a6.last]
        exact Nat.le_max_left _ _
      · rw [a6.first, a6.last]
        exact a4.2
  have hu := (c87_update m s s' h t fresh _ hh hf hp hlen).mp hok
  cases hu with
  | goes _ _ _ _ hr =>
    cases hr with
    | primary c l h1 b1 b2 b3 b4 b5 => exact ⟨rfl, rfl, rfl, h1, rfl, key b2 b3 b4⟩
    | both c l h1 h2 b1 b2 b3 b4 b5 b6 => exact ⟨rfl, rfl, rfl, h1, rfl, key b2 b3 b4⟩

/-- A disk of 100 blocks with an empty table, as made by this library. -/
def builtDisk (z : Bytes) (change : Bool) : GptDisk where
  config := { GptConfig.new.setWritable true with changePartitionCount := change }
  device := ⟨z, 0, 51200, [], []⟩
  guid := ⟨1, 2, 3, 4⟩
  primaryHeader := .ok { smallHeader with backupLba := 99, firstUsable := 34, lastUsable := 66, numParts := 128 }
  backupHeader := .error .invalidGptSignature
  partitions := []
  syncAll := false

/-- A table of `n` partitions. -/
def tableOf (n : Nat) : PMap := (List.range n).map fun i => (UInt32.ofNat (i + 1), smallPart)

-- 129 partitions: without permission refused, with it the first usable block is 35 and the last one still 66
example (m : Mode) (z : Bytes) (hz : z.length = 51200) :
    GptDisk.updatePartitions m (tableOf 129) Uuid.nil (builtDisk z false) = (.err .partitionCountWouldChange, builtDisk z false) :=
  (c87_update m _ _ _ _ _ _ rfl rfl (show 0 < 2 ^ 64 by decide) (by rw [show (builtDisk z false).device.data.length = 51200 from hz]; decide)).mpr
    (.refused (fun p hm => by
      simp only [tableOf, List.mem_map, List.mem_range, Prod.mk.injEq] at hm
      obtain ⟨i, hi, e, -⟩ := hm
      have := congrArg UInt32.toNat e
      rw [UInt32.toNat_ofNat', Nat.mod_eq_of_lt (by omega)] at this
      exact absurd this (by simp)) (by decide +kernel) rfl)

example (m : Mode) (z : Bytes) (hz : z.length = 51200) : ∃ s' h', GptDisk.updatePartitions m (tableOf 129) Uuid.nil (builtDisk z true) = (.ok (), s') ∧
    s'.header (ε := Empty) = .ok h' ∧ h'.numParts = 129 ∧ h'.firstUsable = 35 ∧ h'.lastUsable = 66 := by
  have hl : (builtDisk z true).device.data.length = 51200 := hz
  have ho : ∀ b p, Built m .lb512 ⟨p, ⟨1, 2, 3, 4⟩, 1, 99, b, 66, 129, 128⟩
      (HeaderBuilder.build m ⟨p, ⟨1, 2, 3, 4⟩, 1, 99, b, 66, 129, 128⟩ .lb512) := fun b p => (c86_build _ _ _ _).mp rfl
  refine ⟨_, _, (c87_update m _ _ _ _ _ _ rfl rfl (show 0 < 2 ^ 64 by decide) (by rw [hl]; decide)).mpr (.goes _ _ (fun p hm => by
      simp only [tableOf, List.mem_map, List.mem_range, Prod.mk.injEq] at hm
      obtain ⟨i, hi, e, -⟩ := hm
      have := congrArg UInt32.toNat e
      rw [UInt32.toNat_ofNat', Nat.mod_eq_of_lt (by omega)] at this
      exact absurd this (by simp)) (.inr rfl) (.both 129 99
        { smallHeader with backupLba := 99, firstUsable := 35, lastUsable := 66, numParts := 129 }
        { smallHeader with currentLba := 99, backupLba := 1, firstUsable := 35, lastUsable := 66, numParts := 129, partStart := 67 }
        ?_ (show (129 : UInt32).toNat = max 128 ((tableOf 129).length % 2 ^ 32) by decide +kernel) ?_ ?_ rfl ?_)), rfl, rfl, rfl, rfl⟩
  · show 3 * 512 ≤ (builtDisk z true).device.data.length
    rw [hl]; decide
  · have e : ∀ n, n = 51200 → (99 : UInt64).toNat = n / LbSize.lb512.usize - 1 := by rintro n rfl; rfl
    exact e _ hl
  · have := ho 34 true
    cases m <;> exact this
  · have := ho 35 false
    cases m <;> exact this

end Gpt
