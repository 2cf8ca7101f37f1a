import Verif.Props.Builder
/-!
# C57: the `write_header` helper
-/

namespace Gpt

open HeaderBuilder

/-- The blocks of an array of 128 entries of 128 bytes. -/
def Spec.defaultArrayBlocks : LbSize → Nat
  | .lb512 => 32
  | .lb4096 => 4

theorem defaultArrayBlocks_eq (lb : LbSize) : blocksFor (128 * 128) lb = Spec.defaultArrayBlocks lb := by cases lb <;> decide

theorem writeHeader_eq (m : Mode) (uuid : Option Uuid) (fresh : Uuid) (lb : LbSize) (d : Dev) :
    writeHeader m uuid fresh lb d = match findBackupLba lb d with
      | (.ok bak, d1) => match build m (writeHeaderBuilder uuid fresh bak) lb with
        | .ok h =>
          ((match (Header.writePrimary lb (h, d1)).1 with
            | .ok _ => .ok (Header.writePrimary lb (h, d1)).2.1.diskGuid
            | .err e => .err e
            | .panic => .panic), (Header.writePrimary lb (h, d1)).2.2)
        | .err e => (.err e, d1)
        | .panic => (.panic, d1)
      | (.err e, d1) => (.err e, d1)
      | (.panic, d1) => (.panic, d1) := by
  unfold writeHeader
  simp only [M.bind_apply, M.lift_apply]
  rcases findBackupLba lb d with ⟨r, d1⟩
  cases r with
  | err e => rfl
  | panic => rfl
  | ok bak =>
    simp only
    cases build m (writeHeaderBuilder uuid fresh bak) lb <;> rfl

theorem writeHeaderBuilder_eq (uuid : Option Uuid) (fresh : Uuid) (bak : UInt64) : writeHeaderBuilder uuid fresh bak =
    { HeaderBuilder.new fresh with diskGuid := uuid.getD fresh, backupLba := bak } := by
  cases uuid <;> rfl

theorem writeHeaderBuilder_fits (uuid : Option Uuid) (fresh : Uuid) (bak : UInt64) :
    (writeHeaderBuilder uuid fresh bak).numParts.toNat * (writeHeaderBuilder uuid fresh bak).partSize.toNat < 2 ^ 32 := by
  rw [writeHeaderBuilder_eq]
  show (128 : UInt32).toNat * (128 : UInt32).toNat < 2 ^ 32
  decide

theorem writeHeaderBuilder_fresh (uuid : Option Uuid) (fresh : Uuid) (bak : UInt64) :
    (writeHeaderBuilder uuid fresh bak).Fresh := by
  rw [writeHeaderBuilder_eq]; exact ⟨rfl, rfl⟩

/-- The header `write_header` builds. -/
theorem writeHeaderBuilder_ok {m : Mode} {uuid : Option Uuid} {fresh : Uuid} {bak : UInt64} {lb : LbSize} {h : Header}
    (hb : build m (writeHeaderBuilder uuid fresh bak) lb = .ok h) :
    h.signature = Spec.signature ∧ h.reserved = 0 ∧ h.currentLba = 1 ∧ h.backupLba = bak ∧ h.partStart = 2 ∧
    h.numParts = 128 ∧ h.partSize = 128 ∧ h.diskGuid = uuid.getD fresh ∧
    h.firstUsable.toNat = 2 + Spec.defaultArrayBlocks lb ∧
    h.lastUsable.toNat + 1 + Spec.defaultArrayBlocks lb = bak.toNat ∧ h.firstUsable.toNat ≤ h.lastUsable.toNat := by
  have hns := writeHeaderBuilder_fits uuid fresh bak
  obtain ⟨eh, h1, h2, h3, _⟩ := build_ok hns hb
  rw [writeHeaderBuilder_eq] at hns eh h1 h2 h3
  have hl : ({ HeaderBuilder.new fresh with diskGuid := uuid.getD fresh, backupLba := bak } : HeaderBuilder).lbs lb = Spec.defaultArrayBlocks lb := defaultArrayBlocks_eq lb
  have eF : ({ HeaderBuilder.new fresh with diskGuid := uuid.getD fresh, backupLba := bak } : HeaderBuilder).outFirst lb = 2 + Spec.defaultArrayBlocks lb := by
    unfold outFirst
    rw [hl]
    show max (0 : UInt64).toNat _ = _
    simp
  have eL : ({ HeaderBuilder.new fresh with diskGuid := uuid.getD fresh, backupLba := bak } : HeaderBuilder).outLast lb = bak.toNat - (Spec.defaultArrayBlocks lb + 1) := by
    unfold outLast
    rw [hl]
    show max (0 : UInt64).toNat _ = _
    simp
  have f1 := out_first (lb := lb) hns
  have f2 := out_last ({ HeaderBuilder.new fresh with diskGuid := uuid.getD fresh, backupLba := bak } : HeaderBuilder) lb
  rw [hl] at h2
  have h2' : Spec.defaultArrayBlocks lb + 1 ≤ bak.toNat := h2
  subst eh
  refine ⟨rfl, rfl, rfl, rfl, rfl, rfl, rfl, rfl, ?_, ?_, ?_⟩
  · rw [f1, eF]
  · rw [f2, eL]; omega
  · rw [f1, f2]; exact h3

/-- **C57**. When `write_header` succeeds (whatever I/O calls were made to fail): it returns the GUID it was given, or
the fresh one; only bytes of LBA 1 changed; the device length is unchanged; and reading the primary header back from the
resulting content gives a header with that GUID that describes the whole device. -/
theorem c57_write_header (m : Mode) (uuid : Option Uuid) (fresh g : Uuid) (lb : LbSize) (d d' r : Dev)
    (hp : d.pos < 2 ^ 64) (hlen : d.data.length < 2 ^ 64)
    (hw : writeHeader m uuid fresh lb d = (.ok g, d')) (hr : r.data = d'.data) (hf : r.faults = []) (hrp : r.pos < 2 ^ 64) :
    g = uuid.getD fresh ∧ d'.data.length = d.data.length ∧
    (∀ i, i < lb.usize ∨ 2 * lb.usize ≤ i → byteAt d'.data i = byteAt d.data i) ∧
    ∃ h, (readPrimaryHeader lb r).1 = .ok h ∧ h.diskGuid = g ∧ h.currentLba = 1 ∧
      h.backupLba.toNat + 1 = d.data.length / lb.usize ∧ h.partStart = 2 ∧ h.numParts = 128 ∧ h.partSize = 128 ∧
      h.firstUsable.toNat = 2 + Spec.defaultArrayBlocks lb ∧
      h.lastUsable.toNat + 1 + Spec.defaultArrayBlocks lb = h.backupLba.toNat ∧
      h.firstUsable.toNat ≤ h.lastUsable.toNat ∧
      h.crc32Parts = crc32 (slice d.data (2 * lb.usize) 16384) := by
  rw [writeHeader_eq] at hw
  rcases hbk : findBackupLba lb d with ⟨r1, d1⟩
  rw [hbk] at hw
  cases r1 with
  | err e => simp at hw
  | panic => simp at hw
  | ok bak =>
    simp only at hw
    cases hb : build m (writeHeaderBuilder uuid fresh bak) lb with
    | err e => rw [hb] at hw; simp at hw
    | panic => rw [hb] at hw; simp at hw
    | ok h =>
      rw [hb] at hw
      simp only at hw
      obtain ⟨k1, k2, k3, k4⟩ := findBackupLba_ok hp hlen hbk
      obtain ⟨l1, l2, l3⟩ := lastBlock_lt k1
      obtain ⟨a1, a2, a3, a4, a5, a6, a7, a8, a9, a10, a11⟩ := writeHeaderBuilder_ok hb
      have hlt : h.currentLba < h.backupLba := by
        rw [a3, a4, UInt64.lt_iff_toNat_lt, k2]
        show 1 < _; omega
      rw [(c04_primary_backup lb h d1).1 hlt, a3] at hw
      rcases hwr : Header.fileWriteHeader 1 lb (h, d1) with ⟨r2, s2⟩
      rw [hwr] at hw
      cases r2 with
      | err e => simp at hw
      | panic => simp at hw
      | ok n =>
        simp only [Prod.mk.injEq, Res.ok.injEq] at hw
        obtain ⟨hg, hd'⟩ := hw
        have hl8 : h.signature.length = 8 := by rw [a1]; rfl
        obtain ⟨_, e2, e3, e4, e5, e6, e7, e8, e9⟩ := Header.fileWriteHeader_ok hl8 hwr
        have hread := read_written a1 hwr
        have h1 : (1 : UInt64).toNat = 1 := rfl
        rw [h1, Nat.one_mul] at e3 hread
        have hlast : lastBlock d.data.length lb + 1 = d.data.length / lb.usize := by
          have : 3 ≤ d.data.length / lb.usize := (Nat.le_div_iff_mul_le (lb_pos lb)).mpr k1
          unfold lastBlock; omega
        have h2lb : 2 * lb.usize ≤ d.data.length := by omega
        refine ⟨?_, ?_, ?_, { s2.1 with reserved := 0 }, ?_, ?_⟩
        · rw [← hg, e2]; exact a8
        · rw [← hd', e3, patch_length, Header.block_length, k4]; omega
        · intro i hi
          rw [← hd', e3, byteAt_patch_outside (by rw [Header.block_length]; omega), k4]
        · rw [readPrimaryHeader_nil hf hrp, hr, ← hd']; exact hread
        · rw [e2]
          refine ⟨?_, a3, ?_, a5, a6, a7, a9, ?_, a11, ?_⟩
          · rw [← hg, e2]
          · show h.backupLba.toNat + 1 = _
            rw [a4, k2, hlast]
          · show h.lastUsable.toNat + 1 + _ = h.backupLba.toNat
            rw [a4]; exact a10
          · show crc32 (slice d1.data (h.arrayStart lb) h.arrayLen) = _
            have q1 : h.arrayStart lb = 2 * lb.usize := by unfold Header.arrayStart; rw [a5]; rfl
            have q2 : h.arrayLen = 16384 := by unfold Header.arrayLen; rw [a6, a7]; rfl
            rw [q1, q2, k4]

/-- **C57** (every outcome). Whatever fails, at most bytes of LBA 1 change. -/
theorem c57_confined (m : Mode) (uuid : Option Uuid) (fresh : Uuid) (lb : LbSize) (d : Dev) (i : Nat)
    (hi : i < lb.usize ∨ 2 * lb.usize ≤ i) : byteAt (writeHeader m uuid fresh lb d).2.data i = byteAt d.data i := by
  rw [writeHeader_eq]
  have hq := findBackupLba_quiet lb d
  rcases hbk : findBackupLba lb d with ⟨r1, d1⟩
  rw [hbk] at hq
  cases r1 with
  | err e => simp only; rw [hq.data]
  | panic => simp only; rw [hq.data]
  | ok bak =>
    simp only
    cases hb : build m (writeHeaderBuilder uuid fresh bak) lb with
    | err e => simp only; rw [hq.data]
    | panic => simp only; rw [hq.data]
    | ok h =>
      simp only
      obtain ⟨a1, _, a3, _⟩ := writeHeaderBuilder_ok hb
      by_cases hlt : h.currentLba < h.backupLba
      · rw [(c04_primary_backup lb h d1).1 hlt, a3]
        have hl8 : h.signature.length = 8 := by rw [a1]; rfl
        have ht := (Header.fileWriteHeader_toward (lba := 1) (lb := lb) (d := d1) hl8).within
        have h1 : (1 : UInt64).toNat = 1 := rfl
        rw [h1, Nat.one_mul] at ht
        rw [ht.bytes i (by omega), hq.data]
      · rw [(c04_primary_backup lb h d1).2.1 hlt]
        simp only
        rw [hq.data]

/-- **C57** (success). Without faults it succeeds on every device with room for the GPT structures and a usable block. -/
theorem c57_succeeds (m : Mode) (uuid : Option Uuid) (fresh : Uuid) (lb : LbSize) (d : Dev) (hf : d.faults = [])
    (hp : d.pos < 2 ^ 64) (hlen : d.data.length < 2 ^ 64) (hcap : d.data.length ≤ d.cap)
    (hroom : 2 * Spec.defaultArrayBlocks lb + 4 ≤ d.data.length / lb.usize) :
    ∃ d', writeHeader m uuid fresh lb d = (.ok (uuid.getD fresh), d') := by
  have h4 : 4 ≤ d.data.length / lb.usize := by omega
  have hlb := lb_pos lb
  have hmul : (2 * Spec.defaultArrayBlocks lb + 4) * lb.usize ≤ d.data.length := (Nat.le_div_iff_mul_le hlb).mp hroom
  have h3 : ¬ d.data.length < 3 * lb.usize := by
    have : 4 * lb.usize ≤ d.data.length := (Nat.le_div_iff_mul_le hlb).mp h4
    omega
  rw [writeHeader_eq, findBackupLba_nil hf hp hlen, if_neg h3]
  simp only
  have hdl := Nat.div_le_self d.data.length lb.usize
  have hlast : (UInt64.ofNat (lastBlock d.data.length lb)).toNat = d.data.length / lb.usize - 1 := by
    exact u64_ofNat_toNat (n := lastBlock d.data.length lb) (by unfold lastBlock; omega)
  generalize UInt64.ofNat (lastBlock d.data.length lb) = bak at hlast
  have hns := writeHeaderBuilder_fits uuid fresh bak
  have hk : Spec.JustEnough lb ((writeHeaderBuilder uuid fresh bak).numParts.toNat * (writeHeaderBuilder uuid fresh bak).partSize.toNat)
      (Spec.defaultArrayBlocks lb) := by
    rw [← defaultArrayBlocks_eq lb, writeHeaderBuilder_eq]; exact justEnough_blocksFor _ _
  obtain ⟨h, hb⟩ := (c12_partial m lb _ _ (writeHeaderBuilder_fresh uuid fresh bak) hns hk).2.2.mpr
    ⟨2 + Spec.defaultArrayBlocks lb, (by rw [writeHeaderBuilder_eq]; exact Nat.zero_le _), Nat.le_refl _, by
      rw [writeHeaderBuilder_eq]
      show _ ≤ bak.toNat
      rw [hlast]; omega⟩
  rw [hb]
  simp only
  obtain ⟨a1, _, a3, a4, a5, a6, a7, a8, _, _, _⟩ := writeHeaderBuilder_ok hb
  have hlt : h.currentLba < h.backupLba := by
    rw [a3, a4, UInt64.lt_iff_toNat_lt, hlast]
    show 1 < _; omega
  have hl8 : h.signature.length = 8 := by rw [a1]; rfl
  rw [(c04_primary_backup lb h d).1 hlt, a3]
  have q1 : h.arrayStart lb = 2 * lb.usize := by unfold Header.arrayStart; rw [a5]; rfl
  have q2 : h.arrayLen = 16384 := by unfold Header.arrayLen; rw [a6, a7]; rfl
  have h1 : (1 : UInt64).toNat = 1 := rfl
  have hle := lb_ge lb
  have h16 : 16384 ≤ Spec.defaultArrayBlocks lb * lb.usize := by cases lb <;> decide
  have hexp : (2 * Spec.defaultArrayBlocks lb + 4) * lb.usize = 2 * (Spec.defaultArrayBlocks lb * lb.usize) + 4 * lb.usize := by
    rw [Nat.add_mul, Nat.mul_assoc]
  obtain ⟨s', e, _⟩ := Header.fileWriteHeader_nil (lba := 1) (lb := lb) (h := h) (d := d) hl8 hf (by rw [q1]; omega)
    (by rw [q2]; decide) (by rw [q1, q2]; omega) (by rw [h1]; omega) (by rw [h1]; omega)
  rw [e]
  obtain ⟨_, e2, _⟩ := Header.fileWriteHeader_ok hl8 e
  simp only
  exact ⟨s'.2, by rw [e2]; show (Res.ok h.diskGuid, _) = _; rw [a8]⟩

/-- A device of 68 blocks is large enough. -/
example : ∃ d', writeHeader .debug none ⟨1, 2, 3, 4⟩ .lb512 ⟨zeros 34816, 0, 34816, [], []⟩ = (.ok ⟨1, 2, 3, 4⟩, d') :=
  c57_succeeds .debug none ⟨1, 2, 3, 4⟩ .lb512 _ rfl (by decide) (by simp only [zeros_length]; decide)
    (by simp only [zeros_length]; decide) (by simp only [zeros_length]; decide)

end Gpt
