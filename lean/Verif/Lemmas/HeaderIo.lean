import Verif.Lemmas.Builder
import Verif.Props.Guid
import Verif.Spec.Header
/-!
# The header readers against the specification
-/

namespace Gpt

theorem rd16_iff {b : Bytes} {off : Nat} {x : UInt16} (h : off + 2 ≤ b.length) :
    rd16 b off = x ↔ x.toNat = leVal (slice b off 2) := by
  have h1 := leVal_lt (slice b off 2)
  rw [slice_length_of_le h] at h1
  unfold rd16
  rw [← UInt16.toNat_inj, UInt16.toNat_ofNat', Nat.mod_eq_of_lt (by simpa using h1)]
  exact eq_comm

theorem rd32_iff {b : Bytes} {off : Nat} {x : UInt32} (h : off + 4 ≤ b.length) :
    rd32 b off = x ↔ x.toNat = leVal (slice b off 4) := by
  have h1 := leVal_lt (slice b off 4)
  rw [slice_length_of_le h] at h1
  unfold rd32
  rw [← UInt32.toNat_inj, UInt32.toNat_ofNat', Nat.mod_eq_of_lt (by simpa using h1)]
  exact eq_comm

theorem rd64_iff {b : Bytes} {off : Nat} {x : UInt64} (h : off + 8 ≤ b.length) :
    rd64 b off = x ↔ x.toNat = leVal (slice b off 8) := by
  have h1 := leVal_lt (slice b off 8)
  rw [slice_length_of_le h] at h1
  unfold rd64
  rw [← UInt64.toNat_inj, UInt64.toNat_ofNat', Nat.mod_eq_of_lt (by simpa using h1)]
  exact eq_comm

theorem map_toNat_inj : ∀ {a b : Bytes}, a.map UInt8.toNat = b.map UInt8.toNat → a = b
  | [], [], _ => rfl
  | [], _ :: _, h => by simp at h
  | _ :: _, [], h => by simp at h
  | x :: xs, y :: ys, h => by
    simp only [List.map_cons, List.cons.injEq] at h
    rw [UInt8.toNat_inj.mp h.1, map_toNat_inj h.2]

theorem u64_ofNat_toNat {n : Nat} (h : n < 2 ^ 64) : (UInt64.ofNat n).toNat = n := by
  rw [UInt64.toNat_ofNat', Nat.mod_eq_of_lt h]

theorem ofDisk_iff {b : Bytes} {off : Nat} {u : Uuid} (h : off + 16 ≤ b.length) :
    Uuid.ofDisk b off = u ↔ Spec.guidBytes u = (slice b off 16).map UInt8.toNat := by
  rw [← c01_guid_bytes]
  constructor
  · rintro rfl; rw [Uuid.toDisk_ofDisk h]
  · intro e
    exact Uuid.toDisk_injective ((Uuid.toDisk_ofDisk h).trans (map_toNat_inj e).symm)

theorem headerOfBytes_iff {data : Bytes} {off : Nat} {h : Header} (hl : off + 92 ≤ data.length) :
    headerOfBytes (slice data off 92) = h ↔ Spec.HeaderAt data off h := by
  have hlen := slice_length_of_le hl
  have key : ∀ a n, a + n ≤ 92 → slice (slice data off 92) a n = slice data (off + a) n := fun a n h => slice_slice h
  constructor
  · rintro rfl
    refine ⟨?_, ?_, ?_, ?_, ?_, ?_, ?_, ?_, ?_, ?_, ?_, ?_, ?_, ?_, ?_⟩ <;> unfold headerOfBytes <;> simp only
    · exact key 0 8 (by omega)
    · rw [(rd16_iff (by omega)).mp rfl, key _ _ (by omega)]; rfl
    · rw [(rd16_iff (by omega)).mp rfl, key _ _ (by omega)]; rfl
    · rw [(rd32_iff (by omega)).mp rfl, key _ _ (by omega)]; rfl
    · rw [(rd32_iff (by omega)).mp rfl, key _ _ (by omega)]; rfl
    · rw [(rd32_iff (by omega)).mp rfl, key _ _ (by omega)]; rfl
    · rw [(rd64_iff (by omega)).mp rfl, key _ _ (by omega)]; rfl
    · rw [(rd64_iff (by omega)).mp rfl, key _ _ (by omega)]; rfl
    · rw [(rd64_iff (by omega)).mp rfl, key _ _ (by omega)]; rfl
    · rw [(rd64_iff (by omega)).mp rfl, key _ _ (by omega)]; rfl
    · rw [(ofDisk_iff (by omega)).mp rfl, key _ _ (by omega)]
    · rw [(rd64_iff (by omega)).mp rfl, key _ _ (by omega)]; rfl
    · rw [(rd32_iff (by omega)).mp rfl, key _ _ (by omega)]; rfl
    · rw [(rd32_iff (by omega)).mp rfl, key _ _ (by omega)]; rfl
    · rw [(rd32_iff (by omega)).mp rfl, key _ _ (by omega)]; rfl
  · intro hs
    obtain ⟨e1, e2, e3, e4, e5, e6, e7, e8, e9, e10, e11, e12, e13, e14, e15⟩ := hs
    have k1 : slice (slice data off 92) 0 8 = h.signature := (key 0 8 (by omega)).trans e1.symm
    have k2 : rd16 (slice data off 92) 8 = h.revision.2 := (rd16_iff (by omega)).mpr (by rw [key _ _ (by omega)]; exact e2)
    have k3 : rd16 (slice data off 92) 10 = h.revision.1 := (rd16_iff (by omega)).mpr (by rw [key _ _ (by omega)]; exact e3)
    have k4 : rd32 (slice data off 92) 12 = h.headerSizeLe := (rd32_iff (by omega)).mpr (by rw [key _ _ (by omega)]; exact e4)
    have k5 : rd32 (slice data off 92) 16 = h.crc32 := (rd32_iff (by omega)).mpr (by rw [key _ _ (by omega)]; exact e5)
    have k6 : rd32 (slice data off 92) 20 = h.reserved := (rd32_iff (by omega)).mpr (by rw [key _ _ (by omega)]; exact e6)
    have k7 : rd64 (slice data off 92) 24 = h.currentLba := (rd64_iff (by omega)).mpr (by rw [key _ _ (by omega)]; exact e7)
    have k8 : rd64 (slice data off 92) 32 = h.backupLba := (rd64_iff (by omega)).mpr (by rw [key _ _ (by omega)]; exact e8)
    have k9 : rd64 (slice data off 92) 40 = h.firstUsable := (rd64_iff (by omega)).mpr (by rw [key _ _ (by omega)]; exact e9)
    have k10 : rd64 (slice data off 92) 48 = h.lastUsable := (rd64_iff (by omega)).mpr (by rw [key _ _ (by omega)]; exact e10)
    have k11 : Uuid.ofDisk (slice data off 92) 56 = h.diskGuid := (ofDisk_iff (by omega)).mpr (by rw [key _ _ (by omega)]; exact e11)
    have k12 : rd64 (slice data off 92) 72 = h.partStart := (rd64_iff (by omega)).mpr (by rw [key _ _ (by omega)]; exact e12)
    have k13 : rd32 (slice data off 92) 80 = h.numParts := (rd32_iff (by omega)).mpr (by rw [key _ _ (by omega)]; exact e13)
    have k14 : rd32 (slice data off 92) 84 = h.partSize := (rd32_iff (by omega)).mpr (by rw [key _ _ (by omega)]; exact e14)
    have k15 : rd32 (slice data off 92) 88 = h.crc32Parts := (rd32_iff (by omega)).mpr (by rw [key _ _ (by omega)]; exact e15)
    unfold headerOfBytes
    rw [k1, k2, k3, k4, k5, k6, k7, k8, k9, k10, k11, k12, k13, k14, k15]

theorem withoutCrc_eq {data : Bytes} {off : Nat} (hl : off + 92 ≤ data.length) :
    patch (slice data off 92) 16 (zeros 4) = Spec.withoutCrc data off := by
  have hlen := slice_length_of_le hl
  have l1 := slice_length_of_le (d := data) (off := off) (n := 16) (by omega)
  have l2 := slice_length_of_le (d := data) (off := off + 20) (n := 72) (by omega)
  refine bytes_ext (by rw [patch_length, hlen]; simp [Spec.withoutCrc, l1, l2]) fun i hi => ?_
  rw [patch_length, hlen] at hi
  simp only [zeros_length] at hi
  rw [byteAt_patch]
  unfold Spec.withoutCrc
  rw [byteAt_append, byteAt_append]
  simp only [List.length_append, l1, zeros_length, List.length_cons, List.length_nil, byteAt_zeros, byteAt_slice]
  by_cases h1 : i < 16
  · rw [if_neg (by omega), if_pos (by omega), if_pos (by omega), if_pos (by omega), if_pos (by omega)]
  · by_cases h2 : i < 20
    · rw [if_pos (by omega), if_pos (by omega), if_neg (by omega)]
      have : ∀ j, j < 4 → (0 : UInt8) = byteAt [0, 0, 0, 0] j := by decide
      exact this _ (by omega)
    · rw [if_neg (by omega), if_pos (by omega), if_neg (by omega), if_pos (by omega)]
      congr 1; omega

/-- What a fault-free header read does, in terms of the specification. -/
theorem readHeaderAt_spec (data : Bytes) (off : Nat) :
    (∀ h, readHeaderAt data off = .ok h ↔ Spec.ValidAt data off ∧ Spec.HeaderAt data off h) ∧
    (readHeaderAt data off = .err (.io .unexpectedEof) ↔ data.length < off + 92) ∧
    (readHeaderAt data off = .err .invalidGptSignature ↔ off + 92 ≤ data.length ∧ slice data off 8 ≠ Spec.signature) ∧
    (readHeaderAt data off = .err .invalidCrc32Checksum ↔ off + 92 ≤ data.length ∧ slice data off 8 = Spec.signature ∧
      Spec.num data (off + 16) 4 ≠ (crc32 (Spec.withoutCrc data off)).toNat) := by
  unfold readHeaderAt
  by_cases hl : off + 92 ≤ data.length
  · simp only [if_pos hl]
    have hsig : slice (slice data off 92) 0 8 = slice data off 8 := slice_slice (by omega)
    have hcrc : crc32 (Spec.withoutCrc data off) = (headerOfBytes (slice data off 92)).crc32 ↔
        Spec.num data (off + 16) 4 = (crc32 (Spec.withoutCrc data off)).toNat := by
      rw [eq_comm]
      show rd32 (slice data off 92) 16 = _ ↔ _
      rw [rd32_iff (by rw [slice_length_of_le hl]; omega), slice_slice (by omega), eq_comm]
      rfl
    unfold parseHeader
    rw [hsig, withoutCrc_eq hl]
    have hse : efiPart = Spec.signature := rfl
    rw [hse]
    by_cases h1 : slice data off 8 = Spec.signature
    · by_cases h2 : Spec.num data (off + 16) 4 = (crc32 (Spec.withoutCrc data off)).toNat
      · rw [if_neg (by simp [h1]), if_pos (hcrc.mpr h2)]
        refine ⟨fun h => ?_, ?_, ?_, ?_⟩
        · simp only [Res.ok.injEq]
          rw [headerOfBytes_iff hl]
          exact ⟨fun e => ⟨⟨hl, h1, h2⟩, e⟩, fun e => e.2⟩
        · simp; omega
        · simp [h1]
        · simp [h2]
      · rw [if_neg (by simp [h1]), if_neg (fun e => h2 (hcrc.mp e))]
        refine ⟨fun h => ?_, ?_, ?_, ?_⟩
        · simp only [reduceCtorEq, false_iff]
          exact fun e => h2 e.1.checksum
        · simp; omega
        · simp [h1]
        · simp [h2, h1, hl]
    · rw [if_pos (by simpa using h1)]
      refine ⟨fun h => ?_, ?_, ?_, ?_⟩
      · simp only [reduceCtorEq, false_iff]
        exact fun e => h1 e.1.signature
      · simp; omega
      · simp [h1, hl]
      · simp [h1]
  · simp only [if_neg hl]
    refine ⟨fun h => ?_, ?_, ?_, ?_⟩
    · simp only [reduceCtorEq, false_iff]
      exact fun e => hl e.1.fits
    · simp; omega
    · simp; omega
    · simp; omega

/-! ## The public readers without faults -/

theorem seek_back_nil {d : Dev} {p : Nat} (hf : d.faults = []) (hp : p < 2 ^ 64) :
    Dev.seekStart (UInt64.ofNat p) d = (.ok (UInt64.ofNat p), { d with pos := p }) := by
  rw [Dev.seekStart_nil hf, UInt64.toNat_ofNat', Nat.mod_eq_of_lt hp]

/-- `read_primary_header` without faults. -/
theorem readPrimaryHeader_nil {lb : LbSize} {d : Dev} (hf : d.faults = []) (hp : d.pos < 2 ^ 64) :
    readPrimaryHeader lb d = (readHeaderAt d.data lb.usize, d) := by
  unfold readPrimaryHeader
  simp only [M.bind_apply, M.attempt_apply]
  rw [Dev.streamPosition_nil hf]
  simp only
  obtain ⟨p, hr⟩ := fileReadHeader_nil (off := lb.u64) hf
  rw [hr, lb_u64_toNat]
  have hnp := readHeaderAt_noPanic d.data lb.usize
  cases hx : readHeaderAt d.data lb.usize with
  | panic => exact absurd hx hnp
  | ok h =>
    simp only
    rw [seek_back_nil (by exact hf) hp]
    simp
  | err e =>
    simp only
    rw [seek_back_nil (by exact hf) hp]
    simp

theorem lb3 (lb : LbSize) : (lb.u64 * 3).toNat = lb.usize * 3 := by cases lb <;> rfl

/-- The last whole block of a device of `len` bytes. -/
def lastBlock (len : Nat) (lb : LbSize) : Nat := len / lb.usize - 1

theorem sub_div_self {len k : Nat} : (len - k) / k = len / k - 1 := by
  have := Nat.sub_mul_div len k 1
  rwa [Nat.mul_one] at this

/-- `find_backup_lba` without faults, from any position. -/
theorem findBackupLba_nil_any {lb : LbSize} {d : Dev} (hf : d.faults = []) (hlen : d.data.length < 2 ^ 64) :
    findBackupLba lb d =
      (if d.data.length < 3 * lb.usize then .err .toSmallForBackup else .ok (UInt64.ofNat (lastBlock d.data.length lb)), { d with pos := (UInt64.ofNat d.pos).toNat }) := by
  unfold findBackupLba
  simp only [M.bind_apply, M.mapErr_apply]
  rw [Dev.streamPosition_nil hf]
  simp only [Res.mapErr_ok]
  rw [Dev.seekEnd_nil hf]
  simp only [Res.mapErr_ok]
  rw [Dev.seekStart_nil (by exact hf)]
  simp only [Res.mapErr_ok]
  have h1 : (UInt64.ofNat d.data.length).toNat = d.data.length := by rw [UInt64.toNat_ofNat', Nat.mod_eq_of_lt hlen]
  have hc : UInt64.ofNat d.data.length < lb.u64 * 3 ↔ d.data.length < 3 * lb.usize := by
    rw [UInt64.lt_iff_toNat_lt, h1, lb3, Nat.mul_comm]
  by_cases h : d.data.length < 3 * lb.usize
  · rw [if_pos (hc.mpr h), if_pos h]; rfl
  · rw [if_neg (fun e => h (hc.mp e)), if_neg h]
    simp only [M.pure_apply, Prod.mk.injEq, Res.ok.injEq, and_true]
    apply UInt64.toNat_inj.mp
    have hu := lb_u64_toNat lb
    have hpos := lb_pos lb
    rw [UInt64.toNat_div, u64_sub_toNat (by rw [hu, h1]; omega), hu, h1, UInt64.toNat_ofNat', sub_div_self,
      Nat.mod_eq_of_lt]
    · rfl
    · unfold lastBlock
      have := Nat.div_le_self d.data.length lb.usize
      omega

/-- `find_backup_lba` without faults. -/
theorem findBackupLba_nil {lb : LbSize} {d : Dev} (hf : d.faults = []) (hp : d.pos < 2 ^ 64) (hlen : d.data.length < 2 ^ 64) :
    findBackupLba lb d =
      (if d.data.length < 3 * lb.usize then .err .toSmallForBackup else .ok (UInt64.ofNat (lastBlock d.data.length lb)), d) := by
  rw [findBackupLba_nil_any hf hlen, UInt64.toNat_ofNat', Nat.mod_eq_of_lt hp]

theorem lastBlock_lt {len : Nat} {lb : LbSize} (h : 3 * lb.usize ≤ len) :
    2 ≤ lastBlock len lb ∧ (lastBlock len lb + 1) * lb.usize ≤ len ∧ len < (lastBlock len lb + 2) * lb.usize := by
  have hpos := lb_pos lb
  have h3 : 3 ≤ len / lb.usize := (Nat.le_div_iff_mul_le hpos).mpr h
  have h1 := Nat.div_add_mod len lb.usize
  have h2 := Nat.mod_lt len hpos
  unfold lastBlock
  refine ⟨by omega, ?_, ?_⟩
  · rw [show len / lb.usize - 1 + 1 = len / lb.usize by omega, Nat.mul_comm]; omega
  · rw [show len / lb.usize - 1 + 2 = len / lb.usize + 1 by omega, Nat.add_mul, Nat.mul_comm]; omega

theorem findBackupLba_quiet (lb : LbSize) : M.Pres Dev.Quiet (findBackupLba lb) := by
  have C := Dev.quiet_chain
  unfold findBackupLba
  refine M.Pres.bind C (M.Pres.mapErr _ Dev.streamPosition_quiet) fun _ => ?_
  refine M.Pres.bind C (M.Pres.mapErr _ Dev.seekEnd_quiet) fun _ => ?_
  refine M.Pres.bind C (M.Pres.mapErr _ (Dev.seekStart_quiet _)) fun _ => ?_
  split
  · exact M.Pres.throw C _
  · exact M.Pres.pure C _

theorem findBackupLba_noPanic (lb : LbSize) : M.NoPanic (findBackupLba lb) := by
  unfold findBackupLba
  refine M.NoPanic.bind (M.NoPanic.mapErr _ Dev.streamPosition_noPanic) fun _ => ?_
  refine M.NoPanic.bind (M.NoPanic.mapErr _ Dev.seekEnd_noPanic) fun _ => ?_
  refine M.NoPanic.bind (M.NoPanic.mapErr _ (Dev.seekStart_noPanic _)) fun _ => ?_
  split
  · exact M.NoPanic.throw _
  · exact M.NoPanic.pure _

/-- Whenever it succeeds, whatever was injected, the answer is the last whole block and the position is restored. -/
theorem findBackupLba_ok {lb : LbSize} {d d' : Dev} {b : UInt64} (hp : d.pos < 2 ^ 64) (hlen : d.data.length < 2 ^ 64)
    (h : findBackupLba lb d = (.ok b, d')) :
    3 * lb.usize ≤ d.data.length ∧ b.toNat = lastBlock d.data.length lb ∧ d'.pos = d.pos ∧ d'.data = d.data := by
  unfold findBackupLba at h
  simp only [M.bind_ok, M.mapErr_ok] at h
  obtain ⟨p, d1, h1, l, d2, h2, q, d3, h3, h4⟩ := h
  obtain ⟨e1, e2, -⟩ := Dev.streamPosition_ok h1
  obtain ⟨e3, e4, -⟩ := Dev.seekEnd_ok h2
  obtain ⟨e5, e6, -⟩ := Dev.seekStart_ok h3
  have hdata : d3.data = d.data := by rw [e6, e4, e2]
  have hpos : d3.pos = d.pos := by rw [e6, e1]; exact u64_ofNat_toNat hp
  have hl : l.toNat = d.data.length := by rw [e3, e2]; exact u64_ofNat_toNat hlen
  have hu := lb_u64_toNat lb
  have hlp := lb_pos lb
  split at h4
  · simp at h4
  · rename_i hc
    simp only [M.pure_ok] at h4
    obtain ⟨e7, e8⟩ := h4
    rw [UInt64.lt_iff_toNat_lt, hl, lb3] at hc
    refine ⟨by omega, ?_, by rw [e8, hpos], by rw [e8, hdata]⟩
    rw [← e7, UInt64.toNat_div, u64_sub_toNat (by rw [hu, hl]; omega), hu, hl, sub_div_self]; rfl

/-- Where the backup header is looked for. -/
def backupOffset (len : Nat) (lb : LbSize) : Nat := lastBlock len lb * lb.usize

/-- What a fault-free `read_backup_header` returns. -/
def readBackupAt (data : Bytes) (lb : LbSize) : Res HeaderError Header :=
  if data.length < 3 * lb.usize then .err .toSmallForBackup else readHeaderAt data (backupOffset data.length lb)

theorem readBackupAt_noPanic (data : Bytes) (lb : LbSize) : readBackupAt data lb ≠ .panic := by
  unfold readBackupAt
  split
  · simp
  · exact readHeaderAt_noPanic _ _

theorem readBackupHeader_nil {lb : LbSize} {d : Dev} (hf : d.faults = []) (hp : d.pos < 2 ^ 64) (hlen : d.data.length < 2 ^ 64) :
    readBackupHeader lb d = (readBackupAt d.data lb, d) := by
  unfold readBackupHeader readBackupAt
  simp only [M.bind_apply, M.attempt_apply, M.lift_apply]
  rw [Dev.streamPosition_nil hf]
  simp only
  rw [findBackupLba_nil hf hp hlen]
  by_cases h : d.data.length < 3 * lb.usize
  · simp only [if_pos h]
  · simp only [if_neg h]
    have hl := lastBlock_lt (lb := lb) (Nat.not_lt.mp h)
    have h1 : (UInt64.ofNat (lastBlock d.data.length lb)).toNat = lastBlock d.data.length lb := by
      rw [UInt64.toNat_ofNat', Nat.mod_eq_of_lt]
      have := Nat.div_le_self d.data.length lb.usize
      unfold lastBlock; omega
    obtain ⟨r, e1, e2⟩ := checkedMul64_lb (a := UInt64.ofNat (lastBlock d.data.length lb)) (lb := lb) (by
      rw [h1]
      have := hl.2.1
      have : (lastBlock d.data.length lb + 1) * lb.usize = lastBlock d.data.length lb * lb.usize + lb.usize := by
        rw [Nat.add_mul, Nat.one_mul]
      omega)
    rw [e1]
    simp only [Res.ofOption_some]
    obtain ⟨p, hr⟩ := fileReadHeader_nil (off := r) hf
    rw [hr, e2, h1]
    have hnp := readHeaderAt_noPanic d.data (backupOffset d.data.length lb)
    have hb : lastBlock d.data.length lb * lb.usize = backupOffset d.data.length lb := rfl
    rw [hb]
    cases hx : readHeaderAt d.data (backupOffset d.data.length lb) with
    | panic => exact absurd hx hnp
    | ok h =>
      simp only
      rw [seek_back_nil (by exact hf) hp]
      simp
    | err e =>
      simp only
      rw [seek_back_nil (by exact hf) hp]
      simp

end Gpt
