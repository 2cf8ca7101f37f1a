import Verif.Lemmas.Open
import Verif.Props.Header
/-!
# Opening a disk: C09, C44, C45, C46
-/

namespace Gpt

/-! ## C09 -/

/-- The array `h` points to is the same in both contents except within the four bytes from `k` on, and differs there. -/
structure Spec.ArrayHit (h : Header) (lb : LbSize) (data data' : Bytes) (k : Nat) : Prop where
  length : data'.length = data.length
  outside : ∀ i, i < k ∨ k + 4 ≤ i → byteAt data' i = byteAt data i
  inside : ∃ i, h.partStart.toNat * lb.usize ≤ i ∧ i < h.partStart.toNat * lb.usize + 128 * h.numParts.toNat ∧
    byteAt data' i ≠ byteAt data i

theorem arrayHit_crc {h : Header} {lb : LbSize} {data data' : Bytes} {k : Nat} (hit : Spec.ArrayHit h lb data data' k)
    (hl : h.partStart.toNat * lb.usize + 128 * h.numParts.toNat ≤ data.length) :
    crc32 (slice data' (h.partStart.toNat * lb.usize) (128 * h.numParts.toNat)) ≠
      crc32 (slice data (h.partStart.toNat * lb.usize) (128 * h.numParts.toNat)) := by
  obtain ⟨j, h1, h2, h3⟩ := hit.inside
  have hl' := hit.length
  have hk : k ≤ j ∧ j < k + 4 := by
    by_contra hc
    exact h3 (hit.outside j (by omega))
  have e1 : ∀ i, i < 128 * h.numParts.toNat → ∀ b : Bytes,
      byteAt (slice b (h.partStart.toNat * lb.usize) (128 * h.numParts.toNat)) i = byteAt b (h.partStart.toNat * lb.usize + i) := by
    intro i hi b
    rw [byteAt_slice, if_pos hi]
  have hlen : (slice data' (h.partStart.toNat * lb.usize) (128 * h.numParts.toNat)).length =
      (slice data (h.partStart.toNat * lb.usize) (128 * h.numParts.toNat)).length := by
    rw [slice_length_of_le (by omega), slice_length_of_le hl]
  have hne : slice data' (h.partStart.toNat * lb.usize) (128 * h.numParts.toNat) ≠
      slice data (h.partStart.toNat * lb.usize) (128 * h.numParts.toNat) := by
    intro e
    have e := congrArg (fun b => byteAt b (j - h.partStart.toNat * lb.usize)) e
    simp only [byteAt_slice] at e
    rw [if_pos (by omega), if_pos (by omega), Nat.add_sub_of_le h1] at e
    exact h3 e
  by_cases hk0 : h.partStart.toNat * lb.usize ≤ k
  · refine crc32_ne (k := k - h.partStart.toNat * lb.usize) hlen (fun i hi => ?_) hne
    by_cases hi2 : i < 128 * h.numParts.toNat
    · rw [e1 i hi2, e1 i hi2]
      exact hit.outside _ (by omega)
    · rw [byteAt_slice, byteAt_slice, if_neg hi2, if_neg hi2]
  · refine crc32_ne (k := 0) hlen (fun i hi => ?_) hne
    by_cases hi2 : i < 128 * h.numParts.toNat
    · rw [e1 i hi2, e1 i hi2]
      exact hit.outside _ (by omega)
    · rw [byteAt_slice, byteAt_slice, if_neg hi2, if_neg hi2]

/-- **C09**. If reading the partitions with `h` succeeds on one device, then after an alteration of the array within four
consecutive bytes it fails with the CRC-mismatch error. (The second hypothesis excludes the overflow of the `i32` counter
of empty slots that debug builds check.) -/
theorem c09_table (m : Mode) (h : Header) (lb : LbSize) (d d1 d' : Dev) (t : PMap) (k : Nat)
    (hok : fileReadPartitions m h lb d = (.ok t, d1)) (he : m = .release ∨ h.numParts.toNat < 2 ^ 31)
    (hit : Spec.ArrayHit h lb d.data d'.data k) (hf : d'.faults = []) :
    (fileReadPartitions m h lb d').1 = .err (.other "partition table CRC mismatch") := by
  obtain ⟨hs, h128, -, hl, hc, -⟩ := fileReadPartitions_ok hok
  have hl : h.partStart.toNat * lb.usize + 128 * h.numParts.toNat ≤ d.data.length := by
    rcases hl with hl | hl
    · obtain ⟨i, h1, h2, -⟩ := hit.inside
      rw [hl] at h2
      have : (0 : UInt32).toNat = 0 := rfl
      omega
    · exact hl
  obtain ⟨p, e⟩ := fileReadPartitions_nil (m := m) hf hs h128 (by rw [hit.length]; exact hl) he
  rw [e, if_neg]
  intro e2
  exact arrayHit_crc hit hl (e2.trans hc.symm)

/-- **C09**, for every mode, count and fault schedule: the altered array is never accepted. -/
theorem c09_never_accepted (m m' : Mode) (h : Header) (lb : LbSize) (d d1 d' : Dev) (t t' : PMap) (k : Nat)
    (hok : fileReadPartitions m h lb d = (.ok t, d1)) (hit : Spec.ArrayHit h lb d.data d'.data k) :
    (fileReadPartitions m' h lb d').1 ≠ .ok t' := by
  intro e
  obtain ⟨hs, h128, -, hl, hc, -⟩ := fileReadPartitions_ok hok
  have hl : h.partStart.toNat * lb.usize + 128 * h.numParts.toNat ≤ d.data.length := by
    rcases hl with hl | hl
    · obtain ⟨i, h1, h2, -⟩ := hit.inside
      rw [hl] at h2
      have : (0 : UInt32).toNat = 0 := rfl
      omega
    · exact hl
  obtain ⟨-, -, -, -, hc', -⟩ := fileReadPartitions_ok (Prod.ext e rfl : fileReadPartitions m' h lb d' = (.ok t', _))
  exact arrayHit_crc hit hl (hc'.trans hc.symm)

/-! ## C44 -/

/-- A valid primary header is stored at LBA 1. -/
def Spec.PrimaryValid (lb : LbSize) (data : Bytes) : Prop := Spec.ValidAt data lb.usize

/-- The byte offset of the last whole block. -/
def Spec.lastBlockOffset (lb : LbSize) (data : Bytes) : Nat := (data.length / lb.usize - 1) * lb.usize

/-- A valid backup header is stored in the last whole block of a device of at least three blocks. -/
def Spec.BackupValid (lb : LbSize) (data : Bytes) : Prop :=
  3 * lb.usize ≤ data.length ∧ Spec.ValidAt data (Spec.lastBlockOffset lb data)

theorem ofExcept_ok {ε α : Type} {x : Except ε α} {a : α} : Res.ofExcept x = .ok a ↔ x = .ok a := by
  cases x <;> simp [Res.ofExcept]

theorem ofExcept_err {ε α : Type} {x : Except ε α} {e : ε} : Res.ofExcept x = .err e ↔ x = .error e := by
  cases x <;> simp [Res.ofExcept]

theorem validAt_header {data : Bytes} {off : Nat} (hv : Spec.ValidAt data off) : ∃ h, Spec.HeaderAt data off h :=
  ⟨_, (headerOfBytes_iff hv.fits).mp rfl⟩

/-- The two header reads of `open_from_device`, in terms of the device bytes. -/
theorem open_headers {m : Mode} {cfg : GptConfig} {d : Dev} (hf : d.faults = []) (hp : d.pos < 2 ^ 64)
    (hlen : d.data.length < 2 ^ 64) :
    ∃ h1 h2, (∀ h, h1 = .ok h ↔ Spec.PrimaryValid cfg.lbSize d.data ∧ Spec.HeaderAt d.data cfg.lbSize.usize h) ∧
      (∀ h, h2 = .ok h ↔ Spec.BackupValid cfg.lbSize d.data ∧ Spec.HeaderAt d.data (Spec.lastBlockOffset cfg.lbSize d.data) h) ∧
      (∀ e, h1 = .error e ↔ (readPrimaryHeader cfg.lbSize d).1 = .err e) ∧
      (∀ e, h2 = .error e ↔ (readBackupHeader cfg.lbSize d).1 = .err e) ∧
      openFromDevice m cfg d = match selectHeader cfg.onlyValidHeaders h1 h2 with
        | .error e => (.err (.header e), d)
        | .ok h => openRest m cfg h1 h2 h d := by
  obtain ⟨h1, h2, e1, e2, e3⟩ := openFromDevice_nil m cfg hf hp hlen
  obtain ⟨c1, -, c2, -⟩ := c05_primary_backup cfg.lbSize d hf hp hlen
  have e1' : Res.ofExcept h1 = (readPrimaryHeader cfg.lbSize d).1 := by rw [e1, readPrimaryHeader_nil hf hp]
  have e2' : Res.ofExcept h2 = (readBackupHeader cfg.lbSize d).1 := by rw [e2, readBackupHeader_nil hf hp hlen]
  refine ⟨h1, h2, fun h => ?_, fun h => ?_, fun e => ?_, fun e => ?_, e3⟩
  · rw [← ofExcept_ok, e1', c1]; rfl
  · rw [← ofExcept_ok, e2', c2, Spec.BackupValid, and_assoc]; rfl
  · rw [← ofExcept_err, e1']
  · rw [← ofExcept_err, e2']

/-- Which header is selected, and when none is. -/
theorem select_spec {b : Bool} {h1 h2 : Except HeaderError Header} :
    (∀ h, selectHeader b h1 h2 = .ok h ↔
      (h1 = .ok h ∧ (b = true → ∃ k, h2 = .ok k)) ∨ (b = false ∧ (∃ e, h1 = .error e) ∧ h2 = .ok h)) ∧
    (∀ e, selectHeader b h1 h2 = .error e ↔
      (h1 = .error e ∧ (b = true ∨ ∃ k, h2 = .error k)) ∨ (b = true ∧ (∃ k, h1 = .ok k) ∧ h2 = .error e)) := by
  cases h1 <;> cases h2 <;> cases b <;> simp [selectHeader]

/-- **C44**, the refusals. Opening stops with a header error exactly when neither header is valid, or `only_valid_headers`
is set and one of them is not; the error is the primary's own error if the primary is invalid and else the backup's. -/
theorem c44_refused (m : Mode) (cfg : GptConfig) (d : Dev) (hf : d.faults = []) (hp : d.pos < 2 ^ 64)
    (hlen : d.data.length < 2 ^ 64) :
    ((∃ e, (openFromDevice m cfg d).1 = .err (.header e)) ↔
      (¬ Spec.PrimaryValid cfg.lbSize d.data ∧ ¬ Spec.BackupValid cfg.lbSize d.data) ∨
      (cfg.onlyValidHeaders = true ∧ ¬ (Spec.PrimaryValid cfg.lbSize d.data ∧ Spec.BackupValid cfg.lbSize d.data))) ∧
    (∀ e, (openFromDevice m cfg d).1 = .err (.header e) →
      (¬ Spec.PrimaryValid cfg.lbSize d.data → (readPrimaryHeader cfg.lbSize d).1 = .err e) ∧
      (Spec.PrimaryValid cfg.lbSize d.data → (readBackupHeader cfg.lbSize d).1 = .err e)) := by
  obtain ⟨h1, h2, c1, c2, c3, c4, e⟩ := open_headers (m := m) (cfg := cfg) hf hp hlen
  have p1 : Spec.PrimaryValid cfg.lbSize d.data ↔ ∃ h, h1 = .ok h :=
    ⟨fun hv => by obtain ⟨h, hh⟩ := validAt_header hv; exact ⟨h, (c1 h).mpr ⟨hv, hh⟩⟩, fun ⟨h, hh⟩ => ((c1 h).mp hh).1⟩
  have p2 : Spec.BackupValid cfg.lbSize d.data ↔ ∃ h, h2 = .ok h :=
    ⟨fun hv => by obtain ⟨h, hh⟩ := validAt_header hv.2; exact ⟨h, (c2 h).mpr ⟨hv, hh⟩⟩, fun ⟨h, hh⟩ => ((c2 h).mp hh).1⟩
  have key : ∀ x, (openFromDevice m cfg d).1 = .err (.header x) ↔ selectHeader cfg.onlyValidHeaders h1 h2 = .error x := by
    intro x
    rw [e]
    cases hsel : selectHeader cfg.onlyValidHeaders h1 h2 with
    | error y => simp
    | ok h =>
      simp only [reduceCtorEq, iff_false]
      unfold openRest
      simp only [M.bind_apply, M.mapErr_apply]
      rcases fileReadPartitions m h cfg.lbSize d with ⟨r, d1⟩
      cases r <;> simp
  constructor
  · rw [p1, p2]
    simp only [key, (select_spec).2]
    cases h1 <;> cases h2 <;> cases cfg.onlyValidHeaders <;> simp
  · intro x hx
    rw [key] at hx
    rw [p1, ← c3, ← c4]
    rw [(select_spec).2] at hx
    rcases hx with ⟨rfl, -⟩ | ⟨-, ⟨k, rfl⟩, rfl⟩ <;> simp

/-- **C44**, the successes. If opening succeeds, the reported statuses of both headers are those of the bytes at LBA 1 and in
the last block, at least one is valid (both under `only_valid_headers`), and the header in use is the primary if that is
valid and else the backup. -/
theorem c44_selected (m : Mode) (cfg : GptConfig) (d d' : Dev) (s : GptDisk) (hf : d.faults = []) (hp : d.pos < 2 ^ 64)
    (hlen : d.data.length < 2 ^ 64) (hok : openFromDevice m cfg d = (.ok s, d')) :
    (∀ h, s.primaryHeader = .ok h ↔ Spec.PrimaryValid cfg.lbSize d.data ∧ Spec.HeaderAt d.data cfg.lbSize.usize h) ∧
    (∀ h, s.backupHeader = .ok h ↔ Spec.BackupValid cfg.lbSize d.data ∧
      Spec.HeaderAt d.data (Spec.lastBlockOffset cfg.lbSize d.data) h) ∧
    (∀ e, s.primaryHeader = .error e ↔ (readPrimaryHeader cfg.lbSize d).1 = .err e) ∧
    (∀ e, s.backupHeader = .error e ↔ (readBackupHeader cfg.lbSize d).1 = .err e) ∧
    (Spec.PrimaryValid cfg.lbSize d.data ∨ Spec.BackupValid cfg.lbSize d.data) ∧
    (cfg.onlyValidHeaders = true → Spec.PrimaryValid cfg.lbSize d.data ∧ Spec.BackupValid cfg.lbSize d.data) ∧
    (∃ h, s.header (ε := Empty) = .ok h ∧
      (Spec.PrimaryValid cfg.lbSize d.data → Spec.HeaderAt d.data cfg.lbSize.usize h) ∧
      (¬ Spec.PrimaryValid cfg.lbSize d.data → Spec.HeaderAt d.data (Spec.lastBlockOffset cfg.lbSize d.data) h)) := by
  obtain ⟨h1, h2, c1, c2, c3, c4, e⟩ := open_headers (m := m) (cfg := cfg) hf hp hlen
  rw [hok] at e
  cases hsel : selectHeader cfg.onlyValidHeaders h1 h2 with
  | error y => rw [hsel] at e; simp at e
  | ok h =>
    rw [hsel] at e
    obtain ⟨f1, f2⟩ := openRest_ok e.symm
    have q1 : s.primaryHeader = h1 := by rw [f2]
    have q2 : s.backupHeader = h2 := by rw [f2]
    have hh : s.header (ε := Empty) = .ok h := by
      have : s.tryHeader = .ok h := by unfold GptDisk.tryHeader; rw [q1, q2]; exact select_try hsel
      unfold GptDisk.header
      rw [this]
    rw [q1, q2]
    rw [(select_spec).1] at hsel
    refine ⟨c1, c2, c3, c4, ?_, ?_, h, hh, ?_, ?_⟩
    · rcases hsel with ⟨r, -⟩ | ⟨-, -, r⟩
      · exact .inl ((c1 h).mp r).1
      · exact .inr ((c2 h).mp r).1
    · intro hb
      rcases hsel with ⟨r, r2⟩ | ⟨r, -, -⟩
      · obtain ⟨k, hk⟩ := r2 hb
        exact ⟨((c1 h).mp r).1, ((c2 k).mp hk).1⟩
      · rw [hb] at r; cases r
    · intro hv
      rcases hsel with ⟨r, -⟩ | ⟨-, ⟨x, hx⟩, -⟩
      · exact ((c1 h).mp r).2
      · obtain ⟨k, hk⟩ := validAt_header hv
        rw [(c1 k).mpr ⟨hv, hk⟩] at hx
        cases hx
    · intro hv
      rcases hsel with ⟨r, -⟩ | ⟨-, -, r⟩
      · exact absurd ((c1 h).mp r).1 hv
      · exact ((c2 h).mp r).2

/-! ## C45 -/

/-- **C45**. Whatever the faults: after a successful open the GUID is that of the header in use, the partitions are in order of
id, each has an id in `1..=num_parts` and the fields stored in slot `id - 1`, and exactly the slots with a non-zero byte
appear. -/
theorem c45_reflects (m : Mode) (cfg : GptConfig) (d d' : Dev) (s : GptDisk) (hok : openFromDevice m cfg d = (.ok s, d')) :
    ∃ h, s.header (ε := Empty) = .ok h ∧ s.guid = h.diskGuid ∧ s.config = cfg ∧ d'.data = d.data ∧ s.device = d' ∧
      PMap.Sorted s.partitions ∧
      (∀ k p, (k, p) ∈ s.partitions → 1 ≤ k.toNat ∧ k.toNat ≤ h.numParts.toNat ∧
        Spec.SlotFull d.data (h.partStart.toNat * cfg.lbSize.usize) (k.toNat - 1) ∧
        Spec.EntryAt d.data (h.partStart.toNat * cfg.lbSize.usize + 128 * (k.toNat - 1)) p ∧
        p.partType = PType.ofGuid p.partType.guid) ∧
      (∀ k : UInt32, 1 ≤ k.toNat → k.toNat ≤ h.numParts.toNat →
        Spec.SlotFull d.data (h.partStart.toNat * cfg.lbSize.usize) (k.toNat - 1) → ∃ p, (k, p) ∈ s.partitions) := by
  obtain ⟨h, d2, -, -, -, h4, h5, h6, h7, h8, h9, h10⟩ := openFromDevice_ok hok
  obtain ⟨hs, h128, hd, hl, hc, ht⟩ := fileReadPartitions_ok h10
  rw [h9] at hd hl ht
  have hn := h.numParts.toNat_lt
  have hz : (0 : UInt32).toNat = 0 := rfl
  have hfit : ∀ j, j < h.numParts.toNat → h.partStart.toNat * cfg.lbSize.usize + 128 * j + 128 ≤ d.data.length := by
    intro j hj
    rcases hl with hl | hl
    · rw [hl] at hj; omega
    · omega
  refine ⟨h, by unfold GptDisk.header; rw [h4], h5, h6, hd, h8, ?_, fun k p hm => ?_, fun k h1 h2 hfull => ?_⟩
  · rw [ht]; exact tableAt_sorted _ _ (by omega)
  · rw [ht, mem_tableAt _ _ (by omega)] at hm
    obtain ⟨j, -, j2, j3, j4, rfl⟩ := hm
    have hf := hfit j (by omega)
    have hj : k.toNat - 1 = j := by omega
    rw [hj]
    refine ⟨by omega, by omega, (slotFull_iff hf).mpr j4, entryAt_decode hf, ?_⟩
    show PType.ofGuid _ = PType.ofGuid (PType.ofGuid _).guid
    rw [PType.ofGuid_guid]
  · have hf := hfit (k.toNat - 1) (by omega)
    refine ⟨partitionOfBytes (slice d.data (h.partStart.toNat * cfg.lbSize.usize + 128 * (k.toNat - 1)) 128), ?_⟩
    rw [ht, mem_tableAt _ _ (by omega)]
    exact ⟨k.toNat - 1, by omega, by omega, by omega, (slotFull_iff hf).mp hfull, rfl⟩

/-! ## C46 -/

/-- The full statement of C46. -/
def C46 : Prop := ∀ (m : Mode) (cfg : GptConfig) (d : Dev), (openFromDevice m cfg d).1 ≠ .panic

/-- The sealed header is what is read back from its encoding. -/
theorem encoded_valid {h : Header} (hs : h.signature = Spec.signature) (c : UInt32) (hr : h.reserved = 0) (p q : Bytes) :
    readHeaderAt (p ++ h.encode c ++ q) p.length = .ok (h.sealed c) := by
  have h8 : h.signature.length = 8 := by rw [hs]; rfl
  have hl : (h.encode c).length = 92 := Header.encode_length h8 c
  rw [readHeaderAt_ok]
  refine ⟨by simp only [List.length_append, hl]; omega, ?_⟩
  rw [List.append_assoc, slice_skip (Nat.le_refl _), Nat.sub_self, slice_head hl, Header.parse_encode hs]
  unfold Header.sealed
  simp [hr]

/-- An image: an empty block, `h` as the primary header with `crc` as the checksum of the array, and `rest`. -/
def imageOf (h : Header) (crc : UInt32) (rest : Bytes) : Bytes := zeros 512 ++ h.encode crc ++ (zeros 420 ++ rest)

theorem imageOf_primary {h : Header} (hs : h.signature = Spec.signature) (c : UInt32) (hr : h.reserved = 0) (rest : Bytes) :
    readHeaderAt (imageOf h c rest) 512 = .ok (h.sealed c) := by
  have := encoded_valid hs c hr (zeros 512) (zeros 420 ++ rest)
  rw [zeros_length] at this
  exact this

theorem imageOf_length {h : Header} (hs : h.signature = Spec.signature) (c : UInt32) (rest : Bytes) :
    (imageOf h c rest).length = 1024 + rest.length := by
  have hl : (h.encode c).length = 92 := Header.encode_length (by rw [hs]; rfl) c
  unfold imageOf
  simp only [List.length_append, zeros_length, hl]
  omega

/-- Opening an image of this form comes down to reading its table, if the primary header suffices. -/
theorem open_image {m : Mode} {cfg : GptConfig} {h : Header} (hs : h.signature = Spec.signature) {c : UInt32}
    (hr : h.reserved = 0) {rest : Bytes} (h1 : cfg.lbSize = .lb512) (h2 : cfg.onlyValidHeaders = false) {cap : Nat}
    (hl : rest.length < 2 ^ 63) :
    ∃ b, openFromDevice m cfg ⟨imageOf h c rest, 0, cap, [], []⟩ =
      openRest m cfg (.ok (h.sealed c)) b (h.sealed c) ⟨imageOf h c rest, 0, cap, [], []⟩ := by
  have hlen := imageOf_length hs c rest
  obtain ⟨a, b, e1, e2, e3⟩ := openFromDevice_nil m cfg (d := ⟨imageOf h c rest, 0, cap, [], []⟩) rfl (by show 0 < 2 ^ 64; decide)
    (by show (imageOf h c rest).length < _; omega)
  refine ⟨b, ?_⟩
  have ha : a = .ok (h.sealed c) := by
    rw [← ofExcept_ok, e1, h1]
    exact imageOf_primary hs c hr rest
  rw [e3, ha]
  have : selectHeader cfg.onlyValidHeaders (.ok (h.sealed c)) b = .ok (h.sealed c) := by
    rw [select_spec.1, h2]
    exact .inl ⟨rfl, by simp⟩
  rw [this]

/-- C46 fails: a valid header with 256-byte entries, which UEFI allows, makes `open_from_device` panic, in both modes. -/
theorem c46_fails : ¬ C46 := by
  intro hc
  obtain ⟨b, e⟩ := open_image (m := .release) (cfg := GptConfig.new) (h := { sampleHeader with partSize := 256 }) rfl (c := 7)
    rfl (rest := []) rfl rfl (cap := 1024) (by decide)
  apply hc .release GptConfig.new ⟨imageOf { sampleHeader with partSize := 256 } 7 [], 0, 1024, [], []⟩
  rw [e]
  unfold openRest fileReadPartitions
  simp only [M.bind_apply, M.mapErr_apply, M.lift_apply]
  have hm : checkedMul64 (Header.sealed { sampleHeader with partSize := 256 } 7).partStart GptConfig.new.lbSize.u64 = some 1024 := by
    decide
  rw [hm]
  simp only [Res.ofOption]
  rw [Dev.seekStart_nil (by exact rfl)]
  rfl

/-- A successful header read returns a valid header stored somewhere on the device, whatever the faults. -/
theorem read_stored {lb : LbSize} {d d' : Dev} {h : Header}
    (hr : readPrimaryHeader lb d = (.ok h, d') ∨ readBackupHeader lb d = (.ok h, d')) :
    ∃ off, Spec.ValidAt d.data off ∧ Spec.HeaderAt d.data off h := by
  have key : ∀ (off : UInt64) (d1 : Dev) (r : Except HeaderError Header) (d2 : Dev), d1.data = d.data →
      ((fileReadHeader off).attempt : M Dev HeaderError _) d1 = (.ok r, d2) → r = .ok h →
      ∃ off, Spec.ValidAt d.data off ∧ Spec.HeaderAt d.data off h := by
    intro off d1 r d2 hd ha hr
    subst hr
    rw [M.attempt_apply] at ha
    rcases hx : fileReadHeader off d1 with ⟨r, d3⟩
    rw [hx] at ha
    cases r with
    | ok x =>
      simp only [Prod.mk.injEq, Res.ok.injEq, Except.ok.injEq] at ha
      obtain ⟨rfl, rfl⟩ := ha
      rw [← hd]
      rcases c60_somewhere_partial off d1 d3 x hx with h1 | h1
      · exact ⟨_, h1.2, h1.1⟩
      · exact ⟨_, h1.2, h1.1⟩
    | err x => simp at ha
    | panic => simp at ha
  rcases hr with hr | hr
  · unfold readPrimaryHeader at hr
    rw [M.bind_ok] at hr
    obtain ⟨p, d1, h1, hr⟩ := hr
    rw [M.bind_ok] at hr
    obtain ⟨r, d2, h2, hr⟩ := hr
    rw [M.bind_ok] at hr
    obtain ⟨_, d3, h3, hr⟩ := hr
    have q := (M.Pres.attempt (ε' := HeaderError) Dev.streamPosition_quiet) d
    rw [h1] at q
    refine key _ d1 r d2 q.data h2 ?_
    cases r with
    | ok x => simp only [M.pure_ok] at hr; rw [hr.1]
    | error x => simp [M.throw] at hr
  · unfold readBackupHeader at hr
    rw [M.bind_ok] at hr
    obtain ⟨p, d1, h1, hr⟩ := hr
    rw [M.bind_ok] at hr
    obtain ⟨l, d2, h2, hr⟩ := hr
    rw [M.bind_ok] at hr
    obtain ⟨o, d3, h3, hr⟩ := hr
    rw [M.bind_ok] at hr
    obtain ⟨r, d4, h4, hr⟩ := hr
    rw [M.bind_ok] at hr
    obtain ⟨_, d5, h5, hr⟩ := hr
    have q := (M.Pres.attempt (ε' := HeaderError) Dev.streamPosition_quiet) d
    rw [h1] at q
    have q2 := findBackupLba_quiet lb d1
    rw [h2] at q2
    rw [M.lift_ok] at h3
    obtain ⟨-, rfl⟩ := h3
    refine key _ _ r d4 (q2.data.trans q.data) h4 ?_
    cases r with
    | ok x => simp only [M.pure_ok] at hr; rw [hr.1]
    | error x => simp [M.throw] at hr

/-- **C46**, for images whose valid headers have 128-byte entries: opening never panics, whatever the other content and the
faults. In debug mode this also needs a device under 256 GiB or fewer than `2^31` entries. -/
theorem c46_partial (m : Mode) (cfg : GptConfig) (d : Dev)
    (h128 : ∀ off h, Spec.ValidAt d.data off → Spec.HeaderAt d.data off h → h.partSize = 128 ∧
      (m = .release ∨ h.numParts.toNat < 2 ^ 31 ∨ d.data.length < 2 ^ 38)) :
    (openFromDevice m cfg d).1 ≠ .panic := by
  obtain ⟨h1, h2, e1, e2, e3⟩ := openFromDevice_any m cfg d
  have q1 := readPrimaryHeader_quiet cfg.lbSize d
  have q2 := readBackupHeader_quiet cfg.lbSize (readPrimaryHeader cfg.lbSize d).2
  rw [e3]
  cases hsel : selectHeader cfg.onlyValidHeaders h1 h2 with
  | error e => simp
  | ok h =>
    have hst : ∃ off, Spec.ValidAt d.data off ∧ Spec.HeaderAt d.data off h := by
      rcases (select_spec.1 h).mp hsel with ⟨r, -⟩ | ⟨-, -, r⟩
      · exact read_stored (d' := (readPrimaryHeader cfg.lbSize d).2) (.inl (Prod.ext (by rw [← e1, r]; rfl) rfl))
      · rw [← q1.data]
        exact read_stored (d' := (readBackupHeader cfg.lbSize (readPrimaryHeader cfg.lbSize d).2).2)
          (.inr (Prod.ext (by rw [← e2, r]; rfl) rfl))
    obtain ⟨off, hv, ha⟩ := hst
    obtain ⟨k1, k2⟩ := h128 off h hv ha
    have hn := fileReadPartitions_noPanic (m := m) (lb := cfg.lbSize)
      (d := (readBackupHeader cfg.lbSize (readPrimaryHeader cfg.lbSize d).2).2) k1
      (by rw [q2.data, q1.data]; exact k2)
    simp only
    unfold openRest
    rw [M.bind_apply, M.mapErr_apply]
    rcases hx : fileReadPartitions m h cfg.lbSize (readBackupHeader cfg.lbSize (readPrimaryHeader cfg.lbSize d).2).2 with ⟨r, d1⟩
    rw [hx] at hn
    cases r with
    | ok t => simp [M.bind_apply]
    | err e => simp
    | panic => exact absurd rfl hn

/-! ## Examples -/

theorem slice_imageOf {h : Header} (hs : h.signature = Spec.signature) (c : UInt32) (rest : Bytes) (n : Nat) :
    slice (imageOf h c rest) 1024 n = slice rest 0 n := by
  have hl : (h.encode c).length = 92 := Header.encode_length (by rw [hs]; rfl) c
  unfold imageOf
  rw [← List.append_assoc, slice_append_right (by simp only [List.length_append, zeros_length, hl]; omega)]
  simp [zeros_length, hl]

/-- Any array of eight entries is opened from an image with the matching checksum. -/
theorem image_table (m : Mode) (arr : Bytes) (ha : arr.length = 1024) :
    ∃ p, fileReadPartitions m (sampleHeader.sealed (crc32 arr)) .lb512 ⟨imageOf sampleHeader (crc32 arr) arr, 0, 4096, [], []⟩ =
      (.ok (tableAt arr 0 8 0), ⟨imageOf sampleHeader (crc32 arr) arr, p, 4096, [], []⟩) := by
  have hlen := imageOf_length (h := sampleHeader) rfl (crc32 arr) arr
  have e1 : (sampleHeader.sealed (crc32 arr)).partStart.toNat * LbSize.lb512.usize = 1024 := by
    show (2 : UInt64).toNat * LbSize.lb512.usize = 1024
    decide
  have e2 : (sampleHeader.sealed (crc32 arr)).numParts.toNat = 8 := rfl
  obtain ⟨p, e⟩ := fileReadPartitions_nil (m := m) (h := sampleHeader.sealed (crc32 arr)) (lb := .lb512)
    (d := ⟨imageOf sampleHeader (crc32 arr) arr, 0, 4096, [], []⟩) rfl (by rw [e1]; omega) rfl
    (by rw [e1, e2]; show _ ≤ (imageOf sampleHeader (crc32 arr) arr).length; omega) (.inr (by rw [e2]; omega))
  refine ⟨p, ?_⟩
  rw [e, e1, e2, if_pos]
  · rw [tableAt_congr (data' := arr) (off' := 0)]
    intro j _ hj
    show slice (imageOf sampleHeader (crc32 arr) arr) _ _ = _
    have := slice_imageOf (h := sampleHeader) rfl (crc32 arr) arr 1024
    rw [← slice_slice (a := 1024) (n := 1024) (b := 128 * j) (k := 128) (by omega), this, slice_slice (by omega)]
  · show crc32 (slice (imageOf sampleHeader (crc32 arr) arr) _ _) = crc32 arr
    rw [slice_imageOf rfl, slice_zero_length ha]

theorem image_opens (m : Mode) (arr : Bytes) (ha : arr.length = 1024) :
    ∃ s d', openFromDevice m GptConfig.new ⟨imageOf sampleHeader (crc32 arr) arr, 0, 4096, [], []⟩ = (.ok s, d') ∧
      s.partitions = tableAt arr 0 8 0 ∧ s.guid = ⟨1, 2, 3, 4⟩ := by
  obtain ⟨b, e⟩ := open_image (m := m) (cfg := GptConfig.new) (h := sampleHeader) rfl (c := crc32 arr) rfl (rest := arr) rfl rfl
    (cap := 4096) (by omega)
  obtain ⟨p, e2⟩ := image_table m arr ha
  rw [e]
  unfold openRest
  rw [M.bind_apply, M.mapErr_apply]
  have h1 : GptConfig.new.lbSize = .lb512 := rfl
  rw [h1, e2]
  exact ⟨_, _, rfl, rfl, rfl⟩

/-- C09, C44, C45 on an image with one entry, in slot 2: it opens, and the entry has id 3. -/
example : ∃ s d', openFromDevice .debug GptConfig.new
      ⟨imageOf sampleHeader (crc32 (zeros 256 ++ List.replicate 128 1 ++ zeros 640)) (zeros 256 ++ List.replicate 128 1 ++ zeros 640),
        0, 4096, [], []⟩ = (.ok s, d') ∧ s.partitions.map (·.1) = [3] := by
  obtain ⟨s, d', h1, h2, -⟩ := image_opens .debug (zeros 256 ++ List.replicate 128 1 ++ zeros 640) (by simp [zeros_length])
  exact ⟨s, d', h1, by rw [h2]; decide +kernel⟩

/-- C09: one altered byte in the empty array of this image is reported. -/
example : (fileReadPartitions .debug (sampleHeader.sealed (crc32 (zeros 1024))) .lb512
      ⟨patch (imageOf sampleHeader (crc32 (zeros 1024)) (zeros 1024)) 1500 [1], 0, 4096, [], []⟩).1 =
    .err (.other "partition table CRC mismatch") := by
  obtain ⟨p, e⟩ := image_table .debug (zeros 1024) (zeros_length _)
  have hlen := imageOf_length (h := sampleHeader) rfl (crc32 (zeros 1024)) (zeros 1024)
  rw [zeros_length] at hlen
  refine c09_table .debug _ .lb512 _ _ _ _ 1500 e (.inr (by decide)) ⟨?_, fun i hi => ?_, 1500, by decide, by decide, ?_⟩ rfl
  · show (patch _ _ _).length = (imageOf _ _ _).length
    rw [patch_length, hlen]; simp
  · exact byteAt_patch_outside (by simp only [List.length_cons, List.length_nil]; omega)
  · show byteAt (patch _ _ _) _ ≠ byteAt (imageOf _ _ _) _
    rw [byteAt_patch_inside (by omega) (by simp)]
    have h1 := congrArg (fun b => byteAt b 476) (slice_imageOf (h := sampleHeader) rfl (crc32 (zeros 1024)) (zeros 1024) 1024)
    simp only [byteAt_slice, byteAt_zeros] at h1
    rw [if_pos (by omega), if_pos (by omega)] at h1
    rw [h1]
    decide

/-- C44, C46: an empty device is refused, without a panic. -/
example : ¬ Spec.PrimaryValid .lb512 (zeros 600) ∧ ¬ Spec.BackupValid .lb512 (zeros 600) ∧
    ∀ off, ¬ Spec.ValidAt (zeros 600) off := by
  have h : ∀ off, ¬ Spec.ValidAt (zeros 600) off := by
    intro off hv
    have h1 := congrArg (fun b => byteAt b 0) hv.signature
    simp only [byteAt_slice, byteAt_zeros] at h1
    revert h1
    decide
  exact ⟨h _, fun hb => h _ hb.2, h⟩

end Gpt
