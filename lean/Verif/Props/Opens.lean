import Verif.Props.Open
import Verif.Props.WriteHeader
import Verif.Props.Slots
import Verif.Props.Readers
import Verif.Props.Block0
import Verif.Props.Alloc
/-!
# When opening succeeds, and tables made with the standalone writers: C84, C85
-/

namespace Gpt

open Spec GptDisk

/-! ## Reading the array without faults -/

/-- The loop without faults: it ends with the table or at the end of the device. -/
theorem readEntries_runs {m : Mode} (n : Nat) {i : UInt32} {e : Nat} {parts : PMap} {d : Dev} (hf : d.faults = [])
    (hi : i.toNat + n < 2 ^ 32) (hp : 128 * e ≤ d.pos) (he : m = .release ∨ d.data.length < 2 ^ 38) :
    (n = 0 ∨ d.pos + 128 * n ≤ d.data.length → ∃ t, readEntries m n i e parts d = (.ok t, { d with pos := d.pos + 128 * n })) ∧
    (¬ (n = 0 ∨ d.pos + 128 * n ≤ d.data.length) → (readEntries m n i e parts d).1 = .err .unexpectedEof) := by
  induction n generalizing i e parts d with
  | zero => exact ⟨fun _ => ⟨parts, by cases d; simp [readEntries]⟩, fun h => absurd (.inl rfl) h⟩
  | succ n ih =>
    by_cases hroom : d.pos + 128 ≤ d.data.length
    · have hi1 : (i + 1).toNat = i.toNat + 1 := u32_succ (by omega)
      have h1 : (1 : UInt32).toNat = 1 := rfl
      have hpos : d.pos + 128 + 128 * n = d.pos + 128 * (n + 1) := by omega
      have hiff : (n + 1 = 0 ∨ d.pos + 128 * (n + 1) ≤ d.data.length) ↔ (n = 0 ∨ d.pos + 128 + 128 * n ≤ d.data.length) := by omega
      have ha : 128 * (e + 1) ≤ d.data.length → (arith m (decide (e + 1 < 2 ^ 31)) () : Res IoErr Unit) = .ok () := by
        intro hl
        unfold arith
        rcases he with rfl | he
        · simp
        · rw [if_pos]
          simp only [decide_eq_true_eq]
          omega
      unfold readEntries
      rw [M.bind_apply, Dev.readExact_nil hf hroom, hiff]
      simp only
      split
      · rw [M.bind_apply, M.lift_apply, ha (by omega)]
        simp only
        have := ih (i := i + 1) (e := e + 1) (parts := parts) (d := { d with pos := d.pos + 128 }) hf (by omega)
          (by show _ ≤ d.pos + 128; omega) he
        simp only [hpos] at this ⊢
        exact this
      · rw [M.bind_apply, M.lift_apply, add32_eq m (by omega)]
        simp only
        have := ih (i := i + 1) (e := e) (parts := PMap.insert (i + 1) (partitionOfBytes (slice d.data d.pos 128)) parts)
          (d := { d with pos := d.pos + 128 }) hf (by omega) (by show _ ≤ d.pos + 128; omega) he
        simp only [hpos] at this ⊢
        exact this
    · refine ⟨fun h => absurd h (by omega), fun _ => ?_⟩
      unfold readEntries
      rw [M.bind_apply, Dev.readExact_nil_err hf (by decide) hroom]

/-- What reading the array of `h` gives without faults. -/
inductive Spec.ArrayRead (h : Header) (lb : LbSize) (data : Bytes) : Res IoErr PMap → Prop where
  /-- the array starts beyond 2^64 bytes -/
  | far : 2 ^ 64 ≤ h.partStart.toNat * lb.usize → ArrayRead h lb data (.err (.other "partition overflow - start offset"))
  /-- entries of another size -/
  | entrySize : h.partStart.toNat * lb.usize < 2 ^ 64 → h.partSize.toNat ≠ 128 → ArrayRead h lb data .panic
  /-- the array is not all on the device -/
  | short : h.partStart.toNat * lb.usize < 2 ^ 64 → h.partSize.toNat = 128 → 0 < h.numParts.toNat →
      data.length < h.partStart.toNat * lb.usize + 128 * h.numParts.toNat → ArrayRead h lb data (.err .unexpectedEof)
  /-- the checksum is wrong -/
  | checksum : h.partStart.toNat * lb.usize < 2 ^ 64 → h.partSize.toNat = 128 →
      (0 < h.numParts.toNat → h.partStart.toNat * lb.usize + 128 * h.numParts.toNat ≤ data.length) →
      Gpt.crc32 (slice data (h.partStart.toNat * lb.usize) (128 * h.numParts.toNat)) ≠ h.crc32Parts →
      ArrayRead h lb data (.err (.other "partition table CRC mismatch"))
  /-- the table: the slots that are not zero -/
  | table (t : PMap) : h.partStart.toNat * lb.usize < 2 ^ 64 → h.partSize.toNat = 128 →
      (0 < h.numParts.toNat → h.partStart.toNat * lb.usize + 128 * h.numParts.toNat ≤ data.length) →
      Gpt.crc32 (slice data (h.partStart.toNat * lb.usize) (128 * h.numParts.toNat)) = h.crc32Parts →
      t.Pairwise (fun a b => a.1 < b.1) →
      (∀ k p, (k, p) ∈ t → 1 ≤ k.toNat ∧ k.toNat ≤ h.numParts.toNat ∧ SlotFull data (h.partStart.toNat * lb.usize) (k.toNat - 1) ∧
        EntryAt data (h.partStart.toNat * lb.usize + 128 * (k.toNat - 1)) p) →
      (∀ k : UInt32, 1 ≤ k.toNat → k.toNat ≤ h.numParts.toNat → SlotFull data (h.partStart.toNat * lb.usize) (k.toNat - 1) →
        ∃ p, (k, p) ∈ t) →
      ArrayRead h lb data (.ok t)

/-- The value of `file_read_partitions` without faults. -/
def arrayResult (h : Header) (lb : LbSize) (data : Bytes) : Res IoErr PMap :=
  if 2 ^ 64 ≤ h.partStart.toNat * lb.usize then .err (.other "partition overflow - start offset")
  else if h.partSize ≠ 128 then .panic
  else if ¬ (h.numParts.toNat = 0 ∨ h.partStart.toNat * lb.usize + 128 * h.numParts.toNat ≤ data.length) then .err .unexpectedEof
  else if crc32 (slice data (h.partStart.toNat * lb.usize) (128 * h.numParts.toNat)) ≠ h.crc32Parts then
    .err (.other "partition table CRC mismatch")
  else .ok (tableAt data (h.partStart.toNat * lb.usize) h.numParts.toNat 0)

theorem fileReadPartitions_runs {m : Mode} {h : Header} {lb : LbSize} {d : Dev} (hf : d.faults = [])
    (he : m = .release ∨ d.data.length < 2 ^ 38) : (fileReadPartitions m h lb d).1 = arrayResult h lb d.data := by
  have hzero : (0 : UInt32).toNat = 0 := rfl
  have hn := h.numParts.toNat_lt
  unfold arrayResult
  by_cases hs : 2 ^ 64 ≤ h.partStart.toNat * lb.usize
  · have hps : checkedMul64 h.partStart lb.u64 = none := by
      unfold checkedMul64
      rw [if_neg (by rw [lb_u64_toNat]; omega)]
    rw [if_pos hs]
    unfold fileReadPartitions
    simp only [M.bind_apply, M.lift_apply, hps]
    rfl
  rw [if_neg hs]
  have hps : checkedMul64 h.partStart lb.u64 = some (h.partStart * lb.u64) := by
    unfold checkedMul64
    rw [if_pos (by rw [lb_u64_toNat]; omega)]
  have hps2 : (h.partStart * lb.u64).toNat = h.partStart.toNat * lb.usize := by
    rw [UInt64.toNat_mul, lb_u64_toNat, Nat.mod_eq_of_lt (by omega)]
  unfold fileReadPartitions
  simp only [M.bind_apply, M.lift_apply, hps, Res.ofOption_some]
  rw [Dev.seekStart_nil hf]
  simp only
  by_cases h128 : h.partSize = 128
  swap
  · rw [if_pos h128, if_pos h128]
    rfl
  rw [if_neg (by rw [h128]; simp), if_neg (by rw [h128]; simp)]
  simp only [M.bind_apply, M.lift_apply]
  have hr := readEntries_runs (m := m) h.numParts.toNat (i := 0) (e := 0) (parts := [])
    (d := { d with pos := (h.partStart * lb.u64).toNat }) hf (by rw [hzero]; omega) (by omega) he
  simp only [hps2] at hr
  by_cases hl : h.numParts.toNat = 0 ∨ h.partStart.toNat * lb.usize + 128 * h.numParts.toNat ≤ d.data.length
  swap
  · rw [if_pos hl]
    have := hr.2 hl
    simp only [hps2]
    rcases hx : readEntries m h.numParts.toNat 0 0 [] { d with pos := h.partStart.toNat * lb.usize } with ⟨r, d1⟩
    rw [hx] at this
    simp only at this
    subst this
    rfl
  rw [if_neg (fun hn => hn hl)]
  obtain ⟨t, ht⟩ := hr.1 hl
  have htt := (readEntries_ok (off := h.partStart.toNat * lb.usize) h.numParts.toNat (by rw [hzero]; omega)
    (by show h.partStart.toNat * lb.usize = _; rfl) (by simp) ht).1
  simp only [hps2, ht]
  rw [Dev.seekStart_nil (by exact hf)]
  simp only
  rw [h128, checkedMul_count]
  simp only [Res.ofOption_some]
  rw [count128]
  have hrd : ∃ d2, Dev.readExact (h.numParts.toNat * 128) { d with pos := (h.partStart * lb.u64).toNat } =
      (.ok (slice d.data (h.partStart.toNat * lb.usize) (128 * h.numParts.toNat)), d2) := by
    rcases hl with hl | hl
    · rw [hl]
      exact ⟨{ d with pos := (h.partStart * lb.u64).toNat }, by unfold Dev.readExact; rw [if_pos (by omega)]; simp only [slice, Nat.mul_zero, List.take_zero]⟩
    · rw [Dev.readExact_nil (by exact hf) (by show (h.partStart * lb.u64).toNat + _ ≤ d.data.length; rw [hps2]; omega)]
      exact ⟨_, by simp only [hps2, Nat.mul_comm h.numParts.toNat 128]; rfl⟩
  obtain ⟨d2, hd2⟩ := hrd
  rw [hd2]
  simp only
  by_cases hc : crc32 (slice d.data (h.partStart.toNat * lb.usize) (128 * h.numParts.toNat)) = h.crc32Parts
  · rw [if_neg (by rw [hc]; simp), if_neg (by rw [hc]; simp), M.pure_apply, htt]
    rfl
  · rw [if_pos hc, if_pos hc]
    rfl

theorem arrayResult_spec (h : Header) (lb : LbSize) (data : Bytes) : ArrayRead h lb data (arrayResult h lb data) := by
  have e128 : (128 : UInt32).toNat = 128 := rfl
  have hn := h.numParts.toNat_lt
  unfold arrayResult
  split
  · exact .far ‹_›
  split
  · rename_i h1 h2
    exact .entrySize (by omega) fun e => h2 (UInt32.toNat_inj.mp e)
  rename_i h2
  have h2 : h.partSize.toNat = 128 := by rw [Decidable.not_not.mp h2]; rfl
  split
  · exact .short (by omega) h2 (by omega) (by omega)
  split
  · exact .checksum (by omega) h2 (by omega) ‹_›
  rename_i h1 h3 h4
  have hfit : ∀ j, j < h.numParts.toNat → h.partStart.toNat * lb.usize + 128 * j + 128 ≤ data.length := by omega
  refine .table _ (by omega) h2 (by omega) (Decidable.not_not.mp h4) (tableAt_sorted _ _ (by omega)) (fun k p hm => ?_) fun k h1 h2 hfull => ?_
  · rw [mem_tableAt _ _ (by omega)] at hm
    obtain ⟨j, -, j2, j3, j4, rfl⟩ := hm
    have hf := hfit j (by omega)
    have hj : k.toNat - 1 = j := by omega
    rw [hj]
    exact ⟨by omega, by omega, (slotFull_iff hf).mpr j4, entryAt_decode hf⟩
  · have hf := hfit (k.toNat - 1) (by omega)
    refine ⟨partitionOfBytes (slice data (h.partStart.toNat * lb.usize + 128 * (k.toNat - 1)) 128), ?_⟩
    rw [mem_tableAt _ _ (by omega)]
    exact ⟨k.toNat - 1, by omega, by omega, by omega, (slotFull_iff hf).mp hfull, rfl⟩

/-! ## C84 -/

/-- `h` is the header the table is read with: the primary one, or the backup one if the primary is not valid; with
`only_valid_headers` both have to be valid. -/
def Spec.Governs (cfg : GptConfig) (data : Bytes) (h : Header) : Prop :=
  (PrimaryValid cfg.lbSize data ∧ HeaderAt data cfg.lbSize.usize h ∧ (cfg.onlyValidHeaders = true → BackupValid cfg.lbSize data)) ∨
  (cfg.onlyValidHeaders = false ∧ ¬ PrimaryValid cfg.lbSize data ∧ BackupValid cfg.lbSize data ∧
    HeaderAt data (lastBlockOffset cfg.lbSize data) h)

/-- The result of opening, apart from the device in it. -/
inductive Spec.Opened (cfg : GptConfig) (data : Bytes) : Res GptError GptDisk → Prop where
  | noHeader (e : HeaderError) : (∀ h, ¬ Governs cfg data h) → Opened cfg data (.err (.header e))
  | noTable (h : Header) (e : IoErr) : Governs cfg data h → ArrayRead h cfg.lbSize data (.err e) → Opened cfg data (.err (.io e))
  | crash (h : Header) : Governs cfg data h → ArrayRead h cfg.lbSize data .panic → Opened cfg data .panic
  | disk (h : Header) (s : GptDisk) : Governs cfg data h → ArrayRead h cfg.lbSize data (.ok s.partitions) → s.guid = h.diskGuid →
      s.config = cfg → s.device.data = data → Opened cfg data (.ok s)

theorem open_value {m : Mode} {cfg : GptConfig} {d : Dev} (hf : d.faults = []) (hp : d.pos < 2 ^ 64) (hlen : d.data.length < 2 ^ 64)
    (he : m = .release ∨ d.data.length < 2 ^ 38) :
    (∀ h, Governs cfg d.data h → match arrayResult h cfg.lbSize d.data with
      | .ok t => ∃ s, (openFromDevice m cfg d).1 = .ok s ∧ s.partitions = t ∧ s.guid = h.diskGuid ∧ s.config = cfg ∧ s.device.data = d.data
      | .err e => (openFromDevice m cfg d).1 = .err (.io e)
      | .panic => (openFromDevice m cfg d).1 = .panic) ∧
    ((∀ h, ¬ Governs cfg d.data h) → ∃ e, (openFromDevice m cfg d).1 = .err (.header e)) := by
  obtain ⟨h1, h2, c1, c2, c3, c4, e⟩ := open_headers (m := m) (cfg := cfg) hf hp hlen
  have hsel := (select_spec (b := cfg.onlyValidHeaders) (h1 := h1) (h2 := h2)).1
  have hg : ∀ h, Governs cfg d.data h ↔ selectHeader cfg.onlyValidHeaders h1 h2 = .ok h := by
    intro h
    have p1 : PrimaryValid cfg.lbSize d.data ↔ ∃ h, h1 = .ok h :=
      ⟨fun hv => by obtain ⟨h, hh⟩ := validAt_header hv; exact ⟨h, (c1 h).mpr ⟨hv, hh⟩⟩, fun ⟨h, hh⟩ => ((c1 h).mp hh).1⟩
    have p2 : BackupValid cfg.lbSize d.data ↔ ∃ h, h2 = .ok h :=
      ⟨fun hv => by obtain ⟨h, hh⟩ := validAt_header hv.2; exact ⟨h, (c2 h).mpr ⟨hv, hh⟩⟩, fun ⟨h, hh⟩ => ((c2 h).mp hh).1⟩
    have p3 : (∃ e, h1 = .error e) ↔ ¬ PrimaryValid cfg.lbSize d.data := by
      rw [p1]
      cases h1 <;> simp
    rw [hsel, ← p2, p3, c1, c2]
    unfold Governs
    rw [and_assoc]
  constructor
  · intro h hh
    rw [e, (hg h).mp hh]
    simp only
    have hr := fileReadPartitions_runs (m := m) (h := h) (lb := cfg.lbSize) hf he
    have hq := (fileReadPartitions_quiet m h cfg.lbSize d).data
    unfold openRest
    simp only [M.bind_apply, M.mapErr_apply, M.get_apply, M.pure_apply]
    rw [← hr]
    generalize fileReadPartitions m h cfg.lbSize d = o at hq ⊢
    obtain ⟨r, d1⟩ := o
    cases r with
    | ok t => exact ⟨_, rfl, rfl, rfl, rfl, hq⟩
    | err e => rfl
    | panic => rfl
  · intro hno
    rw [e]
    cases hs : selectHeader cfg.onlyValidHeaders h1 h2 with
    | ok h => exact absurd ((hg h).mpr hs) (hno h)
    | error e => exact ⟨e, rfl⟩

/-- **C84**, the outcomes: what opening gives, from the bytes of the device alone. -/
theorem c84_outcome (m : Mode) (cfg : GptConfig) (d : Dev) (hf : d.faults = []) (hp : d.pos < 2 ^ 64) (hlen : d.data.length < 2 ^ 64)
    (he : m = .release ∨ d.data.length < 2 ^ 38) : Opened cfg d.data (openFromDevice m cfg d).1 := by
  obtain ⟨h1, h2⟩ := open_value (m := m) (cfg := cfg) hf hp hlen he
  by_cases hg : ∃ h, Governs cfg d.data h
  · obtain ⟨h, hg⟩ := hg
    have hs := arrayResult_spec h cfg.lbSize d.data
    have h1 := h1 h hg
    cases hr : arrayResult h cfg.lbSize d.data with
    | ok t =>
      rw [hr] at hs h1
      obtain ⟨s, e1, rfl, e3, e4, e5⟩ := h1
      rw [e1]
      exact .disk h s hg hs e3 e4 e5
    | err e =>
      rw [hr] at hs h1
      simp only at h1
      rw [h1]
      exact .noTable h e hg hs
    | panic =>
      rw [hr] at hs h1
      simp only at h1
      rw [h1]
      exact .crash h hg hs
  · have hg : ∀ h, ¬ Governs cfg d.data h := fun h hh => hg ⟨h, hh⟩
    obtain ⟨e, he⟩ := h2 hg
    rw [he]
    exact .noHeader e hg

/-- **C84**, success: opening succeeds exactly when a header governs, its entries have 128 bytes, its array is on the device and has the
checksum of the header. -/
theorem c84_succeeds (m : Mode) (cfg : GptConfig) (d : Dev) (hf : d.faults = []) (hp : d.pos < 2 ^ 64) (hlen : d.data.length < 2 ^ 64)
    (he : m = .release ∨ d.data.length < 2 ^ 38) :
    (∃ s, (openFromDevice m cfg d).1 = .ok s) ↔ ∃ h, Governs cfg d.data h ∧ h.partSize.toNat = 128 ∧
      h.partStart.toNat * cfg.lbSize.usize < 2 ^ 64 ∧
      (0 < h.numParts.toNat → h.partStart.toNat * cfg.lbSize.usize + 128 * h.numParts.toNat ≤ d.data.length) ∧
      crc32 (slice d.data (h.partStart.toNat * cfg.lbSize.usize) (128 * h.numParts.toNat)) = h.crc32Parts := by
  constructor
  · rintro ⟨s, hs⟩
    have := c84_outcome m cfg d hf hp hlen he
    rw [hs] at this
    cases this with
    | disk h _ hg ha =>
      cases ha with
      | table _ a b c e => exact ⟨h, hg, b, a, c, e⟩
  · rintro ⟨h, hg, a, b, c, e⟩
    have h1 := (open_value (m := m) (cfg := cfg) hf hp hlen he).1 h hg
    have : arrayResult h cfg.lbSize d.data = .ok (tableAt d.data (h.partStart.toNat * cfg.lbSize.usize) h.numParts.toNat 0) := by
      unfold arrayResult
      rw [if_neg (by omega), if_neg (fun hn => hn (UInt32.toNat_inj.mp a)), if_neg (by omega), if_neg (fun hn => hn e)]
    rw [this] at h1
    obtain ⟨s, hs, -⟩ := h1
    exact ⟨s, hs⟩

theorem governs_unique {cfg : GptConfig} {data : Bytes} {h h' : Header} (h1 : Governs cfg data h) (h2 : Governs cfg data h') : h = h' := by
  have key : ∀ {off}, ValidAt data off → HeaderAt data off h → HeaderAt data off h' → h = h' := fun hv a b =>
    ((headerOfBytes_iff hv.fits).mpr a).symm.trans ((headerOfBytes_iff hv.fits).mpr b)
  rcases h1 with ⟨a, b, -⟩ | ⟨-, a, b, c⟩ <;> rcases h2 with ⟨a', b', -⟩ | ⟨-, a', b', c'⟩
  · exact key a b b'
  · exact absurd a a'
  · exact absurd a' a
  · exact key b.2 c c'

/-- **C84**, bytes: devices with the same bytes open in the same way, in both builds. -/
theorem c84_bytes (m m' : Mode) (cfg : GptConfig) (d d' : Dev) (hd : d'.data = d.data) (hf : d.faults = []) (hp : d.pos < 2 ^ 64)
    (hf' : d'.faults = []) (hp' : d'.pos < 2 ^ 64) (hlen : d.data.length < 2 ^ 64) (he : m = .release ∨ d.data.length < 2 ^ 38)
    (he' : m' = .release ∨ d.data.length < 2 ^ 38) : SameOpened (openFromDevice m cfg d).1 (openFromDevice m' cfg d').1 := by
  obtain ⟨h1, h2, a1, a2, a3⟩ := openFromDevice_nil m cfg hf hp hlen
  obtain ⟨h1', h2', b1, b2, b3⟩ := openFromDevice_nil m' cfg hf' hp' (by rw [hd]; exact hlen)
  have inj : ∀ {ε α : Type} {x y : Except ε α}, Res.ofExcept x = Res.ofExcept y → x = y := by
    intro ε α x y h
    cases x <;> cases y <;> simp [Res.ofExcept] at h <;> rw [h]
  rw [hd, ← a1] at b1
  rw [hd, ← a2] at b2
  obtain rfl := inj b1
  obtain rfl := inj b2
  rw [a3, b3]
  cases selectHeader cfg.onlyValidHeaders h1' h2' with
  | error e => exact rfl
  | ok h =>
    have r1 := fileReadPartitions_runs (m := m) (h := h) (lb := cfg.lbSize) hf he
    have r2 := fileReadPartitions_runs (m := m') (h := h) (lb := cfg.lbSize) hf' (by rw [hd]; exact he')
    rw [hd, ← r1] at r2
    unfold openRest
    simp only [M.bind_apply, M.mapErr_apply, M.get_apply, M.pure_apply]
    generalize fileReadPartitions m h cfg.lbSize d = o at *
    generalize fileReadPartitions m' h cfg.lbSize d' = o' at *
    obtain ⟨r, e⟩ := o
    obtain ⟨r', e'⟩ := o'
    simp only at r2
    subst r2
    cases r' with
    | ok t => exact rfl
    | err e => exact rfl
    | panic => trivial

/-! ## C85 -/

/-- The table of 128 slots from LBA 2 on. -/
structure Spec.HoldsSlots (lb : LbSize) (data : Bytes) (t : PMap) : Prop where
  keys : t.Pairwise (fun a b => a.1 < b.1)
  found : ∀ k p, (k, p) ∈ t → 1 ≤ k.toNat ∧ k.toNat ≤ 128 ∧ SlotFull data (2 * lb.usize) (k.toNat - 1) ∧
    EntryAt data (2 * lb.usize + 128 * (k.toNat - 1)) p
  all : ∀ k : UInt32, 1 ≤ k.toNat → k.toNat ≤ 128 → SlotFull data (2 * lb.usize) (k.toNat - 1) → ∃ p, (k, p) ∈ t

theorem num_congr {a b : Bytes} {off n : Nat} (h : slice a off n = slice b off n) : num a off n = num b off n := by
  unfold num
  rw [h]

/-- A header written over whatever the array holds makes the device readable. -/
theorem header_open {m m' : Mode} {uuid : Option Uuid} {fresh g : Uuid} {lb : LbSize} {d d' r : Dev} {cfg : GptConfig}
    (hp : d.pos < 2 ^ 64) (hlen : d.data.length < 2 ^ 64) (hw : writeHeader m uuid fresh lb d = (.ok g, d')) (hr : r.data = d'.data)
    (hf : r.faults = []) (hrp : r.pos < 2 ^ 64) (he : m' = .release ∨ r.data.length < 2 ^ 38) (hlb : cfg.lbSize = lb)
    (hv : cfg.onlyValidHeaders = false) :
    ∃ s, (openFromDevice m' cfg r).1 = .ok s ∧ s.guid = g ∧ s.config = cfg ∧ s.device.data = d'.data ∧ HoldsSlots lb d'.data s.partitions ∧
      g = uuid.getD fresh ∧ d'.data.length = d.data.length ∧ 2 * lb.usize + 16384 ≤ d.data.length ∧
      ∀ i, i < lb.usize ∨ 2 * lb.usize ≤ i → byteAt d'.data i = byteAt d.data i := by
  obtain ⟨hg, hl, hout, h, hh, hguid, hcur, hbak, hps, hnp, hsz, hfu, hlu, hle, hcrc⟩ :=
    c57_write_header m uuid fresh g lb d d' r hp hlen hw hr hf hrp
  have hrl : r.data.length = d.data.length := by rw [hr, hl]
  obtain ⟨hva, hha⟩ := ((c05_primary_backup lb r hf hrp (by omega)).1 h).mp hh
  have hgov : Governs cfg r.data h := by
    left
    rw [hlb]
    exact ⟨hva, hha, fun e => by rw [hv] at e; cases e⟩
  have e2 : h.partStart.toNat = 2 := by rw [hps]; rfl
  have e128 : h.numParts.toNat = 128 := by rw [hnp]; rfl
  have h16 : 16384 ≤ defaultArrayBlocks lb * lb.usize := by cases lb <;> decide
  have hsize : 2 * lb.usize + 16384 ≤ d.data.length := by
    have h1 : (2 + defaultArrayBlocks lb) * lb.usize ≤ d.data.length / lb.usize * lb.usize := Nat.mul_le_mul_right _ (by omega)
    have h2 := Nat.div_mul_le_self d.data.length lb.usize
    rw [Nat.add_mul] at h1
    omega
  have hsl : slice d'.data (2 * lb.usize) 16384 = slice d.data (2 * lb.usize) 16384 := by
    refine slice_eq_of_byteAt (by omega) (slice_length_of_le (by omega)) fun j hj => ?_
    rw [byteAt_slice, if_pos hj]
    exact hout _ (.inr (by omega))
  obtain ⟨s, hs⟩ := (c84_succeeds m' cfg r hf hrp (by omega) he).mpr ⟨h, hgov, by rw [hsz]; rfl, by rw [hlb, e2]; omega,
    fun _ => by rw [hlb, e2, e128]; omega, by rw [hlb, e2, e128, hr]; exact (congrArg crc32 hsl).trans hcrc.symm⟩
  have ho := c84_outcome m' cfg r hf hrp (by omega) he
  rw [hs] at ho
  cases ho with
  | disk h' _ hg' ha hgd hc hdd =>
    obtain rfl := governs_unique hgov hg'
    refine ⟨s, hs, by rw [hgd, hguid], hc, by rw [hdd, hr], ?_, hg, hl, hsize, hout⟩
    cases ha with
    | table _ _ _ _ _ t1 t2 t3 =>
      rw [hlb, e2, e128, hr] at t2 t3
      exact ⟨t1, t2, t3⟩

/-- **C85**, header: after `write_header` on a file, opening the file succeeds; the disk has the GUID `write_header` returned, and its
partitions are what the 128 slots behind the header held before. -/
theorem c85_header (m m' : Mode) (fs fs' : Fs) (path : String) (uuid : Option Uuid) (fresh g : Uuid) (lb : LbSize) (cfg : GptConfig)
    (d d' r : Dev) (ho : fs path true = .ok d) (hp : d.pos < 2 ^ 64) (hlen : d.data.length < 2 ^ 64)
    (hw : writeHeaderPath m fs path uuid fresh lb = (.ok g, some d'))
    (ho' : fs' path cfg.writable = .ok r) (hr : r.data = d'.data) (hf : r.faults = []) (hrp : r.pos < 2 ^ 64)
    (he : m' = .release ∨ r.data.length < 2 ^ 38) (hlb : cfg.lbSize = lb) (hv : cfg.onlyValidHeaders = false) :
    g = uuid.getD fresh ∧ ∃ s, (openPath m' fs' cfg path).1 = .ok s ∧ s.guid = g ∧ HoldsSlots lb d.data s.partitions := by
  unfold writeHeaderPath withFile at hw
  rw [ho] at hw
  simp only [Prod.mk.injEq, Option.some.injEq] at hw
  obtain ⟨s, hs, hg, -, -, hsl, hge, hl, hsize, hout⟩ := header_open (cfg := cfg) hp hlen (Prod.ext hw.1 hw.2) hr hf hrp he hlb hv
  refine ⟨hge, { s with syncAll := true }, ?_, hg, hsl.keys, fun k p hm => ?_, fun k h1 h2 h3 => hsl.all k h1 h2 ?_⟩
  · unfold openPath withFile
    rw [ho']
    simp only
    rw [openFile_eq]
    rcases hx : openFromDevice m' cfg r with ⟨x, r'⟩
    rw [hx] at hs
    simp only at hs
    subst hs
    rfl
  · obtain ⟨a, b, ⟨i, hi, hne⟩, c⟩ := hsl.found k p hm
    have hpos : ∀ x, byteAt d'.data (2 * lb.usize + x) = byteAt d.data (2 * lb.usize + x) := fun x => hout _ (.inr (by omega))
    have hsl2 : ∀ x n, 2 * lb.usize ≤ x → x + n ≤ 2 * lb.usize + 16384 → slice d'.data x n = slice d.data x n := by
      intro x n hx hn
      refine slice_eq_of_byteAt (by omega) (slice_length_of_le (by omega)) fun j hj => ?_
      rw [byteAt_slice, if_pos hj]
      exact hout _ (.inr (by omega))
    refine ⟨a, b, ⟨i, hi, ?_⟩, ?_⟩
    · rw [Nat.add_assoc] at hne ⊢
      rwa [hpos] at hne
    · obtain ⟨f1, f2, f3, f4, f5, f6⟩ := c
      rw [hsl2 _ _ (by omega) (by omega)] at f1 f2
      rw [num_congr (hsl2 _ _ (by omega) (by omega))] at f3 f4 f5
      refine ⟨f1, f2, f3, f4, f5, ?_⟩
      rw [f6]
      congr 2
      refine List.map_congr_left fun i hi => ?_
      have := List.mem_range.mp hi
      unfold nameUnit
      rw [num_congr (hsl2 _ _ (by omega) (by omega))]
  · obtain ⟨i, hi, hne⟩ := h3
    refine ⟨i, hi, ?_⟩
    rw [hout _ (.inr (by omega))]
    exact hne

/-- **C85**, entries: `Partition::write` of an entry to slot `i` of the array at LBA 2, then `write_header`, then opening the file gives
the entry under id `i + 1`; no byte outside its slot was changed by `Partition::write`. -/
theorem c85_entry (m m' m'' : Mode) (fs0 fs fs' : Fs) (path : String) (p : Partition) (i : UInt64) (uuid : Option Uuid) (fresh g : Uuid)
    (lb : LbSize) (cfg : GptConfig) (d0 d1 d d' r : Dev) (ho0 : fs0 path true = .ok d0)
    (hw0 : p.writePath m'' fs0 path i 2 lb = (.ok (), some d1)) (hi : i.toNat < 128) (hty : p.partType.guid ≠ Uuid.nil)
    (ho : fs path true = .ok d) (hd : d.data = d1.data) (hp : d.pos < 2 ^ 64) (hlen : d.data.length < 2 ^ 64)
    (hw : writeHeaderPath m fs path uuid fresh lb = (.ok g, some d'))
    (ho' : fs' path cfg.writable = .ok r) (hr : r.data = d'.data) (hf : r.faults = []) (hrp : r.pos < 2 ^ 64)
    (he : m' = .release ∨ r.data.length < 2 ^ 38) (hlb : cfg.lbSize = lb) (hv : cfg.onlyValidHeaders = false) :
    (∀ x, x < 2 * lb.usize + 128 * i.toNat ∨ 2 * lb.usize + 128 * i.toNat + 128 ≤ x → byteAt d1.data x = byteAt d0.data x) ∧
    ∃ s q, (openPath m' fs' cfg path).1 = .ok s ∧ s.guid = g ∧ HoldsSlots lb d1.data s.partitions ∧
      (UInt32.ofNat (i.toNat + 1), q) ∈ s.partitions ∧ SameEntry p q := by
  obtain ⟨-, s, hs, hg, hsl⟩ := c85_header m m' fs fs' path uuid fresh g lb cfg d d' r ho hp hlen hw ho' hr hf hrp he hlb hv
  rw [hd] at hsl
  unfold Partition.writePath withFile at hw0
  rw [ho0] at hw0
  simp only [Prod.mk.injEq, Option.some.injEq] at hw0
  have hw0 : p.writeToDevice m'' i 2 lb 128 d0 = (.ok (), d1) := Prod.ext hw0.1 hw0.2
  have e2 : (2 : UInt64).toNat = 2 := rfl
  have e128 : (128 : UInt32).toNat = 128 := rfl
  have hlbs : lb.usize ≤ 4096 := by cases lb <;> decide
  have hst := c56_entry_partial m'' p i 2 lb 128 d0 d1 (by rw [e2, e128]; omega) hw0
  rw [e2, e128, Nat.mul_comm i.toNat] at hst
  have hl1 := hst.length
  rw [if_neg (by decide)] at hl1
  have hb : slice d1.data (2 * lb.usize + 128 * i.toNat) 128 = p.asBytes 128 :=
    slice_eq_of_byteAt (by omega) (Partition.asBytes_length ..) fun j hj => hst.inside j hj
  have hk : (UInt32.ofNat (i.toNat + 1)).toNat = i.toNat + 1 := UInt32.toNat_ofNat_of_lt' (by show _ < 2 ^ 32; omega)
  have hfull : SlotFull d1.data (2 * lb.usize) i.toNat := by
    refine (slotFull_iff (by omega)).mpr fun hz => ?_
    rw [hb] at hz
    have h1 : SameEntry p (partitionOfBytes (p.asBytes 128)) := by
      rw [Partition.partitionOfBytes_asBytes]
      exact storedPart_same p
    rw [hz] at h1
    have h2 : (partitionOfBytes (zeros 128)).partType.guid = Uuid.nil := by decide +kernel
    exact hty (h1.type.symm.trans h2)
  obtain ⟨q, hq⟩ := hsl.all (UInt32.ofNat (i.toNat + 1)) (by omega) (by omega) (by rw [hk]; exact hfull)
  refine ⟨hst.outside, s, q, hs, hg, hsl, hq, ?_⟩
  have hqe := (hsl.found _ q hq).2.2.2
  rw [hk, Nat.add_sub_cancel] at hqe
  have hde := entryAt_decode (data := d1.data) (off := 2 * lb.usize + 128 * i.toNat) (by omega)
  have hse : SameEntry p (partitionOfBytes (slice d1.data (2 * lb.usize + 128 * i.toNat) 128)) := by
    rw [hb, Partition.partitionOfBytes_asBytes]
    exact storedPart_same p
  generalize partitionOfBytes (slice d1.data (2 * lb.usize + 128 * i.toNat) 128) = q0 at hde hse
  have ginj : ∀ {u v : Uuid} {off}, off + 16 ≤ d1.data.length → guidBytes u = (slice d1.data off 16).map UInt8.toNat →
      guidBytes v = (slice d1.data off 16).map UInt8.toNat → u = v := fun hl a b =>
    ((ofDisk_iff hl).mpr a).symm.trans ((ofDisk_iff hl).mpr b)
  refine ⟨?_, ?_, ?_, ?_, ?_, ?_⟩
  · rw [← hse.type]; exact ginj (by omega) hqe.type hde.type
  · rw [← hse.guid]; exact ginj (by omega) hqe.guid hde.guid
  · rw [← hse.first]; exact UInt64.toNat_inj.mp (hqe.first.trans hde.first.symm)
  · rw [← hse.last]; exact UInt64.toNat_inj.mp (hqe.last.trans hde.last.symm)
  · rw [← hse.flags]; exact UInt64.toNat_inj.mp (hqe.flags.trans hde.flags.symm)
  · rw [← hse.name, hqe.name, hde.name]

/-- **C85**, order: an entry changed with `Partition::write` *after* the header was written, within four consecutive bytes, makes the
device unreadable. The array lies behind the primary header and before the last block. -/
theorem c85_stale (m m' m'' : Mode) (cfg : GptConfig) (h : Header) (p : Partition) (i : UInt64) (d d1 r : Dev) (s : GptDisk) (x : Nat)
    (hf : d.faults = []) (hp : d.pos < 2 ^ 64) (hlen : d.data.length < 2 ^ 64) (he : m' = .release ∨ d.data.length < 2 ^ 38)
    (ho : (openFromDevice m cfg d).1 = .ok s) (hh : s.header (ε := Empty) = .ok h)
    (hlo : 2 ≤ h.partStart.toNat)
    (hhi : h.partStart.toNat * cfg.lbSize.usize + 128 * h.numParts.toNat ≤ lastBlockOffset cfg.lbSize d.data)
    (hi : i.toNat < h.numParts.toNat) (hw : p.write m'' i h.partStart cfg.lbSize d = (.ok (), d1))
    (hx : ∀ j, j < 128 → j < x ∨ x + 4 ≤ j → byteAt (p.asBytes 128) j = byteAt d.data (h.partStart.toNat * cfg.lbSize.usize + 128 * i.toNat + j))
    (hne : ∃ j, j < 128 ∧ byteAt (p.asBytes 128) j ≠ byteAt d.data (h.partStart.toNat * cfg.lbSize.usize + 128 * i.toNat + j))
    (hr : r.data = d1.data) (hrf : r.faults = []) (hrp : r.pos < 2 ^ 64) :
    (openFromDevice m' cfg r).1 = .err (.io (.other "partition table CRC mismatch")) := by
  have hpos := lb_pos cfg.lbSize
  have hge : 512 ≤ cfg.lbSize.usize := by cases cfg.lbSize <;> decide
  have hlast : lastBlockOffset cfg.lbSize d.data + 1 ≤ d.data.length := by
    have h1 : 1 ≤ d.data.length / cfg.lbSize.usize := by
      rcases Nat.eq_zero_or_pos (d.data.length / cfg.lbSize.usize) with e | e
      · unfold lastBlockOffset at hhi
        rw [e] at hhi
        omega
      · exact e
    have h2 := Nat.div_mul_le_self d.data.length cfg.lbSize.usize
    unfold lastBlockOffset
    rw [Nat.sub_mul]
    have h3 : 1 * cfg.lbSize.usize ≤ d.data.length / cfg.lbSize.usize * cfg.lbSize.usize := Nat.mul_le_mul_right _ h1
    omega
  have hstart : 2 * cfg.lbSize.usize ≤ h.partStart.toNat * cfg.lbSize.usize := Nat.mul_le_mul_right _ hlo
  have e128 : (128 : UInt32).toNat = 128 := rfl
  have hst := c56_entry_partial m'' p i h.partStart cfg.lbSize 128 d d1 (by rw [e128]; omega) hw
  rw [e128, Nat.mul_comm i.toNat] at hst
  have hl1 := hst.length
  rw [if_neg (by decide), Nat.max_eq_left (by omega)] at hl1
  obtain ⟨h1, h2, a1, a2, a3⟩ := openFromDevice_nil m cfg hf hp hlen
  obtain ⟨h1', h2', b1, b2, b3⟩ := openFromDevice_nil m' cfg hrf hrp (by rw [hr, hl1]; exact hlen)
  have same : ∀ off, off + 92 ≤ 2 * cfg.lbSize.usize ∨ lastBlockOffset cfg.lbSize d.data ≤ off →
      readHeaderAt r.data off = readHeaderAt d.data off := by
    intro off hoff
    unfold readHeaderAt
    rw [hr, hl1]
    split
    · congr 1
      refine slice_eq_of_byteAt (by omega) (slice_length_of_le (by omega)) fun j hj => ?_
      rw [byteAt_slice, if_pos hj]
      exact hst.outside _ (by omega)
    · rfl
  have inj : ∀ {ε α : Type} {x y : Except ε α}, Res.ofExcept x = Res.ofExcept y → x = y := by
    intro ε α x y h
    cases x <;> cases y <;> simp [Res.ofExcept] at h <;> rw [h]
  rw [same _ (.inl (by omega)), ← a1] at b1
  have e2 : readBackupAt r.data cfg.lbSize = readBackupAt d.data cfg.lbSize := by
    unfold readBackupAt
    rw [hr, hl1, ← hr]
    split
    · rfl
    · exact same _ (.inr (Nat.le_of_eq rfl))
  rw [e2, ← a2] at b2
  obtain rfl := inj b1
  obtain rfl := inj b2
  cases hsel : selectHeader cfg.onlyValidHeaders h1' h2' with
  | error e =>
    rw [a3, hsel] at ho
    cases ho
  | ok h' =>
    rw [a3, hsel] at ho
    obtain ⟨f1, f2⟩ := openRest_ok (Prod.ext ho rfl : openRest m cfg h1' h2' h' d = (.ok s, _))
    obtain rfl : h' = h := by
      have ht : s.tryHeader = .ok h' := by
        rw [f2]
        exact select_try hsel
      exact Except.ok.inj (ht.symm.trans (header_ok_iff.mp hh))
    have hhit : ArrayHit h' cfg.lbSize d.data r.data (h'.partStart.toNat * cfg.lbSize.usize + 128 * i.toNat + x) := by
      refine ⟨by rw [hr, hl1], fun y hy => ?_, ?_⟩
      · rw [hr]
        by_cases hin : h'.partStart.toNat * cfg.lbSize.usize + 128 * i.toNat ≤ y ∧ y < h'.partStart.toNat * cfg.lbSize.usize + 128 * i.toNat + 128
        · obtain ⟨j, rfl⟩ := Nat.exists_eq_add_of_le hin.1
          rw [hst.inside j (by omega)]
          exact hx j (by omega) (by omega)
        · exact hst.outside y (by omega)
      · obtain ⟨j, hj, hjn⟩ := hne
        refine ⟨h'.partStart.toNat * cfg.lbSize.usize + 128 * i.toNat + j, by omega, by omega, ?_⟩
        rw [hr, hst.inside j hj]
        exact hjn
    obtain ⟨g1, g2, -, g4, g5, -⟩ := fileReadPartitions_ok f1
    have hres : arrayResult h' cfg.lbSize r.data = .err (.other "partition table CRC mismatch") := by
      unfold arrayResult
      rw [if_neg (by omega), if_neg (fun hn => hn g2), if_neg (fun hn => hn (.inr (by rw [hr, hl1]; omega))), if_pos]
      intro e
      exact arrayHit_crc hhit (by omega) (e.trans g5.symm)
    have hrd := fileReadPartitions_runs (m := m') (h := h') (lb := cfg.lbSize) hrf (by rw [hr, hl1]; exact he)
    rw [b3, hsel]
    unfold openRest
    simp only [M.bind_apply, M.mapErr_apply]
    rcases hq : fileReadPartitions m' h' cfg.lbSize r with ⟨o, r'⟩
    rw [hq, hres] at hrd
    simp only at hrd
    subst hrd
    rfl

/-! ## The hypotheses are met -/

/-- A file of 68 blocks: entry 3 is written, then the header; then the file can be opened and holds the entry under id 4. Changing the
start of the entry once more makes it unreadable. -/
example (m : Mode) (d0 : Dev) (h0 : d0 = ⟨zeros 34816, 0, 34816, [], []⟩) : ∃ (d1 d2 d3 : Dev) (s : GptDisk) (q : Partition),
    (exPart 40 50).writePath m (fun _ _ => .ok d0) "f" 3 2 .lb512 = (.ok (), some d1) ∧
    writeHeaderPath m (fun _ _ => .ok { d0 with data := d1.data }) "f" none ⟨1, 2, 3, 4⟩ .lb512 = (.ok ⟨1, 2, 3, 4⟩, some d2) ∧
    (openPath m (fun _ _ => .ok { d0 with data := d2.data }) GptConfig.new "f").1 = .ok s ∧
    (4, q) ∈ s.partitions ∧ SameEntry (exPart 40 50) q ∧
    (exPart 41 50).write m 3 2 .lb512 { d0 with data := d2.data } = (.ok (), d3) ∧
    (openFromDevice m GptConfig.new { d0 with data := d3.data }).1 = .err (.io (.other "partition table CRC mismatch")) := by
  have hl0 : d0.data.length = 34816 := by rw [h0]; exact zeros_length _
  have hf0 : d0.faults = [] := by rw [h0]
  have hp0 : d0.pos = 0 := by rw [h0]
  have hc0 : d0.cap = 34816 := by rw [h0]
  have e2 : (2 : UInt64).toNat = 2 := rfl
  have e3 : (3 : UInt64).toNat = 3 := rfl
  have e128 : (128 : UInt32).toNat = 128 := rfl
  have elb : LbSize.lb512.usize = 512 := rfl
  clear h0
  have ok1 := (c56_succeeds m (exPart 40 50) 3 0 2 .lb512 128 d0 hf0 (by decide)).1 (by rw [e2, e3, e128, elb, hc0]; decide)
  rcases x1 : (exPart 40 50).writeToDevice m 3 2 .lb512 128 d0 with ⟨r1, d1⟩
  rw [x1] at ok1
  simp only at ok1
  subst ok1
  have st1 := c56_entry_partial m (exPart 40 50) 3 2 .lb512 128 d0 d1 (by decide) x1
  rw [e2, e3, e128, elb] at st1
  have hl1 : d1.data.length = 34816 := by rw [st1.length, hl0]; decide
  obtain ⟨d2, x2⟩ := c57_succeeds m none ⟨1, 2, 3, 4⟩ .lb512 { d0 with data := d1.data } hf0 (by simp only; rw [hp0]; decide)
    (by simp only; rw [hl1]; decide) (by simp only; rw [hl1, hc0]) (by simp only; rw [hl1]; decide)
  have hw1 : (exPart 40 50).writePath m (fun _ _ => .ok d0) "f" 3 2 .lb512 = (.ok (), some d1) := by
    unfold Partition.writePath withFile Partition.write
    simp only [x1]
  have hw2 : writeHeaderPath m (fun _ _ => .ok { d0 with data := d1.data }) "f" none ⟨1, 2, 3, 4⟩ .lb512 = (.ok ⟨1, 2, 3, 4⟩, some d2) := by
    unfold writeHeaderPath withFile
    simp only [x2]
    rfl
  obtain ⟨s', ho, -, -, -, -, -, hl2, -, hout⟩ := header_open (m' := m) (cfg := GptConfig.new) (r := { d0 with data := d2.data })
    (by simp only; rw [hp0]; decide) (by simp only; rw [hl1]; decide) x2 rfl hf0 (by simp only; rw [hp0]; decide)
    (.inr (by
      have := (c57_write_header m none ⟨1, 2, 3, 4⟩ _ .lb512 _ d2 { d0 with data := d2.data } (by simp only; rw [hp0]; decide)
        (by simp only; rw [hl1]; decide) x2 rfl hf0 (by simp only; rw [hp0]; decide)).2.1
      simp only at this ⊢
      rw [this, hl1]; decide)) rfl rfl
  simp only at hl2 hout
  rw [hl1] at hl2
  have hsmall : ({ d0 with data := d2.data } : Dev).data.length < 2 ^ 38 := by simp only; rw [hl2]; decide
  obtain ⟨-, s, q, ho2, -, -, hq, hse⟩ := c85_entry m m m (fun _ _ => .ok d0) (fun _ _ => .ok { d0 with data := d1.data })
    (fun _ _ => .ok { d0 with data := d2.data }) "f" (exPart 40 50) 3 none ⟨1, 2, 3, 4⟩ ⟨1, 2, 3, 4⟩ .lb512 GptConfig.new d0 d1
    { d0 with data := d1.data } d2 { d0 with data := d2.data } rfl hw1 (by decide) (by decide) rfl rfl (by simp only; rw [hp0]; decide)
    (by simp only; rw [hl1]; decide) hw2 rfl rfl hf0 (by simp only; rw [hp0]; decide) (.inr hsmall) rfl rfl
  have ok3 := (c56_succeeds m (exPart 41 50) 3 0 2 .lb512 128 { d0 with data := d2.data } hf0 (by decide)).1
    (by rw [e2, e3, e128, elb]; simp only; rw [hc0]; decide)
  rcases x3 : (exPart 41 50).writeToDevice m 3 2 .lb512 128 { d0 with data := d2.data } with ⟨r3, d3⟩
  rw [x3] at ok3
  simp only at ok3
  subst ok3
  obtain ⟨-, -, -, h, hh, -, -, -, hps, hnp, -⟩ := c57_write_header m none ⟨1, 2, 3, 4⟩ _ .lb512 _ d2 { d0 with data := d2.data }
    (by simp only; rw [hp0]; decide) (by simp only; rw [hl1]; decide) x2 rfl hf0 (by simp only; rw [hp0]; decide)
  have hpv := ((c05_primary_backup .lb512 { d0 with data := d2.data } hf0 (by simp only; rw [hp0]; decide)
    (by simp only; rw [hl2]; decide)).1 h).mp hh
  obtain ⟨-, -, -, -, -, -, h', hh', hpr, -⟩ := c44_selected m GptConfig.new { d0 with data := d2.data } _ s' hf0 (by simp only; rw [hp0]; decide)
    (by simp only; rw [hl2]; decide) (Prod.ext ho rfl)
  obtain rfl : h = h' := ((headerOfBytes_iff hpv.1.fits).mpr hpv.2).symm.trans ((headerOfBytes_iff hpv.1.fits).mpr (hpr hpv.1))
  have p2 : h.partStart.toNat = 2 := by rw [hps]; rfl
  have n128 : h.numParts.toNat = 128 := by rw [hnp]; rfl
  have lbn : GptConfig.new.lbSize = .lb512 := rfl
  have hb : ∀ j, j < 128 → byteAt d2.data (1024 + 384 + j) = byteAt ((exPart 40 50).asBytes 128) j := fun j hj => by
    rw [hout _ (.inr (by rw [elb]; omega))]
    exact st1.inside j hj
  refine ⟨d1, d2, d3, s, q, hw1, hw2, ho2, hq, hse, x3, ?_⟩
  refine c85_stale m m m GptConfig.new h (exPart 41 50) 3 { d0 with data := d2.data } d3 { d0 with data := d3.data } s' 32 hf0
    (by simp only; rw [hp0]; decide) (by simp only; rw [hl2]; decide) (.inr hsmall) ho hh' (by omega) ?_ (by rw [e3, n128]; decide)
    (by rw [hps]; exact x3) ?_ ?_ rfl hf0 (by simp only; rw [hp0]; decide)
  · rw [p2, n128, lbn, elb]
    unfold lastBlockOffset
    simp only
    rw [hl2, elb]
    decide
  · intro j hj hx
    simp only
    rw [p2, lbn, elb, e3, hb j hj]
    have : ∀ j : Fin 128, j.val < 32 ∨ 36 ≤ j.val → byteAt ((exPart 41 50).asBytes 128) j = byteAt ((exPart 40 50).asBytes 128) j := by
      decide +kernel
    exact this ⟨j, hj⟩ hx
  · refine ⟨32, by decide, ?_⟩
    simp only
    rw [p2, lbn, elb, e3, hb 32 (by decide)]
    decide +kernel

end Gpt
