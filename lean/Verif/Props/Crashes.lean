import Verif.Props.Opens
import Verif.Props.Builds
/-!
# Exactly when opening panics: C46
-/

namespace Gpt

open Spec GptDisk

/-- How many of the first `n` slots of the array at `off` are all zero. -/
def Spec.emptySlots (data : Bytes) (off n : Nat) : Nat :=
  ((List.range n).filter fun j => slice data (off + 128 * j) 128 = zeros 128).length

theorem emptySlots_succ (data : Bytes) (off n : Nat) :
    emptySlots data off (n + 1) = (if slice data off 128 = zeros 128 then 1 else 0) + emptySlots data (off + 128) n := by
  unfold emptySlots
  rw [List.range_succ_eq_map, List.filter_cons, List.filter_map, Nat.mul_zero, Nat.add_zero]
  have : ((fun j => decide (slice data (off + 128 * j) 128 = zeros 128)) ∘ Nat.succ) =
      fun j => decide (slice data (off + 128 + 128 * j) 128 = zeros 128) := by
    funext j
    simp only [Function.comp]
    rw [show off + 128 * j.succ = off + 128 + 128 * j by omega]
  rw [this]
  by_cases h : slice data off 128 = zeros 128
  · rw [if_pos (by simpa using h), if_pos h]
    simp only [List.length_cons, List.length_map]
    omega
  · rw [if_neg (by simpa using h), if_neg h, List.length_map, Nat.zero_add]

theorem emptySlots_le (data : Bytes) (off n : Nat) : emptySlots data off n ≤ n := by
  unfold emptySlots
  exact (List.length_filter_le _ _).trans (by rw [List.length_range])

/-- When the loop over the slots panics. -/
theorem readEntries_panic (n : Nat) {i : UInt32} {e : Nat} {parts : PMap} {d : Dev} (hf : d.faults = [])
    (hi : i.toNat + n < 2 ^ 32) (he : e < 2 ^ 31) :
    (readEntries .debug n i e parts d).1 = .panic ↔
      ∃ k ≤ n, d.pos + 128 * k ≤ d.data.length ∧ 2 ^ 31 ≤ e + emptySlots d.data d.pos k := by
  induction n generalizing i e parts d with
  | zero =>
    constructor
    · intro h
      simp [readEntries] at h
    · rintro ⟨k, hk, -, h⟩
      have := emptySlots_le d.data d.pos k
      omega
  | succ n ih =>
    have hone : ∀ k, 2 ^ 31 ≤ e + emptySlots d.data d.pos k → ∃ k', k = k' + 1 := by
      intro k h
      cases k with
      | zero => exact absurd h (by have := emptySlots_le d.data d.pos 0; omega)
      | succ k => exact ⟨k, rfl⟩
    by_cases hroom : d.pos + 128 ≤ d.data.length
    · have hi1 : (i + 1).toNat = i.toNat + 1 := u32_succ (by omega)
      have h1 : (1 : UInt32).toNat = 1 := rfl
      unfold readEntries
      rw [M.bind_apply, Dev.readExact_nil hf hroom]
      simp only
      by_cases hz : slice d.data d.pos 128 = zeros 128
      · rw [if_pos hz, M.bind_apply, M.lift_apply]
        by_cases hb : e + 1 < 2 ^ 31
        · have ha : (arith .debug (decide (e + 1 < 2 ^ 31)) () : Res IoErr Unit) = .ok () := by
            unfold arith
            rw [if_pos (by simpa using hb)]
          rw [ha]
          simp only
          rw [ih (d := { d with pos := d.pos + 128 }) hf (by omega) hb]
          constructor
          · rintro ⟨k, k1, k2, k3⟩
            simp only at k2 k3
            exact ⟨k + 1, by omega, by omega, by rw [emptySlots_succ, if_pos hz]; omega⟩
          · rintro ⟨k, k1, k2, k3⟩
            obtain ⟨k, rfl⟩ := hone k k3
            rw [emptySlots_succ, if_pos hz] at k3
            exact ⟨k, by omega, by simp only; omega, by simp only; omega⟩
        · have ha : (arith .debug (decide (e + 1 < 2 ^ 31)) () : Res IoErr Unit) = .panic := by
            unfold arith
            rw [if_neg (by simp; omega)]
          rw [ha]
          refine iff_of_true rfl ⟨1, by omega, by omega, ?_⟩
          rw [emptySlots_succ, if_pos hz]
          omega
      · rw [if_neg hz, M.bind_apply, M.lift_apply, add32_eq .debug (by omega)]
        simp only
        rw [ih (d := { d with pos := d.pos + 128 }) hf (by omega) he]
        constructor
        · rintro ⟨k, k1, k2, k3⟩
          simp only at k2 k3
          exact ⟨k + 1, by omega, by omega, by rw [emptySlots_succ, if_neg hz]; omega⟩
        · rintro ⟨k, k1, k2, k3⟩
          obtain ⟨k, rfl⟩ := hone k k3
          rw [emptySlots_succ, if_neg hz] at k3
          exact ⟨k, by omega, by simp only; omega, by simp only; omega⟩
    · unfold readEntries
      rw [M.bind_apply, Dev.readExact_nil_err hf (by decide) hroom]
      refine iff_of_false (by simp) ?_
      rintro ⟨k, k1, k2, k3⟩
      obtain ⟨k, rfl⟩ := hone k k3
      omega

/-- Slots of the array of `h` the reader can reach hold at least 2^31 empty ones: more than the counter of empty slots, an `i32`, can
count. -/
def Spec.TooEmpty (h : Header) (lb : LbSize) (data : Bytes) : Prop :=
  ∃ k ≤ h.numParts.toNat, h.partStart.toNat * lb.usize + 128 * k ≤ data.length ∧
    2 ^ 31 ≤ emptySlots data (h.partStart.toNat * lb.usize) k

theorem fileReadPartitions_panic {h : Header} {lb : LbSize} {d : Dev} (hf : d.faults = []) :
    (fileReadPartitions .debug h lb d).1 = .panic ↔
      h.partStart.toNat * lb.usize < 2 ^ 64 ∧ (h.partSize.toNat ≠ 128 ∨ TooEmpty h lb d.data) := by
  have hzero : (0 : UInt32).toNat = 0 := rfl
  have hn := h.numParts.toNat_lt
  by_cases hs : 2 ^ 64 ≤ h.partStart.toNat * lb.usize
  · have hps : checkedMul64 h.partStart lb.u64 = none := by
      unfold checkedMul64
      rw [if_neg (by rw [lb_u64_toNat]; omega)]
    refine iff_of_false ?_ (by omega)
    unfold fileReadPartitions
    simp only [M.bind_apply, M.lift_apply, hps]
    simp [Res.ofOption]
  have hps : checkedMul64 h.partStart lb.u64 = some (h.partStart * lb.u64) := by
    unfold checkedMul64
    rw [if_pos (by rw [lb_u64_toNat]; omega)]
  have hps2 : (h.partStart * lb.u64).toNat = h.partStart.toNat * lb.usize := by
    rw [UInt64.toNat_mul, lb_u64_toNat, Nat.mod_eq_of_lt (by omega)]
  by_cases h128 : h.partSize = 128
  swap
  · refine iff_of_true ?_ ⟨by omega, .inl fun e => h128 (UInt32.toNat_inj.mp e)⟩
    unfold fileReadPartitions
    simp only [M.bind_apply, M.lift_apply, hps, Res.ofOption_some]
    rw [Dev.seekStart_nil hf]
    simp only
    rw [if_pos h128]
    rfl
  have key := readEntries_panic h.numParts.toNat (i := 0) (e := 0) (parts := []) (d := { d with pos := (h.partStart * lb.u64).toNat }) hf
    (by rw [hzero]; omega) (by omega)
  simp only [hps2, Nat.zero_add] at key
  have hiff : (h.partStart.toNat * lb.usize < 2 ^ 64 ∧ (h.partSize.toNat ≠ 128 ∨ TooEmpty h lb d.data)) ↔ TooEmpty h lb d.data := by
    have : h.partSize.toNat = 128 := by rw [h128]; rfl
    exact ⟨fun ⟨_, h2⟩ => h2.resolve_left fun hh => hh this, fun h => ⟨by omega, .inr h⟩⟩
  rw [hiff]
  unfold TooEmpty
  rw [← key]
  constructor
  · intro hp
    rcases hx : readEntries .debug h.numParts.toNat 0 0 [] { d with pos := h.partStart.toNat * lb.usize } with ⟨r, d1⟩
    cases r with
    | panic => rfl
    | err e =>
      unfold fileReadPartitions at hp
      simp only [M.bind_apply, M.lift_apply, hps, Res.ofOption_some] at hp
      rw [Dev.seekStart_nil hf] at hp
      simp only at hp
      rw [if_neg (fun hn => hn h128)] at hp
      simp only [M.bind_apply, hps2, hx] at hp
      cases hp
    | ok t =>
      unfold fileReadPartitions at hp
      simp only [M.bind_apply, M.lift_apply, hps, Res.ofOption_some] at hp
      rw [Dev.seekStart_nil hf] at hp
      simp only at hp
      rw [if_neg (fun hn => hn h128)] at hp
      rw [M.bind_apply, hps2, hx] at hp
      simp only at hp
      refine absurd hp (M.NoPanic.bind (Dev.seekStart_noPanic _) (fun _ => ?_) d1)
      refine M.NoPanic.bind (M.NoPanic.lift Res.ofOption_ne_panic) fun _ => ?_
      refine M.NoPanic.bind (Dev.readExact_noPanic _) fun _ => ?_
      split
      · exact M.NoPanic.throw _
      · exact M.NoPanic.pure _
  · intro hp
    rcases hx : readEntries .debug h.numParts.toNat 0 0 [] { d with pos := h.partStart.toNat * lb.usize } with ⟨r, d1⟩
    rw [hx] at hp
    simp only at hp
    subst hp
    unfold fileReadPartitions
    simp only [M.bind_apply, M.lift_apply, hps, Res.ofOption_some]
    rw [Dev.seekStart_nil hf]
    simp only
    rw [if_neg (fun hn => hn h128)]
    simp only [M.bind_apply, hps2, hx]

/-- Which header governs, in terms of what the model read. -/
theorem governs_select {m : Mode} {cfg : GptConfig} {d : Dev} (hf : d.faults = []) (hp : d.pos < 2 ^ 64) (hlen : d.data.length < 2 ^ 64) :
    ∃ h1 h2, (∀ h, Governs cfg d.data h ↔ selectHeader cfg.onlyValidHeaders h1 h2 = .ok h) ∧
      readPrimaryHeader cfg.lbSize d = (Res.ofExcept h1, d) ∧ readBackupHeader cfg.lbSize d = (Res.ofExcept h2, d) ∧
      openFromDevice m cfg d = match selectHeader cfg.onlyValidHeaders h1 h2 with
        | .error e => (.err (.header e), d)
        | .ok h => openRest m cfg h1 h2 h d := by
  obtain ⟨h1, h2, e1, e2, e⟩ := openFromDevice_nil m cfg hf hp hlen
  obtain ⟨c1, -, c2, -⟩ := c05_primary_backup cfg.lbSize d hf hp hlen
  have e1' : readPrimaryHeader cfg.lbSize d = (Res.ofExcept h1, d) := by rw [readPrimaryHeader_nil hf hp, e1]
  have e2' : readBackupHeader cfg.lbSize d = (Res.ofExcept h2, d) := by rw [readBackupHeader_nil hf hp hlen, e2]
  refine ⟨h1, h2, fun h => ?_, e1', e2', e⟩
  replace c1 : ∀ h, h1 = .ok h ↔ Spec.PrimaryValid cfg.lbSize d.data ∧ Spec.HeaderAt d.data cfg.lbSize.usize h := fun h => by
    rw [← ofExcept_ok, ← show _ = Res.ofExcept h1 from congrArg Prod.fst e1', c1]; rfl
  replace c2 : ∀ h, h2 = .ok h ↔ Spec.BackupValid cfg.lbSize d.data ∧ Spec.HeaderAt d.data (Spec.lastBlockOffset cfg.lbSize d.data) h :=
    fun h => by rw [← ofExcept_ok, ← show _ = Res.ofExcept h2 from congrArg Prod.fst e2', c2, Spec.BackupValid, and_assoc]; rfl
  have hsel := (select_spec (b := cfg.onlyValidHeaders) (h1 := h1) (h2 := h2)).1
  have p1 : PrimaryValid cfg.lbSize d.data ↔ ∃ h, h1 = .ok h :=
    ⟨fun hv => by obtain ⟨h, hh⟩ := validAt_header hv; exact ⟨h, (c1 h).mpr ⟨hv, hh⟩⟩, fun ⟨h, hh⟩ => ((c1 h).mp hh).1⟩
  have p2 : BackupValid cfg.lbSize d.data ↔ ∃ h, h2 = .ok h :=
    ⟨fun hv => by obtain ⟨h, hh⟩ := validAt_header hv.2; exact ⟨h, (c2 h).mpr ⟨hv, hh⟩⟩, fun ⟨h, hh⟩ => ((c2 h).mp hh).1⟩
  have p3 : (∃ e, h1 = .error e) ↔ ¬ PrimaryValid cfg.lbSize d.data := by
    rw [p1]
    cases h1 <;> simp
  rw [hsel, ← p2, p3, c1, c2]
  unfold Governs
  rw [and_assoc]

/-- **C46**, exactly: on a device that works, opening panics exactly when a header governs whose array starts below 2^64 bytes and whose
entries do not have 128 bytes, or, in a debug build, whose array has more than 2^31 - 1 empty slots on the device. -/
theorem c46_exact (m : Mode) (cfg : GptConfig) (d : Dev) (hf : d.faults = []) (hp : d.pos < 2 ^ 64) (hlen : d.data.length < 2 ^ 64) :
    (openFromDevice m cfg d).1 = .panic ↔ ∃ h, Governs cfg d.data h ∧ h.partStart.toNat * cfg.lbSize.usize < 2 ^ 64 ∧
      (h.partSize.toNat ≠ 128 ∨ m = .debug ∧ TooEmpty h cfg.lbSize d.data) := by
  obtain ⟨h1, h2, hg, -, -, e⟩ := governs_select (m := m) (cfg := cfg) hf hp hlen
  rw [e]
  cases hs : selectHeader cfg.onlyValidHeaders h1 h2 with
  | error x =>
    refine iff_of_false (by simp) ?_
    rintro ⟨h, a, -⟩
    rw [hg, hs] at a
    cases a
  | ok h =>
    have hone : ∀ h', Governs cfg d.data h' ↔ h' = h := by
      intro h'
      rw [hg, hs]
      simp [eq_comm]
    have hrest : (openRest m cfg h1 h2 h d).1 = .panic ↔ (fileReadPartitions m h cfg.lbSize d).1 = .panic := by
      unfold openRest
      simp only [M.bind_apply, M.mapErr_apply, M.get_apply, M.pure_apply]
      rcases fileReadPartitions m h cfg.lbSize d with ⟨r, d1⟩
      cases r <;> simp
    simp only
    rw [hrest]
    simp only [hone, exists_eq_left]
    cases m with
    | debug =>
      rw [fileReadPartitions_panic hf]
      simp
    | release =>
      rw [fileReadPartitions_runs hf (.inl rfl)]
      have e128 : h.partSize.toNat ≠ 128 ↔ h.partSize ≠ 128 := not_congr ⟨fun e => UInt32.toNat_inj.mp e, fun e => by rw [e]; rfl⟩
      rw [e128]
      unfold arrayResult
      by_cases hx : 2 ^ 64 ≤ h.partStart.toNat * cfg.lbSize.usize
      · rw [if_pos hx]
        refine iff_of_false (by simp) (by omega)
      rw [if_neg hx]
      by_cases hy : h.partSize = 128
      · rw [if_neg (fun hn => hn hy)]
        refine iff_of_false (fun hh => ?_) (fun hh => by rcases hh.2 with h | ⟨h, -⟩ <;> [exact h hy; cases h])
        split at hh
        · cases hh
        split at hh <;> cases hh
      · rw [if_pos hy]
        exact iff_of_true rfl ⟨by omega, .inl hy⟩

/-- **C84**, any size: without a bound on the device, the outcome of opening is the one of C84 unless a debug build panics on too many
empty slots. -/
theorem c84_any (m : Mode) (cfg : GptConfig) (d : Dev) (hf : d.faults = []) (hp : d.pos < 2 ^ 64) (hlen : d.data.length < 2 ^ 64) :
    Opened cfg d.data (openFromDevice m cfg d).1 ∨
    (m = .debug ∧ (openFromDevice m cfg d).1 = .panic ∧ ∃ h, Governs cfg d.data h ∧ TooEmpty h cfg.lbSize d.data) := by
  cases m with
  | release => exact .inl (c84_outcome .release cfg d hf hp hlen (.inl rfl))
  | debug =>
    rcases (c80_open_create cfg none ⟨0, 0, 0, 0⟩ ⟨0, 0, 0, 0⟩ d).1 with h | h
    · obtain ⟨x, a, b, c⟩ := (c46_exact .debug cfg d hf hp hlen).mp h
      rcases c with c | ⟨-, c⟩
      · rw [h]
        exact .inl (.crash x a (.entrySize b c))
      · exact .inr ⟨rfl, h, x, a, c⟩
    · rw [h]
      exact .inl (c84_outcome .release cfg d hf hp hlen (.inl rfl))

/-- The header of an image governs it if the primary header suffices. -/
theorem imageOf_governs {cfg : GptConfig} {h : Header} (hs : h.signature = Spec.signature) {c : UInt32} (hr : h.reserved = 0) {rest : Bytes}
    (h1 : cfg.lbSize = .lb512) (h2 : cfg.onlyValidHeaders = false) : Governs cfg (imageOf h c rest) (h.sealed c) := by
  have := headerAt_of_read (imageOf_primary hs c hr rest)
  left
  rw [h1, h2]
  exact ⟨this.1, this.2, fun h => by cases h⟩

/-- A device of a little more than 256 GiB with a valid header and 2^31 slots, all empty. -/
def hugeHeader : Header := { sampleHeader with numParts := 2 ^ 31 }

theorem huge_empty (c : UInt32) (n : Nat) : emptySlots (imageOf hugeHeader c (zeros (128 * n))) 1024 n = n := by
  unfold emptySlots
  have hl := imageOf_length (h := hugeHeader) rfl c (zeros (128 * n))
  rw [zeros_length] at hl
  rw [List.filter_eq_self.mpr, List.length_range]
  intro j hj
  rw [List.mem_range] at hj
  simp only [decide_eq_true_eq]
  unfold imageOf
  have hp : (zeros 512 ++ hugeHeader.encode c ++ zeros 420).length = 1024 := by
    simp only [List.length_append, zeros_length, Header.encode_length (h := hugeHeader) rfl c]
  rw [← List.append_assoc, slice_append_right (by rw [hp]; omega), hp]
  refine slice_eq_of_byteAt (by rw [zeros_length]; omega) (zeros_length _) fun i _ => ?_
  rw [byteAt_zeros, byteAt_zeros]

/-- The second condition of `c46_exact` is met: this device panics a debug build and no release build. -/
example (c : UInt32) (cap : Nat) :
    (openFromDevice .debug GptConfig.new ⟨imageOf hugeHeader c (zeros (128 * 2 ^ 31)), 0, cap, [], []⟩).1 = .panic ∧
    (openFromDevice .release GptConfig.new ⟨imageOf hugeHeader c (zeros (128 * 2 ^ 31)), 0, cap, [], []⟩).1 ≠ .panic := by
  have hl := imageOf_length (h := hugeHeader) rfl c (zeros (128 * 2 ^ 31))
  rw [zeros_length] at hl
  have hg := imageOf_governs (cfg := GptConfig.new) (h := hugeHeader) rfl (c := c) rfl (rest := zeros (128 * 2 ^ 31)) rfl rfl
  have he := huge_empty c (2 ^ 31)
  have hstart : (hugeHeader.sealed c).partStart.toNat * GptConfig.new.lbSize.usize = 1024 := by
    show hugeHeader.partStart.toNat * LbSize.lb512.usize = 1024
    decide
  generalize imageOf hugeHeader c (zeros (128 * 2 ^ 31)) = data at *
  constructor
  · rw [c46_exact _ _ _ rfl (by show 0 < 2 ^ 64; decide) (by show data.length < _; omega)]
    refine ⟨_, hg, ?_, .inr ⟨rfl, 2 ^ 31, ?_, ?_, ?_⟩⟩
    · show hugeHeader.partStart.toNat * LbSize.lb512.usize < 2 ^ 64
      decide
    · show 2 ^ 31 ≤ hugeHeader.numParts.toNat
      decide
    · rw [hstart]
      simp only
      omega
    · rw [hstart]
      simp only
      rw [he]
  · rw [ne_eq, c46_exact _ _ _ rfl (by show 0 < 2 ^ 64; decide) (by show data.length < _; omega)]
    rintro ⟨h, a, -, b | ⟨b, -⟩⟩
    · rw [governs_unique a hg] at b
      exact b rfl
    · cases b

theorem imageOf_lt {h : Header} (hs : h.signature = Spec.signature) {c : UInt32} : (imageOf h c []).length < 2 ^ 64 := by
  rw [imageOf_length hs]
  decide

/-- The first condition of `c46_exact` is met: a valid header with entries of 256 bytes. -/
example (m : Mode) : (openFromDevice m GptConfig.new ⟨imageOf { sampleHeader with partSize := 256 } 7 [], 0, 1024, [], []⟩).1 = .panic :=
  (c46_exact _ _ _ rfl (by show 0 < 2 ^ 64; decide) (imageOf_lt rfl)).mpr ⟨_, imageOf_governs rfl rfl rfl rfl, by decide, .inl (by decide)⟩

/-- And neither: a valid header in front of an array the device does not hold is an error in both builds. -/
example (m : Mode) : (openFromDevice m GptConfig.new ⟨imageOf sampleHeader 7 [], 0, 1024, [], []⟩).1 ≠ .panic := by
  rw [ne_eq, c46_exact _ _ _ rfl (by show 0 < 2 ^ 64; decide) (imageOf_lt rfl)]
  rintro ⟨h, a, -, b | ⟨-, k, k1, -, k3⟩⟩
  · rw [governs_unique a (imageOf_governs (h := sampleHeader) rfl rfl rfl rfl)] at b
    exact b rfl
  · rw [governs_unique a (imageOf_governs (h := sampleHeader) rfl rfl rfl rfl)] at k1 k3
    have := emptySlots_le (imageOf sampleHeader 7 []) ((sampleHeader.sealed 7).partStart.toNat * GptConfig.new.lbSize.usize) k
    have : (sampleHeader.sealed 7).numParts.toNat = 8 := rfl
    simp only at k3
    omega

end Gpt
