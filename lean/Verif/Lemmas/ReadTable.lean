import Verif.Lemmas.HeaderIo
import Verif.Lemmas.PMap
/-!
# Reading the partition array
-/

namespace Gpt

/-- The entries stored in slots `i`, …, `i + n - 1` of the array of 128-byte slots that begins at byte `off`. -/
def tableAt (data : Bytes) (off : Nat) : (n i : Nat) → PMap
  | 0, _ => []
  | n + 1, i =>
    if slice data (off + 128 * i) 128 = zeros 128 then tableAt data off n (i + 1)
    else (UInt32.ofNat (i + 1), partitionOfBytes (slice data (off + 128 * i) 128)) :: tableAt data off n (i + 1)

theorem mem_tableAt {data : Bytes} {off : Nat} (n i : Nat) (h : i + n < 2 ^ 32) (k : UInt32) (p : Partition) :
    (k, p) ∈ tableAt data off n i ↔ ∃ j, i ≤ j ∧ j < i + n ∧ k.toNat = j + 1 ∧
      slice data (off + 128 * j) 128 ≠ zeros 128 ∧ p = partitionOfBytes (slice data (off + 128 * j) 128) := by
  induction n generalizing i with
  | zero => simp only [tableAt, List.not_mem_nil, false_iff]; rintro ⟨j, h1, h2, _⟩; omega
  | succ n ih =>
    have hstep : (∃ j, i ≤ j ∧ j < i + (n + 1) ∧ k.toNat = j + 1 ∧
        slice data (off + 128 * j) 128 ≠ zeros 128 ∧ p = partitionOfBytes (slice data (off + 128 * j) 128)) ↔
        (k.toNat = i + 1 ∧ slice data (off + 128 * i) 128 ≠ zeros 128 ∧ p = partitionOfBytes (slice data (off + 128 * i) 128)) ∨
        ∃ j, i + 1 ≤ j ∧ j < i + 1 + n ∧ k.toNat = j + 1 ∧
        slice data (off + 128 * j) 128 ≠ zeros 128 ∧ p = partitionOfBytes (slice data (off + 128 * j) 128) := by
      constructor
      · rintro ⟨j, h1, h2, h3⟩
        by_cases hj : j = i
        · subst hj; exact .inl h3
        · exact .inr ⟨j, by omega, by omega, h3⟩
      · rintro (h3 | ⟨j, h1, h2, h3⟩)
        · exact ⟨i, Nat.le_refl _, by omega, h3⟩
        · exact ⟨j, by omega, by omega, h3⟩
    rw [hstep, ← ih (i + 1) (by omega), tableAt]
    split
    · rename_i hz
      simp [hz]
    · rename_i hz
      rw [List.mem_cons, Prod.mk.injEq, ← UInt32.toNat_inj, UInt32.toNat_ofNat', Nat.mod_eq_of_lt (by omega)]
      simp [hz]

theorem tableAt_sorted {data : Bytes} {off : Nat} (n i : Nat) (h : i + n < 2 ^ 32) : PMap.Sorted (tableAt data off n i) := by
  induction n generalizing i with
  | zero => exact List.Pairwise.nil
  | succ n ih =>
    unfold tableAt
    split
    · exact ih (i + 1) (by omega)
    · refine List.Pairwise.cons ?_ (ih (i + 1) (by omega))
      rintro ⟨k, p⟩ hm
      rw [mem_tableAt n (i + 1) (by omega)] at hm
      obtain ⟨j, h1, _, h3, _⟩ := hm
      show UInt32.ofNat (i + 1) < k
      rw [UInt32.lt_iff_toNat_lt, UInt32.toNat_ofNat', Nat.mod_eq_of_lt (by omega)]
      omega

theorem tableAt_congr {data data' : Bytes} {off off' : Nat} (n i : Nat)
    (h : ∀ j, i ≤ j → j < i + n → slice data (off + 128 * j) 128 = slice data' (off' + 128 * j) 128) :
    tableAt data off n i = tableAt data' off' n i := by
  induction n generalizing i with
  | zero => rfl
  | succ n ih =>
    unfold tableAt
    rw [h i (Nat.le_refl _) (by omega), ih (i + 1) (fun j h1 h2 => h j (by omega) (by omega))]

/-- Inserting a key above all others appends. -/
theorem PMap.insert_last {t : PMap} {k : UInt32} {p : Partition} (h : ∀ e ∈ t, e.1 < k) :
    PMap.insert k p t = t ++ [(k, p)] := by
  induction t with
  | nil => rfl
  | cons e t ih =>
    obtain ⟨k', p'⟩ := e
    have h1 : k' < k := h (k', p') List.mem_cons_self
    unfold PMap.insert
    rw [if_neg, if_neg]
    · rw [ih (fun e he => h e (List.mem_cons_of_mem _ he))]
      rfl
    · rintro rfl; exact PMap.u32_lt_irrefl _ h1
    · rw [UInt32.lt_iff_toNat_lt] at *; omega

theorem u32_succ {i : UInt32} (h : i.toNat + 1 < 2 ^ 32) : (i + 1).toNat = i.toNat + 1 := by
  have h1 : (1 : UInt32).toNat = 1 := rfl
  rw [u32_add_toNat (by omega), h1]

/-- A successful table read returns the stored entries, whatever the faults. -/
theorem readEntries_ok {m : Mode} {off : Nat} (n : Nat) {i : UInt32} {e : Nat} {parts t : PMap} {d d' : Dev}
    (hi : i.toNat + n < 2 ^ 32) (hp : d.pos = off + 128 * i.toNat) (hk : ∀ x ∈ parts, x.1.toNat ≤ i.toNat)
    (h : readEntries m n i e parts d = (.ok t, d')) :
    t = parts ++ tableAt d.data off n i.toNat ∧ d'.data = d.data ∧ (n = 0 ∨ off + 128 * (i.toNat + n) ≤ d.data.length) := by
  have h1 : (1 : UInt32).toNat = 1 := rfl
  induction n generalizing i e parts d with
  | zero =>
    simp only [readEntries, M.pure_ok] at h
    obtain ⟨rfl, rfl⟩ := h
    exact ⟨by simp [tableAt], rfl, .inl rfl⟩
  | succ n ih =>
    unfold readEntries at h
    rw [M.bind_ok] at h
    obtain ⟨b, d1, hb, h⟩ := h
    obtain ⟨hb1, hd1, hp1, _, _, hlen⟩ := Dev.readExact_ok hb
    have hi1 : (i + 1).toNat = i.toNat + 1 := u32_succ (by omega)
    have hpos1 : d1.pos = off + 128 * (i + 1).toNat := by rw [hp1, hp, hi1]; omega
    rw [hp] at hb1
    have hl : off + 128 * i.toNat + 128 ≤ d.data.length := by
      rcases hlen with hlen | hlen
      · simp at hlen
      · rw [hp] at hlen; exact hlen
    split at h
    · rename_i hz
      rw [M.bind_ok] at h
      obtain ⟨_, d2, hl2, h⟩ := h
      rw [M.lift_ok] at hl2
      obtain ⟨_, rfl⟩ := hl2
      obtain ⟨ht, hd, hx⟩ := ih (by omega) hpos1 (fun x hx => by have := hk x hx; omega) h
      refine ⟨?_, hd.trans hd1, ?_⟩
      · rw [ht, hd1, hi1]
        conv => rhs; unfold tableAt
        rw [← hb1, if_pos hz]
      · right
        rcases hx with hx | hx
        · subst hx; omega
        · rw [hi1, hd1] at hx; omega
    · rename_i hz
      rw [M.bind_ok] at h
      obtain ⟨k, d2, hl2, h⟩ := h
      rw [M.lift_ok] at hl2
      obtain ⟨hk2, rfl⟩ := hl2
      obtain rfl := add32_ok hk2
      have hins : PMap.insert (i + 1) (partitionOfBytes b) parts = parts ++ [(i + 1, partitionOfBytes b)] := by
        apply PMap.insert_last
        intro x hx
        have := hk x hx
        rw [UInt32.lt_iff_toNat_lt]
        omega
      rw [hins] at h
      obtain ⟨ht, hd, hx⟩ := ih (by omega) hpos1 (by
        intro x hx
        rcases List.mem_append.mp hx with hx | hx
        · have := hk x hx; omega
        · rw [List.mem_singleton] at hx; subst hx; exact Nat.le_refl _) h
      refine ⟨?_, hd.trans hd1, ?_⟩
      · rw [ht, hd1, hi1]
        conv => rhs; unfold tableAt
        rw [← hb1, if_neg hz]
        have : i + 1 = UInt32.ofNat (i.toNat + 1) := by
          rw [← UInt32.toNat_inj, hi1, UInt32.toNat_ofNat', Nat.mod_eq_of_lt (by omega)]
        rw [this]
        simp
      · right
        rcases hx with hx | hx
        · subst hx; omega
        · rw [hi1, hd1] at hx; omega

/-- Without faults, a table read succeeds when the array is on the device and the debug counter does not overflow. -/
theorem readEntries_nil {m : Mode} (n : Nat) {i : UInt32} {e : Nat} {parts : PMap} {d : Dev}
    (hf : d.faults = []) (hi : i.toNat + n < 2 ^ 32) (hlen : d.pos + 128 * n ≤ d.data.length)
    (he : m = .release ∨ e + n < 2 ^ 31) :
    ∃ t, readEntries m n i e parts d = (.ok t, { d with pos := d.pos + 128 * n }) := by
  induction n generalizing i e parts d with
  | zero => exact ⟨parts, by cases d; simp [readEntries]⟩
  | succ n ih =>
    unfold readEntries
    rw [M.bind_apply, Dev.readExact_nil hf (by omega)]
    simp only
    have hi1 : (i + 1).toNat = i.toNat + 1 := u32_succ (by omega)
    have hpos : d.pos + 128 + 128 * n = d.pos + 128 * (n + 1) := by omega
    split
    · rw [M.bind_apply, M.lift_apply]
      have ha : (arith m (decide (e + 1 < 2 ^ 31)) () : Res IoErr Unit) = .ok () := by
        unfold arith
        rcases he with rfl | he
        · simp
        · rw [if_pos]
          simp only [decide_eq_true_eq]
          omega
      rw [ha]
      simp only
      have := ih (i := i + 1) (e := e + 1) (parts := parts) (d := { d with pos := d.pos + 128 }) hf (by omega) (by show d.pos + 128 + 128 * n ≤ d.data.length; omega)
        (he.imp id (fun h => by omega))
      obtain ⟨t, ht⟩ := this
      exact ⟨t, by rw [ht]; simp only [hpos]⟩
    · rename_i hz
      rw [M.bind_apply, M.lift_apply]
      have h1 : (1 : UInt32).toNat = 1 := rfl
      have ha : (add32 m i 1 : Res IoErr UInt32) = .ok (i + 1) := add32_eq m (by omega)
      rw [ha]
      simp only
      have := ih (i := i + 1) (e := e) (parts := PMap.insert (i + 1) (partitionOfBytes (slice d.data d.pos 128)) parts) (d := { d with pos := d.pos + 128 }) hf (by omega) (by show d.pos + 128 + 128 * n ≤ d.data.length; omega)
        (he.imp id (fun h => by omega))
      obtain ⟨t, ht⟩ := this
      exact ⟨t, by rw [ht]; simp only [hpos]⟩

theorem readEntries_quiet (m : Mode) (n : Nat) (i : UInt32) (e : Nat) (parts : PMap) :
    M.Pres Dev.Quiet (readEntries m n i e parts) := by
  have C := Dev.quiet_chain
  induction n generalizing i e parts with
  | zero => exact M.Pres.pure C _
  | succ n ih =>
    unfold readEntries
    refine M.Pres.bind C (Dev.readExact_quiet _) fun b => ?_
    split
    · exact M.Pres.bind C (M.Pres.lift C _) fun _ => ih _ _ _
    · exact M.Pres.bind C (M.Pres.lift C _) fun _ => ih _ _ _

theorem fileReadPartitions_quiet (m : Mode) (h : Header) (lb : LbSize) : M.Pres Dev.Quiet (fileReadPartitions m h lb) := by
  have C := Dev.quiet_chain
  unfold fileReadPartitions
  refine M.Pres.bind C (M.Pres.lift C _) fun _ => ?_
  refine M.Pres.bind C (Dev.seekStart_quiet _) fun _ => ?_
  split
  · exact M.Pres.panic C
  refine M.Pres.bind C (readEntries_quiet _ _ _ _ _) fun _ => ?_
  refine M.Pres.bind C (Dev.seekStart_quiet _) fun _ => ?_
  refine M.Pres.bind C (M.Pres.lift C _) fun _ => ?_
  refine M.Pres.bind C (Dev.readExact_quiet _) fun _ => ?_
  split
  · exact M.Pres.throw C _
  · exact M.Pres.pure C _

theorem count128 (n : UInt32) : (n.toUInt64 * (128 : UInt32).toUInt64).toNat = n.toNat * 128 := by
  have h1 := n.toNat_lt
  have h2 : (128 : UInt32).toUInt64.toNat = 128 := rfl
  rw [UInt64.toNat_mul, h2, UInt32.toNat_toUInt64, Nat.mod_eq_of_lt (by omega)]

theorem checkedMul_count (n : UInt32) :
    checkedMul64 n.toUInt64 (128 : UInt32).toUInt64 = some (n.toUInt64 * (128 : UInt32).toUInt64) := by
  have h1 := n.toNat_lt
  have h2 : (128 : UInt32).toUInt64.toNat = 128 := rfl
  unfold checkedMul64
  rw [if_pos]
  rw [h2, UInt32.toNat_toUInt64]
  omega

/-- What a successful `file_read_partitions` found, whatever the faults. -/
theorem fileReadPartitions_ok {m : Mode} {h : Header} {lb : LbSize} {t : PMap} {d d' : Dev}
    (hok : fileReadPartitions m h lb d = (.ok t, d')) :
    h.partStart.toNat * lb.usize < 2 ^ 64 ∧ h.partSize = 128 ∧ d'.data = d.data ∧
    (h.numParts = 0 ∨ h.partStart.toNat * lb.usize + 128 * h.numParts.toNat ≤ d.data.length) ∧
    crc32 (slice d.data (h.partStart.toNat * lb.usize) (128 * h.numParts.toNat)) = h.crc32Parts ∧
    t = tableAt d.data (h.partStart.toNat * lb.usize) h.numParts.toNat 0 := by
  unfold fileReadPartitions at hok
  simp only [M.bind_ok, M.lift_ok, Res.ofOption_eq_ok] at hok
  obtain ⟨ps, d1, ⟨hps, rfl⟩, _, d2, hs, hok⟩ := hok
  obtain ⟨hps1, hps2⟩ := checkedMul64_some.mp hps
  rw [lb_u64_toNat] at hps1 hps2
  obtain ⟨rfl, hd2, _⟩ := Dev.seekStart_ok hs
  split at hok
  · simp [M.panic_ok] at hok
  rename_i h128
  simp only [ne_eq, Decidable.not_not] at h128
  simp only [M.bind_ok, M.lift_ok, Res.ofOption_eq_ok] at hok
  obtain ⟨t', d3, hr, _, d4, hs2, len, d5, ⟨hlen, rfl⟩, tb, d6, hrd, hok⟩ := hok
  have hzero : (0 : UInt32).toNat = 0 := rfl
  have hn := h.numParts.toNat_lt
  obtain ⟨rfl, hd4, _⟩ := Dev.seekStart_ok hs2
  obtain ⟨ht, hd3, hx⟩ := readEntries_ok (off := h.partStart.toNat * lb.usize) h.numParts.toNat (by rw [hzero]; omega)
    (by rw [hd2, hzero, hps2]; rfl) (by simp) hr
  rw [h128, checkedMul_count] at hlen
  obtain rfl := Option.some.inj hlen
  rw [count128] at hrd
  obtain ⟨htb, hd6, _⟩ := Dev.readExact_ok hrd
  have e2 : d2.data = d1.data := by rw [hd2]
  have e4 : d5.data = d1.data := by rw [hd4]; exact hd3.trans e2
  have e4p : d5.pos = h.partStart.toNat * lb.usize := by rw [hd4, hps2]
  split at hok
  · simp [M.throw_ok] at hok
  rename_i hcrc
  rw [M.pure_ok] at hok
  obtain ⟨rfl, rfl⟩ := hok
  simp only [ne_eq, Decidable.not_not] at hcrc
  refine ⟨hps1, h128, hd6.trans e4, ?_, ?_, ?_⟩
  · rcases hx with hx | hx
    · left
      exact UInt32.toNat_inj.mp hx
    · right
      rw [e2, hzero] at hx
      omega
  · rw [← hcrc, htb, e4, e4p, Nat.mul_comm 128]
  · rw [ht, e2]
    rfl

/-- Without faults, reading the array succeeds exactly as its checksum says. -/
theorem fileReadPartitions_nil {m : Mode} {h : Header} {lb : LbSize} {d : Dev} (hf : d.faults = [])
    (hs : h.partStart.toNat * lb.usize < 2 ^ 64) (h128 : h.partSize = 128)
    (hlen : h.partStart.toNat * lb.usize + 128 * h.numParts.toNat ≤ d.data.length)
    (he : m = .release ∨ h.numParts.toNat < 2 ^ 31) :
    ∃ p, fileReadPartitions m h lb d =
      (if crc32 (slice d.data (h.partStart.toNat * lb.usize) (128 * h.numParts.toNat)) = h.crc32Parts then
        .ok (tableAt d.data (h.partStart.toNat * lb.usize) h.numParts.toNat 0)
       else .err (.other "partition table CRC mismatch"), { d with pos := p }) := by
  have hzero : (0 : UInt32).toNat = 0 := rfl
  have hn := h.numParts.toNat_lt
  have hps : checkedMul64 h.partStart lb.u64 = some (h.partStart * lb.u64) := by
    unfold checkedMul64
    rw [if_pos (by rw [lb_u64_toNat]; exact hs)]
  have hps2 : (h.partStart * lb.u64).toNat = h.partStart.toNat * lb.usize := by
    rw [UInt64.toNat_mul, lb_u64_toNat, Nat.mod_eq_of_lt hs]
  obtain ⟨t, ht⟩ := readEntries_nil (m := m) h.numParts.toNat (i := 0) (e := 0) (parts := [])
    (d := { d with pos := (h.partStart * lb.u64).toNat }) hf (by rw [hzero]; omega)
    (by show (h.partStart * lb.u64).toNat + _ ≤ _; rw [hps2]; exact hlen) (he.imp id (fun h => by omega))
  have htt := (readEntries_ok (off := h.partStart.toNat * lb.usize) h.numParts.toNat (by rw [hzero]; omega)
    (by show (h.partStart * lb.u64).toNat = _; rw [hps2]; rfl) (by simp) ht).1
  unfold fileReadPartitions
  simp only [M.bind_apply, M.lift_apply, hps, Res.ofOption_some]
  rw [Dev.seekStart_nil hf]
  simp only
  rw [if_neg (by rw [h128]; simp)]
  simp only [M.bind_apply, M.lift_apply]
  rw [ht]
  simp only
  rw [Dev.seekStart_nil (by exact hf)]
  simp only
  rw [h128, checkedMul_count]
  simp only [Res.ofOption_some]
  rw [count128, Dev.readExact_nil (by exact hf) (by show (h.partStart * lb.u64).toNat + _ ≤ d.data.length; rw [hps2]; omega)]
  simp only
  rw [hps2, Nat.mul_comm h.numParts.toNat 128]
  refine ⟨h.partStart.toNat * lb.usize + 128 * h.numParts.toNat, ?_⟩
  by_cases hc : crc32 (slice d.data (h.partStart.toNat * lb.usize) (128 * h.numParts.toNat)) = h.crc32Parts
  · rw [if_neg (by rw [hc]; simp), if_pos hc, M.pure_apply, htt]
    rfl
  · rw [if_pos hc, if_neg hc]
    rfl

/-- The table loop does not panic in release mode, with fewer than `2^31` entries, or on a device under 256 GiB (where
the debug counter cannot overflow), whatever the faults. -/
theorem readEntries_noPanic {m : Mode} (n : Nat) {i : UInt32} {e : Nat} {parts : PMap} {d : Dev}
    (hi : i.toNat + n < 2 ^ 32) (hp : 128 * e ≤ d.pos)
    (he : m = .release ∨ e + n < 2 ^ 31 ∨ d.data.length < 2 ^ 38) :
    (readEntries m n i e parts d).1 ≠ .panic := by
  induction n generalizing i e parts d with
  | zero => simp [readEntries]
  | succ n ih =>
    unfold readEntries
    rw [M.bind_apply]
    cases hr : Dev.readExact 128 d with
    | mk r d1 => cases r with
      | err e => simp
      | panic => exact absurd (congrArg Prod.fst hr) (Dev.readExact_noPanic 128 d)
      | ok b =>
        obtain ⟨-, hd, hp1, -, -, hl⟩ := Dev.readExact_ok hr
        have hi1 : (i + 1).toNat = i.toNat + 1 := u32_succ (by omega)
        have h1 : (1 : UInt32).toNat = 1 := rfl
        simp only
        split
        · rw [M.bind_apply, M.lift_apply]
          cases ha : (arith m (decide (e + 1 < 2 ^ 31)) () : Res IoErr Unit) with
          | err x => simp
          | panic =>
            obtain ⟨hm, hb⟩ := arith_panic.mp ha
            simp only [decide_eq_false_iff_not] at hb
            rcases he with he | he | he
            · rw [hm] at he; cases he
            · omega
            · omega
          | ok x =>
            simp only
            refine ih (by omega) (by omega) ?_
            rcases he with he | he | he
            · exact .inl he
            · exact .inr (.inl (by omega))
            · exact .inr (.inr (by rw [hd]; exact he))
        · rw [M.bind_apply, M.lift_apply, add32_eq m (by omega)]
          simp only
          refine ih (by omega) (by omega) ?_
          rcases he with he | he | he
          · exact .inl he
          · exact .inr (.inl (by omega))
          · exact .inr (.inr (by rw [hd]; exact he))

/-- Reading the table does not panic for entries of 128 bytes. -/
theorem fileReadPartitions_noPanic {m : Mode} {h : Header} {lb : LbSize} {d : Dev} (h128 : h.partSize = 128)
    (he : m = .release ∨ h.numParts.toNat < 2 ^ 31 ∨ d.data.length < 2 ^ 38) :
    (fileReadPartitions m h lb d).1 ≠ .panic := by
  have hz : (0 : UInt32).toNat = 0 := rfl
  have hlt := h.numParts.toNat_lt
  unfold fileReadPartitions
  rw [M.bind_apply, M.lift_apply]
  cases checkedMul64 h.partStart lb.u64 with
  | none => simp [Res.ofOption]
  | some ps =>
    simp only [Res.ofOption]
    rw [M.bind_apply]
    have hn := Dev.seekStart_noPanic ps d
    have hq := Dev.seekStart_quiet ps d
    rcases hs : Dev.seekStart ps d with ⟨r, d1⟩
    rw [hs] at hn hq
    cases r with
    | err e => simp
    | panic => exact absurd rfl hn
    | ok x =>
      simp only
      rw [if_neg (by simp [h128]), M.bind_apply]
      have hn2 := readEntries_noPanic (m := m) h.numParts.toNat (i := 0) (e := 0) (parts := []) (d := d1) (by omega) (by omega)
        (by rw [hq.data, Nat.zero_add]; exact he)
      rcases hr : readEntries m h.numParts.toNat 0 0 [] d1 with ⟨r, d2⟩
      rw [hr] at hn2
      cases r with
      | err e => simp
      | panic => exact absurd rfl hn2
      | ok t =>
        simp only
        refine M.NoPanic.bind (Dev.seekStart_noPanic ps) (fun _ => ?_) d2
        refine M.NoPanic.bind (M.NoPanic.lift Res.ofOption_ne_panic) fun _ => ?_
        refine M.NoPanic.bind (Dev.readExact_noPanic _) fun _ => ?_
        split
        · exact M.NoPanic.throw _
        · exact M.NoPanic.pure _

end Gpt
