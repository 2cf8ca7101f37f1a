import Verif.Model.Live
import Verif.Lemmas.Open
import Verif.Lemmas.ReadTable
/-!
# Reading a device that changes, call by call
-/

namespace Gpt

/-- The table of `n` slots from number `i` on, slot `j` holding `f j`. -/
def slotsTable (f : Nat → Bytes) : (n i : Nat) → PMap
  | 0, _ => []
  | n + 1, i =>
    if f i = zeros 128 then slotsTable f n (i + 1)
    else (UInt32.ofNat (i + 1), partitionOfBytes (f i)) :: slotsTable f n (i + 1)

theorem slotsTable_slice (data : Bytes) (off n i : Nat) : slotsTable (fun j => slice data (off + 128 * j) 128) n i = tableAt data off n i := by
  induction n generalizing i with
  | zero => rfl
  | succ n ih => unfold slotsTable tableAt; rw [ih]

theorem slotsTable_congr {f g : Nat → Bytes} (n i : Nat) (h : ∀ j, i ≤ j → j < i + n → f j = g j) : slotsTable f n i = slotsTable g n i := by
  induction n generalizing i with
  | zero => rfl
  | succ n ih =>
    unfold slotsTable
    rw [h i (by omega) (by omega), ih (i + 1) fun j h1 h2 => h j (by omega) (by omega)]

namespace Live

theorem seekStart_ok {n v : UInt64} {l l' : Live} (h : seekStart n l = (.ok v, l')) :
    v = n ∧ l' = { l with time := l.time + 1, pos := n.toNat } := by
  cases h; exact ⟨rfl, rfl⟩

theorem readExact_ok {n : Nat} {b : Bytes} {l l' : Live} (h0 : n ≠ 0) (h : readExact n l = (.ok b, l')) :
    l.pos + n ≤ (l.view l.time).length ∧ b = slice (l.view l.time) l.pos n ∧ l' = { l with time := l.time + 1, pos := l.pos + n } := by
  unfold readExact at h
  rw [if_neg h0] at h
  split at h
  · cases h; exact ⟨by assumption, rfl, rfl⟩
  · cases h

theorem readExact_eq {n : Nat} {l : Live} (h0 : n ≠ 0) (hl : l.pos + n ≤ (l.view l.time).length) :
    readExact n l = (.ok (slice (l.view l.time) l.pos n), { l with time := l.time + 1, pos := l.pos + n }) := by
  unfold readExact
  rw [if_neg h0, if_pos hl]

theorem fileReadHeader_eq (off : UInt64) (l : Live) :
    ∃ p, fileReadHeader off l = (readHeaderAt (l.view (l.time + 1)) off.toNat, { l with time := l.time + 2, pos := p }) := by
  unfold fileReadHeader readHeaderAt
  simp only [M.bind_apply, M.attempt_apply, M.mapErr_apply, seekStart]
  by_cases hl : off.toNat + 92 ≤ (l.view (l.time + 1)).length
  · rw [readExact_eq (by decide) (by exact hl), if_pos hl]
    simp only [Res.mapErr_ok, M.lift_apply]
    exact ⟨_, rfl⟩
  · unfold readExact
    rw [if_neg (by decide), if_neg (by exact hl), if_neg hl]
    simp only [Res.mapErr_err]
    exact ⟨_, rfl⟩

theorem readPrimaryHeader_eq (lb : LbSize) (l : Live) :
    ∃ p, readPrimaryHeader lb l = (readHeaderAt (l.view (l.time + 2)) lb.usize, { l with time := l.time + 4, pos := p }) := by
  unfold readPrimaryHeader
  simp only [M.bind_apply, M.attempt_apply, streamPosition]
  obtain ⟨p, e⟩ := fileReadHeader_eq lb.u64 { l with time := l.time + 1 }
  rw [e, lb_u64_toNat]
  have hnp := readHeaderAt_noPanic (l.view (l.time + 2)) lb.usize
  show ∃ p, _ = (readHeaderAt (l.view (l.time + 2)) lb.usize, _)
  cases hx : readHeaderAt (l.view (l.time + 2)) lb.usize with
  | panic => exact absurd hx hnp
  | ok h =>
    exact ⟨_, rfl⟩
  | err e =>
    exact ⟨_, rfl⟩

theorem findBackupLba_eq (lb : LbSize) (l : Live) {L : Nat} (hL : ∀ t, (l.view t).length = L) (hlen : L < 2 ^ 64) :
    ∃ p, findBackupLba lb l =
      (if L < 3 * lb.usize then .err .toSmallForBackup else .ok (UInt64.ofNat (lastBlock L lb)), { l with time := l.time + 3, pos := p }) := by
  unfold findBackupLba
  simp only [M.bind_apply, M.mapErr_apply, streamPosition, seekEnd, seekStart, hL, Res.mapErr_ok]
  have h1 : (UInt64.ofNat L).toNat = L := by rw [UInt64.toNat_ofNat', Nat.mod_eq_of_lt hlen]
  have hc : UInt64.ofNat L < lb.u64 * 3 ↔ L < 3 * lb.usize := by
    rw [UInt64.lt_iff_toNat_lt, h1, lb3, Nat.mul_comm]
  by_cases h : L < 3 * lb.usize
  · rw [if_pos (hc.mpr h), if_pos h]; exact ⟨_, rfl⟩
  · rw [if_neg (fun e => h (hc.mp e)), if_neg h]
    have hsec : (UInt64.ofNat L - lb.u64) / lb.u64 = UInt64.ofNat (lastBlock L lb) := by
      apply UInt64.toNat_inj.mp
      have hu := lb_u64_toNat lb
      have hpos := lb_pos lb
      rw [UInt64.toNat_div, u64_sub_toNat (by rw [hu, h1]; omega), hu, h1, UInt64.toNat_ofNat', sub_div_self,
        Nat.mod_eq_of_lt]
      · rfl
      · unfold lastBlock
        have := Nat.div_le_self L lb.usize
        omega
    rw [hsec]
    exact ⟨_, rfl⟩

theorem readBackupHeader_eq (lb : LbSize) (l : Live) {L : Nat} (hL : ∀ t, (l.view t).length = L) (hlen : L < 2 ^ 64) :
    ∃ dt p, 4 ≤ dt ∧ readBackupHeader lb l = (readBackupAt (l.view (l.time + 5)) lb, { l with time := l.time + dt, pos := p }) ∧
      (3 * lb.usize ≤ L → dt = 7) := by
  unfold readBackupHeader readBackupAt
  simp only [M.bind_apply, M.attempt_apply, M.lift_apply, streamPosition, hL]
  obtain ⟨p, e⟩ := findBackupLba_eq lb { l with time := l.time + 1 } hL hlen
  rw [e]
  by_cases h : L < 3 * lb.usize
  · simp only [if_pos h]
    exact ⟨4, _, by omega, rfl, fun hh => by omega⟩
  · simp only [if_neg h]
    have hl := lastBlock_lt (lb := lb) (Nat.not_lt.mp h)
    have h1 : (UInt64.ofNat (lastBlock L lb)).toNat = lastBlock L lb := by
      rw [UInt64.toNat_ofNat', Nat.mod_eq_of_lt]
      have := Nat.div_le_self L lb.usize
      unfold lastBlock; omega
    obtain ⟨r, e1, e2⟩ := checkedMul64_lb (a := UInt64.ofNat (lastBlock L lb)) (lb := lb) (by
      rw [h1]
      have := hl.2.1
      have : (lastBlock L lb + 1) * lb.usize = lastBlock L lb * lb.usize + lb.usize := by
        rw [Nat.add_mul, Nat.one_mul]
      omega)
    rw [e1]
    simp only [Res.ofOption_some]
    obtain ⟨q, hr⟩ := fileReadHeader_eq r { l with time := l.time + 1 + 3, pos := p }
    rw [hr, e2, h1]
    have hb : lastBlock L lb * lb.usize = backupOffset L lb := rfl
    rw [hb]
    have hnp := readHeaderAt_noPanic (l.view (l.time + 5)) (backupOffset L lb)
    show ∃ dt p, _ ∧ _ = (readHeaderAt (l.view (l.time + 5)) (backupOffset L lb), _) ∧ _
    cases hx : readHeaderAt (l.view (l.time + 5)) (backupOffset L lb) with
    | panic => exact absurd hx hnp
    | ok h =>
      exact ⟨7, _, by omega, rfl, fun _ => rfl⟩
    | err e =>
      exact ⟨7, _, by omega, rfl, fun _ => rfl⟩

/-- A successful reading of the entries: slot `j` is what its call found. -/
theorem readEntries_ok {m : Mode} {off : Nat} {f : Nat → Bytes} {T : Nat} (n : Nat) {i : UInt32} {e : Nat} {parts t : PMap} {l l' : Live}
    (hi : i.toNat + n < 2 ^ 32) (hp : l.pos = off + 128 * i.toNat) (hT : l.time = T + i.toNat) (hk : ∀ x ∈ parts, x.1.toNat ≤ i.toNat)
    (hf : ∀ j, f j = slice (l.view (T + j)) (off + 128 * j) 128)
    (h : readEntries m n i e parts l = (.ok t, l')) :
    t = parts ++ slotsTable f n i.toNat ∧ l'.view = l.view ∧ l'.time = T + i.toNat + n ∧
      ∀ j, i.toNat ≤ j → j < i.toNat + n → off + 128 * j + 128 ≤ (l.view (T + j)).length := by
  have h1 : (1 : UInt32).toNat = 1 := rfl
  induction n generalizing i e parts l with
  | zero =>
    simp only [readEntries, M.pure_ok] at h
    obtain ⟨rfl, rfl⟩ := h
    exact ⟨by simp [slotsTable], rfl, hT, fun j h1 h2 => by omega⟩
  | succ n ih =>
    unfold readEntries at h
    rw [M.bind_ok] at h
    obtain ⟨b, l1, hb, h⟩ := h
    obtain ⟨hl, hb1, rfl⟩ := readExact_ok (by decide) hb
    have hi1 : (i + 1).toNat = i.toNat + 1 := u32_succ (by omega)
    rw [hp, hT] at hb1 hl
    rw [← hf] at hb1
    have hrest : ∀ {e' : Nat} {parts' : PMap}, (∀ x ∈ parts', x.1.toNat ≤ (i + 1).toNat) →
        readEntries m n (i + 1) e' parts' { l with time := l.time + 1, pos := l.pos + 128 } = (.ok t, l') →
        t = parts' ++ slotsTable f n (i.toNat + 1) ∧ l'.view = l.view ∧ l'.time = T + i.toNat + (n + 1) ∧
          ∀ j, i.toNat ≤ j → j < i.toNat + (n + 1) → off + 128 * j + 128 ≤ (l.view (T + j)).length := by
      intro e' parts' hk' h'
      obtain ⟨a, b, c, d⟩ := ih (l := { l with time := l.time + 1, pos := l.pos + 128 }) (by omega) (by show l.pos + 128 = _; rw [hi1]; omega)
        (by show l.time + 1 = _; rw [hi1]; omega) hk' hf h'
      rw [hi1] at a c d
      refine ⟨a, b, by omega, fun j j1 j2 => ?_⟩
      rcases Nat.eq_or_lt_of_le j1 with rfl | j1
      · exact hl
      · exact d j (by omega) (by omega)
    split at h
    · rename_i hz
      rw [M.bind_ok] at h
      obtain ⟨_, l2, hl2, h⟩ := h
      rw [M.lift_ok] at hl2
      obtain ⟨_, rfl⟩ := hl2
      obtain ⟨a, b, c, d⟩ := hrest (fun x hx => by have := hk x hx; omega) h
      refine ⟨?_, b, c, d⟩
      rw [a]
      conv => rhs; unfold slotsTable
      rw [← hb1, if_pos hz]
    · rename_i hz
      rw [M.bind_ok] at h
      obtain ⟨k, l2, hl2, h⟩ := h
      rw [M.lift_ok] at hl2
      obtain ⟨hk2, rfl⟩ := hl2
      obtain rfl := add32_ok hk2
      have hins : PMap.insert (i + 1) (partitionOfBytes b) parts = parts ++ [(i + 1, partitionOfBytes b)] := by
        apply PMap.insert_last
        intro x hx
        have := hk x hx
        rw [UInt32.lt_iff_toNat_lt]
        omega
      rw [hins] at h
      obtain ⟨a, b', c, d⟩ := hrest (by
        intro x hx
        rcases List.mem_append.mp hx with hx | hx
        · have := hk x hx; omega
        · rw [List.mem_singleton] at hx; subst hx; exact Nat.le_refl _) h
      refine ⟨?_, b', c, d⟩
      rw [a]
      conv => rhs; unfold slotsTable
      rw [← hb1, if_neg hz]
      have : i + 1 = UInt32.ofNat (i.toNat + 1) := by
        rw [← UInt32.toNat_inj, hi1, UInt32.toNat_ofNat', Nat.mod_eq_of_lt (by omega)]
      rw [this]
      simp

/-- The entries can be read if there are that many bytes at all times. -/
theorem readEntries_runs {m : Mode} {L : Nat} (n : Nat) {i : UInt32} {e : Nat} {parts : PMap} {l : Live} (hL : ∀ t, (l.view t).length = L)
    (hi : i.toNat + n < 2 ^ 32) (hlen : l.pos + 128 * n ≤ L) (he : m = .release ∨ e + n < 2 ^ 31) :
    ∃ t l', readEntries m n i e parts l = (.ok t, l') := by
  induction n generalizing i e parts l with
  | zero => exact ⟨parts, l, rfl⟩
  | succ n ih =>
    unfold readEntries
    rw [M.bind_apply, readExact_eq (by decide) (by rw [hL]; omega)]
    simp only
    have hi1 : (i + 1).toNat = i.toNat + 1 := u32_succ (by omega)
    split
    · rw [M.bind_apply, M.lift_apply]
      have ha : (arith m (decide (e + 1 < 2 ^ 31)) () : Res IoErr Unit) = .ok () := by
        unfold arith
        rcases he with rfl | he
        · simp
        · rw [if_pos]
          simp only [decide_eq_true_eq]
          omega
      rw [ha]
      exact ih hL (by omega) (by show l.pos + 128 + 128 * n ≤ L; omega) (he.imp id (fun h => by omega))
    · rw [M.bind_apply, M.lift_apply]
      have h1 : (1 : UInt32).toNat = 1 := rfl
      have ha : (add32 m i 1 : Res IoErr UInt32) = .ok (i + 1) := add32_eq m (by omega)
      rw [ha]
      exact ih hL (by omega) (by show l.pos + 128 + 128 * n ≤ L; omega) (he.imp id (fun h => by omega))

/-- What a successful reading of the table gives: the entries as their calls found them, and the checksum of the array as the last call
found it. -/
theorem fileReadPartitions_ok {m : Mode} {h : Header} {lb : LbSize} {t : PMap} {l l' : Live} (hok : fileReadPartitions m h lb l = (.ok t, l')) :
    h.partStart.toNat * lb.usize < 2 ^ 64 ∧ h.partSize = 128 ∧
    (∀ j, j < h.numParts.toNat → h.partStart.toNat * lb.usize + 128 * j + 128 ≤ (l.view (l.time + 1 + j)).length) ∧
    (h.numParts.toNat ≠ 0 → h.partStart.toNat * lb.usize + 128 * h.numParts.toNat ≤ (l.view (l.time + 2 + h.numParts.toNat)).length) ∧
    crc32 (slice (l.view (l.time + 2 + h.numParts.toNat)) (h.partStart.toNat * lb.usize) (128 * h.numParts.toNat)) = h.crc32Parts ∧
    t = slotsTable (fun j => slice (l.view (l.time + 1 + j)) (h.partStart.toNat * lb.usize + 128 * j) 128) h.numParts.toNat 0 := by
  unfold fileReadPartitions at hok
  simp only [M.bind_ok, M.lift_ok, Res.ofOption_eq_ok] at hok
  obtain ⟨ps, l1, ⟨hps, rfl⟩, _, l2, hs, hok⟩ := hok
  obtain ⟨hps1, hps2⟩ := checkedMul64_some.mp hps
  rw [lb_u64_toNat] at hps1 hps2
  obtain ⟨-, rfl⟩ := seekStart_ok hs
  split at hok
  · simp at hok
  rename_i h128
  simp only [ne_eq, Decidable.not_not] at h128
  simp only [M.bind_ok, M.lift_ok, Res.ofOption_eq_ok] at hok
  obtain ⟨t', l3, hr, _, l4, hs2, len, l5, ⟨hlen, rfl⟩, tb, l6, hrd, hok⟩ := hok
  have hzero : (0 : UInt32).toNat = 0 := rfl
  have hn := h.numParts.toNat_lt
  obtain ⟨-, rfl⟩ := seekStart_ok hs2
  obtain ⟨ht, hv, hti, hx⟩ := readEntries_ok (off := h.partStart.toNat * lb.usize) (T := l1.time + 1) (parts := [])
    (l := { l1 with time := l1.time + 1, pos := ps.toNat })
    (f := fun j => slice (l1.view (l1.time + 1 + j)) (h.partStart.toNat * lb.usize + 128 * j) 128) h.numParts.toNat
    (by rw [hzero]; omega) (by show ps.toNat = _; rw [hps2]; rfl) rfl (by simp) (fun _ => rfl) hr
  rw [h128, checkedMul_count] at hlen
  obtain rfl := Option.some.inj hlen
  rw [count128] at hrd
  split at hok
  · simp at hok
  rename_i hcrc
  rw [M.pure_ok] at hok
  obtain ⟨rfl, rfl⟩ := hok
  simp only [ne_eq, Decidable.not_not] at hcrc
  have ht3 : l3.time + 1 = l1.time + 2 + h.numParts.toNat := by rw [hti, hzero]; omega
  refine ⟨hps1, h128, fun j hj => hx j (by omega) (by rw [hzero]; omega), fun h0 => ?_, ?_, ht⟩
  · obtain ⟨a, -⟩ := readExact_ok (by omega) hrd
    have a : ps.toNat + _ ≤ (l3.view (l3.time + 1)).length := a
    rw [hv, ht3, hps2] at a
    have a : _ ≤ (l1.view _).length := a
    omega
  · by_cases h0 : h.numParts.toNat = 0
    · rw [h0] at hrd
      cases hrd
      rw [h0]
      exact hcrc
    · obtain ⟨-, a, -⟩ := readExact_ok (by omega) hrd
      have a : tb = slice (l3.view (l3.time + 1)) ps.toNat _ := a
      rw [hv, ht3, hps2] at a
      rw [← hcrc, a, Nat.mul_comm 128]

/-- It succeeds if there are enough bytes at all times and the last call finds the checksum. -/
theorem fileReadPartitions_runs {m : Mode} {h : Header} {lb : LbSize} {l : Live} {L : Nat} (hL : ∀ t, (l.view t).length = L)
    (hs : h.partStart.toNat * lb.usize < 2 ^ 64) (h128 : h.partSize = 128) (hlen : h.partStart.toNat * lb.usize + 128 * h.numParts.toNat ≤ L)
    (he : m = .release ∨ h.numParts.toNat < 2 ^ 31) (h0 : h.numParts.toNat ≠ 0)
    (hcrc : crc32 (slice (l.view (l.time + 2 + h.numParts.toNat)) (h.partStart.toNat * lb.usize) (128 * h.numParts.toNat)) = h.crc32Parts) :
    ∃ t l', fileReadPartitions m h lb l = (.ok t, l') := by
  obtain ⟨r, e1, e2⟩ := checkedMul64_lb (a := h.partStart) (lb := lb) hs
  have hzero : (0 : UInt32).toNat = 0 := rfl
  have hn := h.numParts.toNat_lt
  obtain ⟨t, l3, hr⟩ := readEntries_runs (m := m) (e := 0) (parts := []) (i := 0) h.numParts.toNat (l := { l with time := l.time + 1, pos := r.toNat })
    hL (by rw [hzero]; omega) (by show r.toNat + _ ≤ L; rw [e2]; exact hlen) (he.imp id (fun h => by omega))
  obtain ⟨-, hv, hti, -⟩ := readEntries_ok (off := h.partStart.toNat * lb.usize) (T := l.time + 1) (parts := [])
    (l := { l with time := l.time + 1, pos := r.toNat })
    (f := fun j => slice (l.view (l.time + 1 + j)) (h.partStart.toNat * lb.usize + 128 * j) 128) h.numParts.toNat
    (by rw [hzero]; omega) (by show r.toNat = _; rw [e2]; rfl) rfl (by simp) (fun _ => rfl) hr
  have hv : l3.view = l.view := hv
  have ht3 : l3.time + 1 = l.time + 2 + h.numParts.toNat := by rw [hti, hzero]; omega
  unfold fileReadPartitions
  simp only [M.bind_apply, M.lift_apply, e1, Res.ofOption_some, seekStart]
  rw [if_neg (by rw [h128]; decide)]
  simp only [M.bind_apply, M.lift_apply, seekStart, hr, h128, checkedMul_count, Res.ofOption_some, count128]
  rw [readExact_eq (by omega) (by show r.toNat + _ ≤ (l3.view (l3.time + 1)).length; rw [hv, hL, e2]; omega)]
  have : crc32 (slice (l3.view (l3.time + 1)) r.toNat (h.numParts.toNat * 128)) = h.crc32Parts := by
    rw [hv, ht3, e2, Nat.mul_comm _ 128]; exact hcrc
  simp only
  rw [if_neg (by rw [this]; simp)]
  exact ⟨_, _, rfl⟩

/-- The headers are read first, each in one call. -/
theorem open_eq (m : Mode) (cfg : GptConfig) (l : Live) {L : Nat} (hL : ∀ t, (l.view t).length = L) (hlen : L < 2 ^ 64) :
    ∃ h1 h2 T p, Res.ofExcept h1 = readHeaderAt (l.view (l.time + 2)) cfg.lbSize.usize ∧
      Res.ofExcept h2 = readBackupAt (l.view (l.time + 9)) cfg.lbSize ∧ (3 * cfg.lbSize.usize ≤ L → T = l.time + 11) ∧ l.time + 8 ≤ T ∧
      (∀ e, selectHeader cfg.onlyValidHeaders h1 h2 = .error e → (openFromDevice m cfg l).1 = .err (.header e)) ∧
      ∀ h, selectHeader cfg.onlyValidHeaders h1 h2 = .ok h → (openFromDevice m cfg l).1 =
        ((fileReadPartitions m h cfg.lbSize { l with time := T, pos := p }).1.mapErr GptError.io).bind fun t => .ok ⟨h.diskGuid, h1, h2, t⟩ := by
  obtain ⟨p, e1⟩ := readPrimaryHeader_eq cfg.lbSize l
  obtain ⟨dt, q, hdt, e2, hd3⟩ := readBackupHeader_eq cfg.lbSize { l with time := l.time + 4, pos := p } hL hlen
  have n1 := readHeaderAt_noPanic (l.view (l.time + 2)) cfg.lbSize.usize
  have n2 := readBackupAt_noPanic (l.view (l.time + 9)) cfg.lbSize
  have e2 : readBackupHeader cfg.lbSize { l with time := l.time + 4, pos := p } =
    (readBackupAt (l.view (l.time + 9)) cfg.lbSize, { l with time := l.time + 4 + dt, pos := q }) := e2
  have a1 : ∃ h1, Res.ofExcept h1 = readHeaderAt (l.view (l.time + 2)) cfg.lbSize.usize ∧
      ((readPrimaryHeader cfg.lbSize).attempt : M Live GptError _) l = (.ok h1, { l with time := l.time + 4, pos := p }) := by
    rw [M.attempt_apply, e1]
    cases hx : readHeaderAt (l.view (l.time + 2)) cfg.lbSize.usize with
    | panic => exact absurd hx n1
    | ok h => exact ⟨.ok h, rfl, rfl⟩
    | err e => exact ⟨.error e, rfl, rfl⟩
  have a2 : ∃ h2, Res.ofExcept h2 = readBackupAt (l.view (l.time + 9)) cfg.lbSize ∧
      ((readBackupHeader cfg.lbSize).attempt : M Live GptError _) { l with time := l.time + 4, pos := p } =
        (.ok h2, { l with time := l.time + 4 + dt, pos := q }) := by
    rw [M.attempt_apply, e2]
    cases hx : readBackupAt (l.view (l.time + 9)) cfg.lbSize with
    | panic => exact absurd hx n2
    | ok h => exact ⟨.ok h, rfl, rfl⟩
    | err e => exact ⟨.error e, rfl, rfl⟩
  obtain ⟨h1, b1, c1⟩ := a1
  obtain ⟨h2, b2, c2⟩ := a2
  have hrest : ∀ h, (match fileReadPartitions m h cfg.lbSize { l with time := l.time + 4 + dt, pos := q } with
      | (.ok t, l') => ((.ok ⟨h.diskGuid, h1, h2, t⟩, l') : Res GptError Found × Live)
      | (.err e, l') => (.err (.io e), l')
      | (.panic, l') => (.panic, l')).1 =
      ((fileReadPartitions m h cfg.lbSize { l with time := l.time + 4 + dt, pos := q }).1.mapErr GptError.io).bind
        fun t => .ok ⟨h.diskGuid, h1, h2, t⟩ := by
    intro h
    rcases fileReadPartitions m h cfg.lbSize { l with time := l.time + 4 + dt, pos := q } with ⟨_ | _ | _, l'⟩ <;> rfl
  refine ⟨h1, h2, l.time + 4 + dt, q, b1, b2, fun h3 => by have := hd3 h3; omega, by omega, fun e he => ?_, fun h he => ?_⟩
  · unfold openFromDevice
    rw [M.bind_apply, c1]
    simp only
    rw [M.bind_apply, c2]
    simp only
    cases h1 <;> cases h2 <;> simp only [selectHeader] at he
    · cases he; rfl
    · split at he
      · cases he
        rename_i ho
        simp only [if_pos ho]; rfl
      · cases he
    · split at he
      · cases he
        rename_i ho
        simp only [if_pos ho]; rfl
      · cases he
    · cases he
  · rw [← hrest]
    unfold openFromDevice
    rw [M.bind_apply, c1]
    simp only
    rw [M.bind_apply, c2]
    simp only
    cases h1 <;> cases h2 <;> simp only [selectHeader] at he
    · cases he
    · split at he
      · cases he
      · cases he
        rename_i ho
        simp only [if_neg ho, M.pure_apply, M.bind_apply, M.mapErr_apply]
        rcases fileReadPartitions m h cfg.lbSize { l with time := l.time + 4 + dt, pos := q } with ⟨_ | _ | _, l'⟩ <;> rfl
    · split at he
      · cases he
      · cases he
        rename_i ho
        simp only [if_neg ho, M.pure_apply, M.bind_apply, M.mapErr_apply]
        rcases fileReadPartitions m h cfg.lbSize { l with time := l.time + 4 + dt, pos := q } with ⟨_ | _ | _, l'⟩ <;> rfl
    · cases he
      simp only [M.pure_apply, M.bind_apply, M.mapErr_apply]
      rcases fileReadPartitions m h cfg.lbSize { l with time := l.time + 4 + dt, pos := q } with ⟨_ | _ | _, l'⟩ <;> rfl

/-- What a successful opening has found, and when. -/
theorem open_ok {m : Mode} {cfg : GptConfig} {l : Live} {o : Found} {L : Nat} (hL : ∀ t, (l.view t).length = L) (hlen : L < 2 ^ 64)
    (hok : (openFromDevice m cfg l).1 = .ok o) :
    ∃ h T, Res.ofExcept o.primaryHeader = readHeaderAt (l.view (l.time + 2)) cfg.lbSize.usize ∧
      Res.ofExcept o.backupHeader = readBackupAt (l.view (l.time + 9)) cfg.lbSize ∧ (3 * cfg.lbSize.usize ≤ L → T = l.time + 11) ∧ l.time + 8 ≤ T ∧
      selectHeader cfg.onlyValidHeaders o.primaryHeader o.backupHeader = .ok h ∧ o.guid = h.diskGuid ∧ h.partSize = 128 ∧
      (h.numParts.toNat ≠ 0 → h.partStart.toNat * cfg.lbSize.usize + 128 * h.numParts.toNat ≤ L) ∧
      crc32 (slice (l.view (T + 2 + h.numParts.toNat)) (h.partStart.toNat * cfg.lbSize.usize) (128 * h.numParts.toNat)) = h.crc32Parts ∧
      o.partitions = slotsTable (fun j => slice (l.view (T + 1 + j)) (h.partStart.toNat * cfg.lbSize.usize + 128 * j) 128) h.numParts.toNat 0 := by
  obtain ⟨h1, h2, T, p, e1, e2, e3, e4, e5, e6⟩ := open_eq m cfg l hL hlen
  rcases hs : selectHeader cfg.onlyValidHeaders h1 h2 with e | h
  · rw [e5 e hs] at hok; cases hok
  · rw [e6 h hs] at hok
    rcases hx : fileReadPartitions m h cfg.lbSize { l with time := T, pos := p } with ⟨r, l'⟩
    rw [hx] at hok
    cases r with
    | err e => cases hok
    | panic => cases hok
    | ok t =>
      obtain rfl : (⟨h.diskGuid, h1, h2, t⟩ : Found) = o := Res.ok.inj hok
      obtain ⟨-, a2, -, a4, a5, a6⟩ := fileReadPartitions_ok hx
      exact ⟨h, T, e1, e2, e3, e4, hs, rfl, a2, fun h0 => by have := a4 h0; rw [hL] at this; exact this, a5, a6⟩

end Live

end Gpt
