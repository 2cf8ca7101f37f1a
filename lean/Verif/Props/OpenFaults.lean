import Verif.Props.Honest
import Verif.Props.Open
/-!
# C109: opening a failing device
-/

namespace Gpt

open GptDisk Spec

namespace Spec

/-- Operation number `i` of those to come fails. -/
def Fails (fs : List Fault) (i : Nat) : Prop := fs.getD i .none ≠ .none

instance (fs : List Fault) (i : Nat) : Decidable (Fails fs i) := inferInstanceAs (Decidable (_ ≠ _))

end Spec

theorem fails_tail (fs : List Fault) (i : Nat) : Fails fs.tail i ↔ Fails fs (i + 1) := by
  unfold Fails
  cases fs <;> simp

theorem fails_zero (d : Dev) : d.nextFault = .none ↔ ¬ Fails d.faults 0 := by
  unfold Fails Dev.nextFault
  cases d.faults <;> simp

/-- `file_read_header` on any device. -/
theorem fileRead_any (off : UInt64) (d : Dev) : (fileReadHeader off d).1 = if Fails d.faults 1 then .err (.io .device) else
    readHeaderAt d.data (if Fails d.faults 0 then d.pos else off.toNat) := by
  unfold fileReadHeader
  rw [M.bind_apply]
  have hs : ∃ r, ((Dev.seekStart off).attempt : M Dev HeaderError _) d = (.ok r, { d.tick with pos := if Fails d.faults 0 then d.pos else off.toNat }) := by
    unfold M.attempt Dev.seekStart
    by_cases h : d.nextFault = .none
    · rw [h, if_neg ((fails_zero d).mp h)]
      exact ⟨_, rfl⟩
    · rw [if_pos (by rw [fails_zero] at h; exact Classical.not_not.mp h)]
      cases hf : d.nextFault with
      | none => exact absurd hf h
      | fail k => exact ⟨_, rfl⟩
  obtain ⟨r, hs⟩ := hs
  rw [hs]
  simp only
  rw [M.bind_apply, M.mapErr_apply]
  generalize (if Fails d.faults 0 then d.pos else off.toNat) = p
  have h1 : ({ d.tick with pos := p } : Dev).nextFault = .none ↔ ¬ Fails d.faults 1 := by
    rw [fails_zero]
    show ¬ Fails d.faults.tail 0 ↔ _
    rw [fails_tail]
  unfold Dev.readExact readHeaderAt
  rw [if_neg (by decide)]
  by_cases h : Fails d.faults 1
  · rw [if_pos h]
    cases hf : ({ d.tick with pos := p } : Dev).nextFault with
    | none => exact absurd h (h1.mp hf)
    | fail k => rfl
  · rw [if_neg h, h1.mpr h]
    simp only
    by_cases hl : p + 92 ≤ d.data.length
    · rw [if_pos hl, if_pos (show p + 92 ≤ d.tick.data.length from hl)]; rfl
    · rw [if_neg hl, if_neg (show ¬ p + 92 ≤ d.tick.data.length from hl)]; rfl

theorem primary_any (lb : LbSize) (d : Dev) : (readPrimaryHeader lb d).1 = if Fails d.faults 2 then .err (.io .device) else
    readHeaderAt d.data (if Fails d.faults 1 then d.pos else lb.usize) := by
  rw [readPrimary_res, fileRead_any]
  show (if Fails d.faults.tail 1 then _ else readHeaderAt d.data (if Fails d.faults.tail 0 then d.pos else _)) = _
  simp only [fails_tail, lb_u64_toNat]

theorem nextFault_ne {d : Dev} (h : Fails d.faults 0) : ∃ k, d.nextFault = .fail k := by
  cases hf : d.nextFault with
  | none => exact absurd h ((fails_zero d).mp hf)
  | fail k => exact ⟨k, rfl⟩

/-- `find_backup_lba` on any device. -/
theorem find_any (lb : LbSize) (d : Dev) (hlen : d.data.length < 2 ^ 64) :
    (Fails d.faults 0 ∨ Fails d.faults 1 ∨ Fails d.faults 2 → (findBackupLba lb d).1 = .err (.io .device)) ∧
    (¬ (Fails d.faults 0 ∨ Fails d.faults 1 ∨ Fails d.faults 2) → findBackupLba lb d =
      (if d.data.length < 3 * lb.usize then .err .toSmallForBackup else .ok (UInt64.ofNat (lastBlock d.data.length lb)),
        { d with pos := (UInt64.ofNat d.pos).toNat, faults := d.faults.drop 3 })) := by
  have hnil := findBackupLba_nil_any (lb := lb) (d := setFaults [] d) rfl hlen
  unfold findBackupLba at hnil ⊢
  simp only [M.bind_apply, M.mapErr_apply] at hnil ⊢
  by_cases h0 : Fails d.faults 0
  · refine ⟨fun _ => ?_, fun h => absurd (.inl h0) h⟩
    obtain ⟨k, hk⟩ := nextFault_ne h0
    unfold Dev.streamPosition
    rw [hk]
    rfl
  have e0 : Dev.streamPosition d = (.ok (UInt64.ofNat d.pos), d.tick) := by
    unfold Dev.streamPosition
    rw [(fails_zero d).mpr h0]
  rw [e0]
  simp only [Res.mapErr_ok]
  by_cases h1 : Fails d.faults 1
  · refine ⟨fun _ => ?_, fun h => absurd (.inr (.inl h1)) h⟩
    obtain ⟨k, hk⟩ := nextFault_ne (d := d.tick) ((fails_tail _ _).mpr h1)
    unfold Dev.seekEnd
    rw [hk]
    rfl
  have e1 : Dev.seekEnd d.tick = (.ok (UInt64.ofNat d.data.length), { d.tick.tick with pos := d.data.length }) := by
    unfold Dev.seekEnd
    rw [(fails_zero d.tick).mpr (fun h => h1 ((fails_tail _ _).mp h))]
    rfl
  rw [e1]
  simp only [Res.mapErr_ok]
  have ht : ∀ {i}, Fails ({ d.tick.tick with pos := d.data.length } : Dev).faults i ↔ Fails d.faults (i + 2) := by
    intro i
    show Fails d.faults.tail.tail i ↔ _
    rw [fails_tail, fails_tail]
  by_cases h2 : Fails d.faults 2
  · refine ⟨fun _ => ?_, fun h => absurd (.inr (.inr h2)) h⟩
    obtain ⟨k, hk⟩ := nextFault_ne (d := { d.tick.tick with pos := d.data.length }) (ht.mpr h2)
    unfold Dev.seekStart
    rw [hk]
    rfl
  have e2 : Dev.seekStart (UInt64.ofNat d.pos) { d.tick.tick with pos := d.data.length } =
      (.ok (UInt64.ofNat d.pos), { d.tick.tick.tick with pos := (UInt64.ofNat d.pos).toNat }) := by
    unfold Dev.seekStart
    rw [(fails_zero _).mpr (fun h => h2 (ht.mp h))]
    rfl
  rw [e2]
  simp only [Res.mapErr_ok]
  refine ⟨fun h => absurd h (by simp [h0, h1, h2]), fun _ => ?_⟩
  have e3 : ({ d.tick.tick.tick with pos := (UInt64.ofNat d.pos).toNat } : Dev) =
      { d with pos := (UInt64.ofNat d.pos).toNat, faults := d.faults.drop 3 } := by
    unfold Dev.tick
    simp only [← List.drop_one, List.drop_drop]
  rw [e3]
  have c1 : Dev.streamPosition (setFaults [] d) = (.ok (UInt64.ofNat d.pos), setFaults [] d) := Dev.streamPosition_nil rfl
  rw [c1] at hnil
  simp only [Res.mapErr_ok] at hnil
  rw [Dev.seekEnd_nil rfl] at hnil
  simp only [Res.mapErr_ok] at hnil
  rw [Dev.seekStart_nil rfl] at hnil
  simp only [Res.mapErr_ok] at hnil
  have hd : (setFaults [] d).data = d.data := rfl
  rw [hd] at hnil
  by_cases hc : UInt64.ofNat d.data.length < lb.u64 * 3
  · rw [if_pos hc] at hnil ⊢
    have he := congrArg Prod.fst hnil
    exact Prod.ext he rfl
  · rw [if_neg hc] at hnil ⊢
    have he := congrArg Prod.fst hnil
    exact Prod.ext he rfl

theorem backup_any (lb : LbSize) (d : Dev) (hlen : d.data.length < 2 ^ 64) : (readBackupHeader lb d).1 =
    if Fails d.faults 1 ∨ Fails d.faults 2 ∨ Fails d.faults 3 then .err (.io .device)
    else if d.data.length < 3 * lb.usize then .err .toSmallForBackup
    else if Fails d.faults 5 then .err (.io .device)
    else readHeaderAt d.data (if Fails d.faults 4 then (UInt64.ofNat d.pos).toNat else lastBlock d.data.length lb * lb.usize) := by
  have h1 : ∃ c, (Dev.streamPosition.attempt : M Dev HeaderError _) d = (.ok c, d.tick) := by
    unfold M.attempt Dev.streamPosition
    cases d.nextFault <;> exact ⟨_, rfl⟩
  have h2 : ∀ n t, ∃ c u, ((Dev.seekStart n).attempt : M Dev HeaderError _) t = (.ok c, u) := by
    intro n t
    unfold M.attempt Dev.seekStart
    cases t.nextFault <;> exact ⟨_, _, rfl⟩
  obtain ⟨c, h1⟩ := h1
  obtain ⟨f1, f2⟩ := find_any lb d.tick hlen
  have ht : ∀ {i}, Fails d.tick.faults i ↔ Fails d.faults (i + 1) := fails_tail _ _
  simp only [ht] at f1 f2
  unfold readBackupHeader
  rw [M.bind_apply, h1]
  simp only
  rw [M.bind_apply]
  by_cases hf : Fails d.faults 1 ∨ Fails d.faults 2 ∨ Fails d.faults 3
  · rw [if_pos hf]
    have := f1 hf
    rcases hx : findBackupLba lb d.tick with ⟨r, t⟩
    rw [hx] at this
    simp only at this
    subst this
    rfl
  rw [if_neg hf, f2 hf]
  have hd : d.tick.data = d.data := rfl
  rw [hd]
  by_cases hs : d.data.length < 3 * lb.usize
  · rw [if_pos hs, if_pos hs]
  rw [if_neg hs, if_neg hs]
  simp only
  have hl := lastBlock_lt (lb := lb) (Nat.not_lt.mp hs)
  have hb : (UInt64.ofNat (lastBlock d.data.length lb)).toNat = lastBlock d.data.length lb := by
    rw [UInt64.toNat_ofNat', Nat.mod_eq_of_lt]
    have := Nat.div_le_self d.data.length lb.usize
    unfold lastBlock; omega
  have hfit : lastBlock d.data.length lb * lb.usize < 2 ^ 64 := by
    have := hl.2.1
    rw [Nat.add_mul] at this
    omega
  have hm : checkedMul64 (UInt64.ofNat (lastBlock d.data.length lb)) lb.u64 = some (UInt64.ofNat (lastBlock d.data.length lb) * lb.u64) := by
    unfold checkedMul64
    rw [if_pos (by rw [hb, lb_u64_toNat]; exact hfit)]
  have hv : (UInt64.ofNat (lastBlock d.data.length lb) * lb.u64).toNat = lastBlock d.data.length lb * lb.usize := by
    rw [UInt64.toNat_mul, hb, lb_u64_toNat, Nat.mod_eq_of_lt hfit]
  rw [M.bind_apply, hm]
  simp only [Res.ofOption, M.lift_apply]
  rw [M.bind_apply]
  generalize ht' : (⟨d.data, (UInt64.ofNat d.tick.pos).toNat, d.tick.cap, d.tick.faults.drop 3, d.tick.log⟩ : Dev) = t
  have hread : (fileReadHeader (UInt64.ofNat (lastBlock d.data.length lb) * lb.u64) t).1 = if Fails d.faults 5 then .err (.io .device)
      else readHeaderAt d.data (if Fails d.faults 4 then (UInt64.ofNat d.pos).toNat else lastBlock d.data.length lb * lb.usize) := by
    subst ht'
    rw [fileRead_any, hv]
    have : ∀ i, Fails (d.tick.faults.drop 3) i ↔ Fails d.faults (i + 4) := by
      intro i
      show Fails (d.faults.tail.drop 3) i ↔ _
      unfold Fails
      rw [← List.drop_one, List.drop_drop]
      simp [List.getD_eq_getElem?_getD, List.getElem?_drop, Nat.add_comm]
    simp only [this]
    rfl
  rw [← hread]
  rcases hx : fileReadHeader (UInt64.ofNat (lastBlock d.data.length lb) * lb.u64) t with ⟨r, u⟩
  cases r with
  | panic =>
    have hat : ((fileReadHeader (UInt64.ofNat (lastBlock d.data.length lb) * lb.u64)).attempt : M Dev HeaderError _) t = (.panic, u) := by
      unfold M.attempt; rw [hx]
    rw [hat]
  | ok h =>
    have hat : ((fileReadHeader (UInt64.ofNat (lastBlock d.data.length lb) * lb.u64)).attempt : M Dev HeaderError _) t = (.ok (.ok h), u) := by
      unfold M.attempt; rw [hx]
    rw [hat]
    simp only
    rw [M.bind_apply]
    obtain ⟨c', w, e⟩ := h2 _ u
    rw [e]
    rfl
  | err h =>
    have hat : ((fileReadHeader (UInt64.ofNat (lastBlock d.data.length lb) * lb.u64)).attempt : M Dev HeaderError _) t = (.ok (.error h), u) := by
      unfold M.attempt; rw [hx]
    rw [hat]
    simp only
    rw [M.bind_apply]
    obtain ⟨c', w, e⟩ := h2 _ u
    rw [e]
    rfl

theorem read_faults (off : UInt64) (d : Dev) : (fileReadHeader off d).2.faults = d.faults.drop 2 := by
  unfold fileReadHeader
  rw [M.bind_apply]
  have hs : ∃ r p, ((Dev.seekStart off).attempt : M Dev HeaderError _) d = (.ok r, { d.tick with pos := p }) := by
    unfold M.attempt Dev.seekStart
    cases d.nextFault <;> exact ⟨_, _, rfl⟩
  obtain ⟨r, p, hs⟩ := hs
  rw [hs]
  simp only
  rw [M.bind_apply, M.mapErr_apply]
  have hr : ∃ r q, Dev.readExact 92 { d.tick with pos := p } = (r, { d.tick.tick with pos := q }) := by
    unfold Dev.readExact
    rw [if_neg (by decide)]
    cases ({ d.tick with pos := p } : Dev).nextFault with
    | none => simp only; split <;> exact ⟨_, _, rfl⟩
    | fail k => exact ⟨_, _, rfl⟩
  obtain ⟨r, q, hr⟩ := hr
  rw [hr]
  have hd : ({ d.tick.tick with pos := q } : Dev).faults = d.faults.drop 2 := by
    show d.faults.tail.tail = _
    simp only [← List.drop_one, List.drop_drop]
  cases r with
  | ok b => exact hd
  | err e => exact hd
  | panic => exact hd

theorem primary_faults (lb : LbSize) (d : Dev) : (readPrimaryHeader lb d).2.faults = d.faults.drop 4 := by
  have h1 : ∃ c, (Dev.streamPosition.attempt : M Dev HeaderError _) d = (.ok c, d.tick) := by
    unfold M.attempt Dev.streamPosition
    cases d.nextFault <;> exact ⟨_, rfl⟩
  have h2 : ∀ n (t : Dev), ∃ c p, ((Dev.seekStart n).attempt : M Dev HeaderError _) t = (.ok c, { t.tick with pos := p }) := by
    intro n t
    unfold M.attempt Dev.seekStart
    cases t.nextFault <;> exact ⟨_, _, rfl⟩
  obtain ⟨c, h1⟩ := h1
  have hf := read_faults lb.u64 d.tick
  have hn := attempt_ofExcept (ε' := HeaderError) (fileReadHeader_noPanic lb.u64 d.tick)
  obtain ⟨r, e1, e2⟩ := hn
  unfold readPrimaryHeader
  rw [M.bind_apply, h1]
  simp only
  rw [M.bind_apply, e2]
  simp only
  rw [M.bind_apply]
  obtain ⟨c', p, e⟩ := h2 _ (fileReadHeader lb.u64 d.tick).2
  rw [e]
  have : ({ (fileReadHeader lb.u64 d.tick).2.tick with pos := p } : Dev).faults = d.faults.drop 4 := by
    show (fileReadHeader lb.u64 d.tick).2.faults.tail = _
    rw [hf]
    show (d.faults.tail.drop 2).tail = _
    simp only [← List.drop_one, List.drop_drop]
  cases r with
  | ok a => exact this
  | error e => exact this

theorem fails_drop (fs : List Fault) (k i : Nat) : Fails (fs.drop k) i ↔ Fails fs (i + k) := by
  unfold Fails
  simp [List.getD_eq_getElem?_getD, List.getElem?_drop, Nat.add_comm]

/-- Reading the table again on the same device without failures. -/
theorem table_again {m : Mode} {h : Header} {lb : LbSize} {d d' e : Dev} {t : PMap} (hr : fileReadPartitions m h lb d = (.ok t, d'))
    (hd : e.data = d.data) (hc : e.cap = d.cap) (hl : e.log = d.log) :
    ∃ e', fileReadPartitions m h lb (setFaults [] e) = (.ok t, e') ∧ Moved (setFaults [] d') e' := by
  obtain ⟨k, r, u, hk⟩ := (honest_table m h lb).run d
  have h1 := hk d.faults
  rw [show setFaults d.faults d = d from rfl, hr] at h1
  by_cases hw : Works k d.faults
  · obtain ⟨rfl, rfl⟩ := Prod.mk.inj (h1.1 hw)
    have h2 := (hk []).1 (works_nil k)
    rw [List.drop_nil] at h2
    obtain ⟨h3, h4⟩ := (loose_table m h lb).run (setFaults [] d) (setFaults [] e) ⟨hd.symm, hc.symm, rfl, hl.symm⟩
    rw [h2] at h3 h4
    exact ⟨(fileReadPartitions m h lb (setFaults [] e)).2, Prod.ext h3.symm rfl, h4⟩
  · obtain ⟨_, h2, -⟩ := h1.2 hw
    cases h2

/-- **C109**: what opening a device with failures finds when the seeks to the headers (operations 1 and 8) do not fail. Each header is the one that is
found on a device that works, or reported as unreadable; if the primary is not reported as unreadable, then opening on a device that works succeeds with the same
disk but for the status of the backup header, and else the backup header is valid and in use. -/
theorem c109_open (m : Mode) (cfg : GptConfig) (d d' : Dev) (s : GptDisk) (hp : d.pos < 2 ^ 64) (hlen : d.data.length < 2 ^ 64)
    (h1 : ¬ Fails d.faults 1) (h8 : ¬ Fails d.faults 8) (hok : openFromDevice m cfg d = (.ok s, d')) :
    (s.primaryHeader ≠ .error (.io .device) → ∃ w e', openFromDevice m cfg (setFaults [] d) = (.ok w, e') ∧
      MovedDisk { setDiskFaults [] s with backupHeader := w.backupHeader } w ∧
      (s.backupHeader = w.backupHeader ∨ s.backupHeader = .error (.io .device))) ∧
    (s.primaryHeader = .error (.io .device) → ∃ h, s.backupHeader = .ok h ∧ BackupValid cfg.lbSize d.data ∧
      HeaderAt d.data (lastBlockOffset cfg.lbSize d.data) h ∧ cfg.onlyValidHeaders = false) := by
  have inj : ∀ {x y : Except HeaderError Header}, Res.ofExcept x = Res.ofExcept y → x = y := by
    intro x y h
    cases x <;> cases y <;> simp [Res.ofExcept] at h <;> rw [h]
  obtain ⟨a, b, e1, e2, e3⟩ := openFromDevice_any m cfg d
  obtain ⟨a', b', f1, f2, f3⟩ := openFromDevice_nil m cfg (d := setFaults [] d) rfl hp hlen
  have q1 := readPrimaryHeader_quiet cfg.lbSize d
  have q2 := q1.trans (readBackupHeader_quiet cfg.lbSize (readPrimaryHeader cfg.lbSize d).2)
  rw [primary_any, if_neg h1] at e1
  rw [backup_any _ _ (by rw [q1.data]; exact hlen), primary_faults, q1.data] at e2
  simp only [fails_drop] at e2
  rw [if_neg (c := Fails d.faults (4 + 4)) h8] at e2
  have eb : Res.ofExcept b = .err (.io .device) ∨ b = b' := by
    rw [e2]
    by_cases c1 : Fails d.faults (1 + 4) ∨ Fails d.faults (2 + 4) ∨ Fails d.faults (3 + 4)
    · exact .inl (if_pos c1)
    · rw [if_neg c1] at e2 ⊢
      by_cases c2 : d.data.length < 3 * cfg.lbSize.usize
      · refine .inr (inj (e2.trans ?_))
        rw [f2, if_pos c2]
        exact (if_pos c2).symm
      · rw [if_neg c2] at e2 ⊢
        by_cases c3 : Fails d.faults (5 + 4)
        · exact .inl (if_pos c3)
        · refine .inr (inj (e2.trans ?_))
          rw [f2, if_neg c3]
          exact (if_neg c2).symm
  have eb' : b = .error (.io .device) ∨ b = b' := eb.imp_left fun h => inj (y := .error (.io .device)) h
  rw [hok] at e3
  cases hsel : selectHeader cfg.onlyValidHeaders a b with
  | error e => rw [hsel] at e3; cases congrArg Prod.fst e3
  | ok h =>
    rw [hsel] at e3
    obtain ⟨g1, g2⟩ := openRest_ok e3.symm
    have p1 : s.primaryHeader = a := by rw [g2]
    have p2 : s.backupHeader = b := by rw [g2]
    have p3 : s.device = d' := by rw [g2]
    refine ⟨fun hne => ?_, fun he => ?_⟩
    · rw [p1] at hne
      have ea : a = a' := by
        by_cases c : Fails d.faults 2
        · rw [if_pos c] at e1
          exact absurd (inj (y := .error (.io .device)) e1) hne
        · rw [if_neg c] at e1
          exact inj (e1.trans f1.symm)
      subst ea
      have hsel' : selectHeader cfg.onlyValidHeaders a b' = .ok h := by
        rcases eb' with rfl | rfl
        · rw [select_spec.1] at hsel ⊢
          rcases hsel with ⟨k1, k2⟩ | ⟨-, -, k3⟩
          · refine .inl ⟨k1, fun hb => ?_⟩
            obtain ⟨k, hk⟩ := k2 hb
            cases hk
          · cases k3
        · exact hsel
      rw [hsel'] at f3
      obtain ⟨e', r1, r2⟩ := table_again (e := d) g1 q2.data.symm q2.cap.symm q2.log.symm
      refine ⟨{ config := cfg, device := e', guid := h.diskGuid, primaryHeader := a, backupHeader := b', partitions := s.partitions, syncAll := false },
        e', ?_, ⟨by show Moved (setFaults [] s.device) e'; rw [p3]; exact r2, ?_⟩, ?_⟩
      · rw [f3]
        show openRest m cfg a b' h (setFaults [] d) = _
        unfold openRest
        rw [M.bind_apply, M.mapErr_apply, r1]
        rfl
      · rw [g2]
        rfl
      · rw [p2]
        exact eb'.symm
    · rw [p1] at he
      subst he
      rw [select_spec.1] at hsel
      rcases hsel with ⟨k1, -⟩ | ⟨k1, -, k3⟩
      · cases k1
      · have hb : b = b' := eb'.resolve_left (by rw [k3]; simp)
        subst hb
        have hv : Res.ofExcept b = .ok h := by rw [k3]; rfl
        obtain ⟨-, -, c2, -⟩ := c05_primary_backup cfg.lbSize (setFaults [] d) rfl hp hlen
        have := (c2 h).mp (by rw [readBackupHeader_nil (d := setFaults [] d) rfl hp hlen]; exact f2.symm.trans hv)
        exact ⟨h, by rw [p2, k3], ⟨this.1, this.2.1⟩, this.2.2, k1⟩

/-- **C109**: with `only_valid_headers`, opening that succeeds on a device with failures (not in the seeks to the headers) gives the disk it gives on a
device that works. -/
theorem c109_strict (m : Mode) (cfg : GptConfig) (d d' : Dev) (s : GptDisk) (hp : d.pos < 2 ^ 64) (hlen : d.data.length < 2 ^ 64)
    (h1 : ¬ Fails d.faults 1) (h8 : ¬ Fails d.faults 8) (ho : cfg.onlyValidHeaders = true) (hok : openFromDevice m cfg d = (.ok s, d')) :
    ∃ w e', openFromDevice m cfg (setFaults [] d) = (.ok w, e') ∧ MovedDisk (setDiskFaults [] s) w := by
  obtain ⟨c1, c2⟩ := c109_open m cfg d d' s hp hlen h1 h8 hok
  have hne : s.primaryHeader ≠ .error (.io .device) := fun he => by
    obtain ⟨_, -, -, -, h⟩ := c2 he
    rw [ho] at h
    cases h
  obtain ⟨w, e', r1, r2, r3⟩ := c1 hne
  obtain ⟨h, _, -, -, hsel, -⟩ := openFromDevice_ok hok
  rw [select_spec.1, ho] at hsel
  have hb : s.backupHeader = w.backupHeader := r3.resolve_right fun he => by
    rcases hsel with ⟨-, k⟩ | ⟨k, -⟩
    · obtain ⟨k, hk⟩ := k rfl
      rw [he] at hk
      cases hk
    · cases k
  refine ⟨w, e', r1, ?_⟩
  rw [← hb] at r2
  exact r2

/-- The two headers of the witness below differ in the GUID and have no slots. -/
def seekHeader (g : Uuid) : Header := { sampleHeader with diskGuid := g, numParts := 0, partSize := 128, crc32Parts := crc32 [] }
/-- A valid header in block 1 and another in block 2, the last one. -/
def seekImage : Bytes :=
  zeros 512 ++ (seekHeader ⟨1, 1, 1, 1⟩).encode (crc32 []) ++ zeros 420 ++ (seekHeader ⟨2, 2, 2, 2⟩).encode (crc32 []) ++ zeros 420

/-- **C109**: `primary_header` as opening finds it. Operations are counted from 0. -/
theorem c109_primary (lb : LbSize) (d : Dev) : (Fails d.faults 2 → (readPrimaryHeader lb d).1 = .err (.io .device)) ∧
    (¬ Fails d.faults 2 → HeaderRead d.data (if Fails d.faults 1 then d.pos else lb.usize) (readPrimaryHeader lb d).1) := by
  rw [primary_any]
  constructor
  · intro h
    rw [if_pos h]
  · intro h
    rw [if_neg h]
    exact headerRead_at _ _

/-- **C109**: `backup_header` as opening finds it. -/
theorem c109_backup (lb : LbSize) (d : Dev) (hp : d.pos < 2 ^ 64) (hlen : d.data.length < 2 ^ 64) :
    (Fails d.faults 1 ∨ Fails d.faults 2 ∨ Fails d.faults 3 → (readBackupHeader lb d).1 = .err (.io .device)) ∧
    (¬ (Fails d.faults 1 ∨ Fails d.faults 2 ∨ Fails d.faults 3) →
      (d.data.length < 3 * lb.usize → (readBackupHeader lb d).1 = .err .toSmallForBackup) ∧
      (3 * lb.usize ≤ d.data.length →
        (Fails d.faults 5 → (readBackupHeader lb d).1 = .err (.io .device)) ∧
        (¬ Fails d.faults 5 → HeaderRead d.data (if Fails d.faults 4 then d.pos else (d.data.length / lb.usize - 1) * lb.usize)
          (readBackupHeader lb d).1))) := by
  rw [backup_any lb d hlen]
  refine ⟨fun h => by rw [if_pos h], fun h => ⟨fun h' => by rw [if_neg h, if_pos h'], fun h' => ⟨fun h5 => ?_, fun h5 => ?_⟩⟩⟩
  · rw [if_neg h, if_neg (by omega), if_pos h5]
  · rw [if_neg h, if_neg (Nat.not_lt.mpr h'), if_neg h5, UInt64.toNat_ofNat_of_lt' hp]
    exact headerRead_at _ _

/-- The GUID that opening gives. -/
def Spec.guidOf : Res GptError GptDisk → Option Uuid
  | .ok s => some s.guid
  | _ => none

/-- **C109**: the seeks do matter. With `only_valid_headers`, when the seek to the primary header (operation 1) fails on a stream left at the backup header,
opening succeeds with the backup header in place of the primary, which is valid and has another GUID. -/
theorem c109_seek : guidOf (openFromDevice .debug { GptConfig.new with onlyValidHeaders := true } ⟨seekImage, 1024, 1536, [], []⟩).1 = some ⟨1, 1, 1, 1⟩ ∧
    guidOf (openFromDevice .debug { GptConfig.new with onlyValidHeaders := true } ⟨seekImage, 1024, 1536, [.none, .fail 0], []⟩).1 = some ⟨2, 2, 2, 2⟩ := by
  decide +kernel

/-- Opening with failures in operation 0 and 2 (the primary header cannot be read) succeeds with the backup header, and with `only_valid_headers` when only
operations 0, 3, 4 and 10 fail. -/
example : guidOf (openFromDevice .debug GptConfig.new ⟨seekImage, 7, 1536, [.fail 0, .none, .fail 5], []⟩).1 = some ⟨2, 2, 2, 2⟩ ∧
    guidOf (openFromDevice .debug { GptConfig.new with onlyValidHeaders := true } ⟨seekImage, 7, 1536,
      [.fail 0, .none, .none, .fail 0, .fail 0, .none, .none, .none, .none, .none, .fail 0], []⟩).1 = some ⟨1, 1, 1, 1⟩ := by
  decide +kernel

end Gpt
