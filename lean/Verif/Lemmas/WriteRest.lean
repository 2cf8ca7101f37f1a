import Verif.Lemmas.WriteLayout
/-!
# The writing part of `write_inplace`: the resulting state, the log, and success without faults
-/

namespace Gpt

/-- The content after an event. -/
def Event.replay (data : Bytes) : Event → Bytes
  | .write o b => patch data o b
  | .flush => data
  | .sync => data

/-- What was done is what the log says. -/
def Dev.Logged (d d' : Dev) : Prop := ∃ l, d'.log = d.log ++ l ∧ d'.data = l.foldl Event.replay d.data

theorem Dev.Logged.refl (d : Dev) : Dev.Logged d d := ⟨[], by simp, rfl⟩
theorem Dev.Logged.trans {a b c : Dev} (h1 : Dev.Logged a b) (h2 : Dev.Logged b c) : Dev.Logged a c := by
  obtain ⟨l, e1, e2⟩ := h1
  obtain ⟨k, e3, e4⟩ := h2
  exact ⟨l ++ k, by rw [e3, e1, List.append_assoc], by rw [e4, e2, List.foldl_append]⟩
theorem Dev.logged_chain : M.Chain Dev.Logged := ⟨Dev.Logged.refl, fun _ _ _ => Dev.Logged.trans⟩
theorem Dev.Quiet.logged {d d' : Dev} (h : Dev.Quiet d d') : Dev.Logged d d' := ⟨[], by simp [h.log], h.data⟩

theorem Dev.writeAll_logged (bs : Bytes) : M.Pres Dev.Logged (Dev.writeAll bs) := by
  intro d
  obtain ⟨k, hk, h1, h2, h3, -⟩ := Dev.writeAll_any bs d
  unfold Dev.put at h1 h3
  split at h1
  · rename_i he
    rw [if_pos he] at h3
    exact ⟨[], by simp [h3], h1⟩
  · rename_i he
    rw [if_neg he] at h3
    exact ⟨[.write d.pos (bs.take k)], h3, h1⟩

theorem Partition.writeToDevice_logged (m : Mode) (p : Partition) (i st : UInt64) (lb : LbSize) (sz : UInt32) :
    M.Pres Dev.Logged (Partition.writeToDevice m p i st lb sz) := by
  have C := Dev.logged_chain
  unfold Partition.writeToDevice
  refine M.Pres.bind C (M.Pres.lift C _) fun _ => ?_
  refine M.Pres.bind C (M.Pres.lift C _) fun _ => ?_
  refine M.Pres.bind C (M.Pres.lift C _) fun _ => ?_
  refine M.Pres.bind C (fun d => (Dev.seekStart_quiet _ d).logged) fun _ => ?_
  exact Dev.writeAll_logged _

theorem Partition.writeZeroEntries_logged (m : Mode) (i n st : UInt64) (lb : LbSize) (sz : UInt32) :
    M.Pres Dev.Logged (Partition.writeZeroEntries m i n st lb sz) := by
  have C := Dev.logged_chain
  unfold Partition.writeZeroEntries
  refine M.Pres.bind C (M.Pres.lift C _) fun _ => ?_
  refine M.Pres.bind C (M.Pres.lift C _) fun _ => ?_
  refine M.Pres.bind C (M.Pres.lift C _) fun _ => ?_
  refine M.Pres.bind C (fun d => (Dev.seekStart_quiet _ d).logged) fun _ => ?_
  refine M.Pres.bind C (M.Pres.lift C _) fun _ => ?_
  refine M.Pres.bind C (M.Pres.lift C _) fun _ => ?_
  exact Dev.writeAll_logged _

theorem Header.fileWriteHeader_logged (lba : UInt64) (lb : LbSize) :
    M.Pres (fun (s s' : Header × Dev) => Dev.Logged s.2 s'.2) (Header.fileWriteHeader lba lb) := by
  have C : M.Chain (fun (s s' : Header × Dev) => Dev.Logged s.2 s'.2) := ⟨fun s => .refl _, fun _ _ _ => Dev.Logged.trans⟩
  unfold Header.fileWriteHeader
  refine M.Pres.bind C (M.Pres.get C) fun s => ?_
  refine M.Pres.bind C (fun s1 => (partentryChecksum_quiet s.1 lb s1.2).logged) fun c => ?_
  refine M.Pres.bind C (fun _ => .refl _) fun _ => ?_
  refine M.Pres.bind C (M.Pres.get C) fun s => ?_
  refine M.Pres.bind C (M.Pres.lift C _) fun s => ?_
  refine M.Pres.bind C (fun _ => .refl _) fun _ => ?_
  refine M.Pres.bind C (M.Pres.lift C _) fun s => ?_
  refine M.Pres.bind C (fun s1 => (Dev.seekStart_quiet _ s1.2).logged) fun c => ?_
  refine M.Pres.bind C (fun s1 => Dev.writeAll_logged _ s1.2) fun c => ?_
  exact M.Pres.pure C _

theorem Header.writePrimary_logged (lb : LbSize) :
    M.Pres (fun (s s' : Header × Dev) => Dev.Logged s.2 s'.2) (Header.writePrimary lb) := by
  have C : M.Chain (fun (s s' : Header × Dev) => Dev.Logged s.2 s'.2) := ⟨fun s => .refl _, fun _ _ _ => Dev.Logged.trans⟩
  unfold Header.writePrimary
  refine M.Pres.bind C (M.Pres.get C) fun s => ?_
  split
  · exact M.Pres.throw C _
  · exact Header.fileWriteHeader_logged _ _

theorem Header.writeBackup_logged (lb : LbSize) :
    M.Pres (fun (s s' : Header × Dev) => Dev.Logged s.2 s'.2) (Header.writeBackup lb) := by
  have C : M.Chain (fun (s s' : Header × Dev) => Dev.Logged s.2 s'.2) := ⟨fun s => .refl _, fun _ _ _ => Dev.Logged.trans⟩
  unfold Header.writeBackup
  refine M.Pres.bind C (M.Pres.get C) fun s => ?_
  split
  · exact M.Pres.throw C _
  · exact Header.fileWriteHeader_logged _ _

namespace GptDisk

theorem writeEntries_logged (m : Mode) (lb : LbSize) (ph : Header) (bh : Option Header) (parts : List Partition) (idx next : Nat) :
    M.Pres Dev.Logged (writeEntries m lb ph bh parts idx next) := by
  have C := Dev.logged_chain
  induction parts generalizing idx next with
  | nil => exact M.Pres.pure C _
  | cons p ps ih =>
    unfold writeEntries
    split
    · exact M.Pres.throw C _
    · refine M.Pres.bind C (M.Pres.mapErr _ (Partition.writeToDevice_logged _ _ _ _ _ _)) fun _ => ?_
      cases bh with
      | none => exact ih _ _
      | some b =>
        simp only
        split
        · exact M.Pres.bind C (M.Pres.throw C _) fun _ => ih _ _
        · split
          · exact M.Pres.bind C (M.Pres.mapErr _ (Partition.writeToDevice_logged _ _ _ _ _ _)) fun _ => ih _ _
          · exact ih _ _

theorem writeZeros_logged (m : Mode) (lb : LbSize) (h : Header) (next : Nat) : M.Pres Dev.Logged (writeZeros m lb h next) := by
  have C := Dev.logged_chain
  unfold writeZeros
  split
  · exact M.Pres.mapErr _ (Partition.writeZeroEntries_logged _ _ _ _ _ _)
  · exact M.Pres.bind C (M.Pres.panic C) fun _ => M.Pres.mapErr _ (Partition.writeZeroEntries_logged _ _ _ _ _ _)

/-- The in-memory disk without its device and headers. -/
structure SameRest (s s' : GptDisk) : Prop where
  config : s'.config = s.config
  guid : s'.guid = s.guid
  partitions : s'.partitions = s.partitions
  syncAll : s'.syncAll = s.syncAll

theorem onDev_ok {ε ε' α : Type} {g : ε → ε'} {x : M Dev ε α} {s s' : GptDisk} {a : α} (h : onDev g x s = (.ok a, s')) :
    x s.device = (.ok a, s'.device) ∧ s' = { s with device := s'.device } := by
  unfold onDev at h
  rw [M.zoom_ok] at h
  obtain ⟨d', hx, rfl⟩ := h
  rw [M.mapErr_ok] at hx
  exact ⟨hx, rfl⟩

theorem writePrimary_ok {lb : LbSize} {h : Header} {d : Dev} {n : Nat} {s' : Header × Dev} (hs : h.signature.length = 8)
    (hr : Header.writePrimary lb (h, d) = (.ok n, s')) :
    s'.1 = h.sealed (Gpt.crc32 (slice d.data (h.arrayStart lb) h.arrayLen)) ∧ h.currentLba < h.backupLba := by
  unfold Header.writePrimary at hr
  rw [M.bind_ok] at hr
  obtain ⟨s, s1, h1, hr⟩ := hr
  rw [M.get_ok] at h1
  obtain ⟨rfl, rfl⟩ := h1
  split at hr
  · simp [M.throw] at hr
  · rename_i hlt
    exact ⟨(Header.fileWriteHeader_ok hs hr).2.1, UInt64.not_le.mp hlt⟩

theorem writeBackup_ok {lb : LbSize} {h : Header} {d : Dev} {n : Nat} {s' : Header × Dev} (hs : h.signature.length = 8)
    (hr : Header.writeBackup lb (h, d) = (.ok n, s')) :
    s'.1 = h.sealed (Gpt.crc32 (slice d.data (h.arrayStart lb) h.arrayLen)) := by
  unfold Header.writeBackup at hr
  rw [M.bind_ok] at hr
  obtain ⟨s, s1, h1, hr⟩ := hr
  rw [M.get_ok] at h1
  obtain ⟨rfl, rfl⟩ := h1
  split at hr
  · simp [M.throw] at hr
  · exact (Header.fileWriteHeader_ok hs hr).2.1

theorem onPrimary_ok {lb : LbSize} {h : Header} {s s' : GptDisk} {u : Unit} (hs : h.signature.length = 8)
    (hr : onPrimary h (Header.writePrimary lb) s = (.ok u, s')) :
    s' = { s with primaryHeader := .ok (h.sealed (Gpt.crc32 (slice s.device.data (h.arrayStart lb) h.arrayLen))), device := s'.device } ∧
    Dev.Logged s.device s'.device := by
  unfold onPrimary at hr
  rcases hx : Header.writePrimary lb (h, s.device) with ⟨r, p⟩
  have hl := Header.writePrimary_logged lb (h, s.device)
  rw [hx] at hr hl
  simp only at hr hl
  cases r with
  | ok n =>
    simp only [Prod.mk.injEq] at hr
    obtain ⟨-, rfl⟩ := hr
    exact ⟨by rw [(writePrimary_ok hs hx).1], hl⟩
  | err e => simp at hr
  | panic => simp at hr

theorem onBackup_ok {lb : LbSize} {h : Header} {s s' : GptDisk} {u : Unit} (hs : h.signature.length = 8)
    (hr : onBackup h (Header.writeBackup lb) s = (.ok u, s')) :
    s' = { s with backupHeader := .ok (h.sealed (Gpt.crc32 (slice s.device.data (h.arrayStart lb) h.arrayLen))), device := s'.device } ∧
    Dev.Logged s.device s'.device := by
  unfold onBackup at hr
  rcases hx : Header.writeBackup lb (h, s.device) with ⟨r, p⟩
  have hl := Header.writeBackup_logged lb (h, s.device)
  rw [hx] at hr hl
  simp only at hr hl
  cases r with
  | ok n =>
    simp only [Prod.mk.injEq] at hr
    obtain ⟨-, rfl⟩ := hr
    exact ⟨by rw [writeBackup_ok hs hx], hl⟩
  | err e => simp at hr
  | panic => simp at hr

theorem SameRest.refl (s : GptDisk) : SameRest s s := ⟨rfl, rfl, rfl, rfl⟩
theorem SameRest.trans {a b c : GptDisk} (h1 : SameRest a b) (h2 : SameRest b c) : SameRest a c :=
  ⟨h2.config.trans h1.config, h2.guid.trans h1.guid, h2.partitions.trans h1.partitions, h2.syncAll.trans h1.syncAll⟩

/-- Only the device changed. -/
structure OnlyDev (s s' : GptDisk) : Prop where
  rest : SameRest s s'
  primary : s'.primaryHeader = s.primaryHeader
  backup : s'.backupHeader = s.backupHeader

theorem OnlyDev.of {s s' : GptDisk} {d : Dev} (h : s' = { s with device := d }) : OnlyDev s s' := by
  subst h; exact ⟨⟨rfl, rfl, rfl, rfl⟩, rfl, rfl⟩

/-- The in-memory backup header after the write. -/
def sealedB (lb : LbSize) (bh : Option Header) (old : Except HeaderError Header) (dA : Bytes) : Except HeaderError Header :=
  match bh with
  | none => old
  | some b => .ok (b.sealed (Gpt.crc32 (slice dA (b.arrayStart lb) b.arrayLen)))

/-- The events that end a successful write. -/
def ending (sync : Bool) : List Event := if sync then [.flush, .sync] else [.flush]

/-- The state after a successful `writeRest`. -/
theorem writeRest_ok {m : Mode} {lb : LbSize} {ph : Header} {bh : Option Header} {parts : List Partition} {sync : Bool}
    {s s' : GptDisk} {u : Unit} (hs : ph.signature.length = 8) (hp : ph.NoWrap lb)
    (hb : ∀ b, bh = some b → b.NoWrap lb ∧ b.signature.length = 8 ∧ b.numParts = ph.numParts)
    (hr : writeRest m lb ph bh parts sync s = (.ok u, s')) :
    let dA := applyWrites s.device.data (arrayPlan lb ph bh parts)
    parts.length ≤ ph.numParts.toNat ∧
    SameRest s s' ∧
    s'.primaryHeader = .ok (ph.sealed (Gpt.crc32 (slice (applyWrites dA (backupW lb bh dA)) (ph.arrayStart lb) ph.arrayLen))) ∧
    s'.backupHeader = sealedB lb bh s.backupHeader dA ∧
    ∃ l, s'.device.log = s.device.log ++ l ++ ending sync ∧ s'.device.data = l.foldl Event.replay s.device.data := by
  unfold writeRest at hr
  rw [M.bind_ok] at hr
  obtain ⟨next, s1, h1, hr⟩ := hr
  rw [M.bind_ok] at hr
  obtain ⟨u2, s2, h2, hr⟩ := hr
  have f1 := (onDev_follows id (writeEntries_follows m hp (fun b hb' => (hb b hb').1) parts 0 0 s.device)).ok h1
  obtain ⟨x1, q1⟩ := onDev_ok h1
  have l1 := writeEntries_logged m lb ph bh parts 0 0 s.device
  rw [x1] at l1
  obtain ⟨e1, e2, -⟩ := writeEntries_ok parts x1
  have hnext : next = parts.length := by
    rw [e1]; split
    · rename_i h; subst h; rfl
    · omega
  have hle : parts.length ≤ ph.numParts.toNat := by
    rcases e2 with rfl | e2
    · exact Nat.zero_le _
    · omega
  subst hnext
  rw [Nat.sub_zero, List.take_of_length_le hle] at f1
  have f2 := (onDev_follows id (writeZeros_follows m hp hle s1.device)).ok h2
  obtain ⟨x2, q2⟩ := onDev_ok h2
  have l2 := writeZeros_logged m lb ph parts.length s1.device
  rw [x2] at l2
  have htail : ∀ s3 : GptDisk, (do
      onPrimary ph (Header.writePrimary lb)
      onDev GptError.io Dev.flush
      if sync = true then onDev GptError.io Dev.syncAll else pure () : M GptDisk GptError Unit) s3 = (.ok u, s') →
      SameRest s3 s' ∧
      s'.primaryHeader = .ok (ph.sealed (Gpt.crc32 (slice s3.device.data (ph.arrayStart lb) ph.arrayLen))) ∧
      s'.backupHeader = s3.backupHeader ∧
      ∃ l, s'.device.log = s3.device.log ++ l ++ ending sync ∧ s'.device.data = l.foldl Event.replay s3.device.data := by
    intro s3 h
    rw [M.bind_ok] at h
    obtain ⟨u4, s4, h4, h⟩ := h
    rw [M.bind_ok] at h
    obtain ⟨u5, s5, h5, h⟩ := h
    obtain ⟨q4, l, l4, l4'⟩ := onPrimary_ok hs h4
    have r4 : SameRest s3 s4 ∧ s4.primaryHeader = .ok (ph.sealed (Gpt.crc32 (slice s3.device.data (ph.arrayStart lb) ph.arrayLen))) ∧
        s4.backupHeader = s3.backupHeader := by
      rw [q4]; exact ⟨⟨rfl, rfl, rfl, rfl⟩, rfl, rfl⟩
    obtain ⟨x5, q5⟩ := onDev_ok h5
    have r5 := OnlyDev.of q5
    have g5 := Dev.flush_ok x5
    cases hsy : sync with
    | false =>
      rw [hsy] at h
      simp only [Bool.false_eq_true, if_false, M.pure_ok] at h
      obtain ⟨-, rfl⟩ := h
      refine ⟨r4.1.trans r5.rest, r5.primary.trans r4.2.1, r5.backup.trans r4.2.2, l, ?_, ?_⟩
      · rw [g5]; simp only; rw [l4]; rfl
      · rw [g5]; exact l4'
    | true =>
      rw [hsy] at h
      simp only [if_true] at h
      obtain ⟨x6, q6⟩ := onDev_ok h
      have g6 : s'.device = { s5.device with faults := s5.device.faults.tail, log := s5.device.log ++ [.sync] } := by
        unfold Dev.syncAll at x6
        split at x6
        · simp only [Prod.mk.injEq] at x6; exact x6.2.symm
        · simp at x6
      have r6 := OnlyDev.of q6
      refine ⟨r4.1.trans (r5.rest.trans r6.rest), r6.primary.trans (r5.primary.trans r4.2.1),
        r6.backup.trans (r5.backup.trans r4.2.2), l, ?_, ?_⟩
      · rw [g6, g5]; simp only; rw [l4]; simp [ending]
      · rw [g6, g5]; exact l4'
  cases bh with
  | none =>
    obtain ⟨q, qp, qb, l, t1, t2⟩ := htail s2 hr
    have r1 := OnlyDev.of q1
    have r2 := OnlyDev.of q2
    have hd : s2.device.data = applyWrites s.device.data (arrayPlan lb ph none parts) := by
      unfold arrayPlan
      rw [f2, f1, ← applyWrites_append]
      simp
    obtain ⟨k, k1, k2⟩ := l1.trans l2
    refine ⟨hle, r1.rest.trans (r2.rest.trans q), ?_, qb.trans (r2.backup.trans r1.backup), k ++ l, ?_, ?_⟩
    · rw [qp, hd]; rfl
    · rw [t1, k1]; simp
    · rw [t2, k2, List.foldl_append]
  | some b =>
    obtain ⟨hb1, hb2, hb3⟩ := hb b rfl
    rw [M.bind_ok] at hr
    obtain ⟨u3, s3, h3, hr⟩ := hr
    rw [M.bind_ok] at hr
    obtain ⟨u4, s4, h4, hr⟩ := hr
    have f3 := (onDev_follows id (writeZeros_follows m hb1 (by rw [hb3]; exact hle) s2.device)).ok h3
    obtain ⟨x3, q3⟩ := onDev_ok h3
    have l3 := writeZeros_logged m lb b parts.length s2.device
    rw [x3] at l3
    have f4 := (onBackup_follows (lb := lb) hb2).ok h4
    obtain ⟨q4, l4⟩ := onBackup_ok hb2 h4
    have hd : s3.device.data = applyWrites s.device.data (arrayPlan lb ph (some b) parts) := by
      unfold arrayPlan
      rw [f3, f2, f1, ← applyWrites_append, ← applyWrites_append]
      simp
    obtain ⟨q, qp, qb, l, t1, t2⟩ := htail s4 hr
    have r1 := OnlyDev.of q1
    have r2 := OnlyDev.of q2
    have r3 := OnlyDev.of q3
    have r4 : SameRest s3 s4 ∧ s4.backupHeader = .ok (b.sealed (Gpt.crc32 (slice s3.device.data (b.arrayStart lb) b.arrayLen))) := by
      rw [q4]; exact ⟨⟨rfl, rfl, rfl, rfl⟩, rfl⟩
    obtain ⟨k, k1, k2⟩ := ((l1.trans l2).trans l3).trans l4
    refine ⟨hle, r1.rest.trans (r2.rest.trans (r3.rest.trans (r4.1.trans q))), ?_, ?_, k ++ l, ?_, ?_⟩
    · rw [qp, f4, hd]; rfl
    · rw [qb, r4.2, hd]; rfl
    · rw [t1, k1]; simp
    · rw [t2, k2, List.foldl_append]

/-! ### Success without faults -/

theorem writeToDevice_nil (m : Mode) (p : Partition) {idx st : UInt64} {lb : LbSize} {sz : UInt32} {d : Dev} (hf : d.faults = [])
    (h1 : st.toNat * lb.usize + idx.toNat * sz.toNat < 2 ^ 64)
    (h2 : st.toNat * lb.usize + idx.toNat * sz.toNat + sz.toNat ≤ d.cap) :
    (Partition.writeToDevice m p idx st lb sz d).1 = .ok () := by
  unfold Partition.writeToDevice
  obtain ⟨a, ha, ha'⟩ := checkedMul64_lb (a := st) (lb := lb) (by omega)
  have hb : checkedMul64 idx sz.toUInt64 = some (idx * sz.toUInt64) := by
    unfold checkedMul64; rw [if_pos (by rw [UInt32.toNat_toUInt64]; omega)]
  have hb' : (idx * sz.toUInt64).toNat = idx.toNat * sz.toNat := by
    rw [u64_mul_toNat (by rw [UInt32.toNat_toUInt64]; omega), UInt32.toNat_toUInt64]
  simp only [M.bind_apply, M.lift_apply, ha, hb, Res.ofOption]
  rw [add64_eq m (by rw [ha', hb']; exact h1)]
  simp only
  rw [Dev.seekStart_nil hf]
  simp only
  rw [Dev.writeAll_nil (by exact hf) (by simp only [Partition.asBytes_length]; rw [u64_add_toNat (by omega), ha', hb']; exact h2)]

theorem writeZeroEntries_nil (m : Mode) {idx n st : UInt64} {lb : LbSize} {sz : UInt32} {d : Dev} (hf : d.faults = [])
    (h1 : st.toNat * lb.usize + idx.toNat * sz.toNat + n.toNat * sz.toNat < 2 ^ 64) (h0 : n.toNat * sz.toNat < 2 ^ 63)
    (h2 : st.toNat * lb.usize + idx.toNat * sz.toNat + n.toNat * sz.toNat ≤ d.cap) :
    (Partition.writeZeroEntries m idx n st lb sz d).1 = .ok () := by
  unfold Partition.writeZeroEntries
  obtain ⟨a, ha, ha'⟩ := checkedMul64_lb (a := st) (lb := lb) (by omega)
  have hb : checkedMul64 idx sz.toUInt64 = some (idx * sz.toUInt64) := by
    unfold checkedMul64; rw [if_pos (by rw [UInt32.toNat_toUInt64]; omega)]
  have hb' : (idx * sz.toUInt64).toNat = idx.toNat * sz.toNat := by
    rw [u64_mul_toNat (by rw [UInt32.toNat_toUInt64]; omega), UInt32.toNat_toUInt64]
  have hc : checkedMul64 sz.toUInt64 n = some (sz.toUInt64 * n) := by
    unfold checkedMul64; rw [if_pos (by rw [UInt32.toNat_toUInt64, Nat.mul_comm]; omega)]
  have hc' : (sz.toUInt64 * n).toNat = n.toNat * sz.toNat := by
    rw [u64_mul_toNat (by rw [UInt32.toNat_toUInt64, Nat.mul_comm]; omega), UInt32.toNat_toUInt64, Nat.mul_comm]
  simp only [M.bind_apply, M.lift_apply, ha, hb, Res.ofOption]
  rw [add64_eq m (by rw [ha', hb']; omega)]
  simp only
  rw [Dev.seekStart_nil hf]
  simp only [hc, vecOf_pos (hc'.trans_lt h0)]
  rw [Dev.writeAll_nil (by exact hf) (by
    simp only [zeros_length]; rw [u64_add_toNat (by omega), ha', hb', hc']; exact h2)]

/-- All slots fit on the device. -/
def Room (h : Header) (lb : LbSize) (cap : Nat) : Prop := h.arrayStart lb + h.arrayLen ≤ cap

theorem slot_room {h : Header} {lb : LbSize} {cap : Nat} (hr : Room h lb cap) (hn : h.NoWrap lb) {idx : Nat} (hi : idx < h.numParts.toNat) :
    h.partStart.toNat * lb.usize + (UInt64.ofNat idx).toNat * h.partSize.toNat < 2 ^ 64 ∧
    h.partStart.toNat * lb.usize + (UInt64.ofNat idx).toNat * h.partSize.toNat + h.partSize.toNat ≤ cap := by
  obtain ⟨h1, h2⟩ := slot_noWrap hn (Nat.le_of_lt hi)
  refine ⟨h1, ?_⟩
  rw [h2]
  unfold Room Header.arrayStart Header.arrayLen at hr
  have : (idx + 1) * h.partSize.toNat ≤ h.numParts.toNat * h.partSize.toNat := Nat.mul_le_mul_right _ hi
  rw [Nat.add_mul] at this
  omega

theorem writeEntries_nil {m : Mode} {lb : LbSize} {ph : Header} {bh : Option Header} (hp : ph.NoWrap lb)
    (hb : ∀ b, bh = some b → b.NoWrap lb ∧ b.numParts = ph.numParts) (parts : List Partition) {idx next : Nat} {d : Dev}
    (hf : d.faults = []) (hl : idx + parts.length ≤ ph.numParts.toNat) (hr : Room ph lb d.cap)
    (hrb : ∀ b, bh = some b → Room b lb d.cap) :
    ∃ r, (writeEntries m lb ph bh parts idx next d).1 = .ok r := by
  induction parts generalizing idx next d with
  | nil => exact ⟨next, rfl⟩
  | cons p ps ih =>
    rw [List.length_cons] at hl
    unfold writeEntries
    rw [if_neg (by omega)]
    simp only [M.bind_apply, M.mapErr_apply]
    obtain ⟨r1, r2⟩ := slot_room hr hp (idx := idx) (by omega)
    have e1 := writeToDevice_nil m p hf r1 r2
    have fo := Partition.writeToDevice_follows m p d r1
    rcases hx : Partition.writeToDevice m p (UInt64.ofNat idx) ph.partStart lb ph.partSize d with ⟨r, d1⟩
    rw [hx] at e1
    simp only at e1
    subst e1
    simp only [Res.mapErr_ok]
    have hf1 : d1.faults = [] := by have := fo.faults hf; rw [hx] at this; exact this
    have hc1 : d1.cap = d.cap := by have := fo.cap; rw [hx] at this; exact this
    cases bh with
    | none => exact ih hf1 (by omega) (by rw [hc1]; exact hr) (by simp)
    | some b =>
      obtain ⟨b1, b2⟩ := hb b rfl
      simp only
      rw [if_neg (by rw [b2]; omega)]
      split
      · obtain ⟨r3, r4⟩ := slot_room (hrb b rfl) b1 (idx := idx) (by rw [b2]; omega)
        simp only [M.bind_apply, M.mapErr_apply]
        have e1 := writeToDevice_nil m p hf1 r3 (by rw [hc1]; exact r4)
        have fo := Partition.writeToDevice_follows m p d1 r3
        rcases hx : Partition.writeToDevice m p (UInt64.ofNat idx) b.partStart lb b.partSize d1 with ⟨r, d2⟩
        rw [hx] at e1
        simp only at e1
        subst e1
        simp only [Res.mapErr_ok]
        have hf2 : d2.faults = [] := by have := fo.faults hf1; rw [hx] at this; exact this
        have hc2 : d2.cap = d.cap := by have := fo.cap; rw [hx] at this; exact this.trans hc1
        exact ih hf2 (by omega) (by rw [hc2]; exact hr) (by rw [hc2]; exact hrb)
      · exact ih hf1 (by omega) (by rw [hc1]; exact hr) (by rw [hc1]; exact hrb)

theorem writeZeros_nil {m : Mode} {lb : LbSize} {h : Header} (hn : h.NoWrap lb) {next : Nat} (hx : next ≤ h.numParts.toNat)
    (h0 : h.arrayLen < 2 ^ 63) {d : Dev} (hf : d.faults = []) (hr : Room h lb d.cap) : (writeZeros m lb h next d).1 = .ok () := by
  obtain ⟨h1, h2⟩ := slot_noWrap hn hx
  have hlt := h.numParts.toNat_lt
  have hc : checkedSub64 h.numParts.toUInt64 (UInt64.ofNat next) = some (UInt64.ofNat (h.numParts.toNat - next)) := by
    rw [checkedSub64_some]
    rw [h2, UInt32.toNat_toUInt64, UInt64.toNat_ofNat', Nat.mod_eq_of_lt (by omega)]
    exact ⟨hx, rfl⟩
  have hk : (UInt64.ofNat (h.numParts.toNat - next)).toNat = h.numParts.toNat - next := by
    rw [UInt64.toNat_ofNat', Nat.mod_eq_of_lt (by omega)]
  have hsum : next * h.partSize.toNat + (h.numParts.toNat - next) * h.partSize.toNat = h.numParts.toNat * h.partSize.toNat := by
    rw [← Nat.add_mul]; congr 1; omega
  unfold Header.NoWrap Header.arrayStart Header.arrayLen at hn
  unfold Room Header.arrayStart Header.arrayLen at hr
  unfold Header.arrayLen at h0
  unfold writeZeros
  rw [hc]
  simp only [M.bind_apply, M.pure_apply, M.mapErr_apply]
  rw [writeZeroEntries_nil m hf (by rw [h2, hk]; omega) (by rw [hk]; omega) (by rw [h2, hk]; omega)]
  rfl

theorem writePrimary_nil {lb : LbSize} {h : Header} {d : Dev} (hs : h.signature.length = 8) (hf : d.faults = [])
    (hlt : h.currentLba < h.backupLba) (h1 : h.NoWrap lb) (h0 : h.arrayLen < 2 ^ 63) (h2 : h.arrayStart lb + h.arrayLen ≤ d.data.length)
    (h3 : h.currentLba.toNat * lb.usize < 2 ^ 64) (h4 : h.currentLba.toNat * lb.usize + lb.usize ≤ d.cap) :
    ∃ n, (Header.writePrimary lb (h, d)).1 = .ok n := by
  unfold Header.writePrimary
  simp only [M.bind_apply, M.get_apply]
  rw [if_neg (UInt64.not_le.mpr hlt)]
  unfold Header.NoWrap at h1
  obtain ⟨s', e, -⟩ := Header.fileWriteHeader_nil (lba := h.currentLba) hs hf (by omega) h0 h2 h3 h4
  rw [e]
  exact ⟨_, rfl⟩

theorem writeBackup_nil {lb : LbSize} {h : Header} {d : Dev} (hs : h.signature.length = 8) (hf : d.faults = [])
    (hlt : h.backupLba < h.currentLba) (h1 : h.NoWrap lb) (h0 : h.arrayLen < 2 ^ 63) (h2 : h.arrayStart lb + h.arrayLen ≤ d.data.length)
    (h3 : h.currentLba.toNat * lb.usize < 2 ^ 64) (h4 : h.currentLba.toNat * lb.usize + lb.usize ≤ d.cap) :
    ∃ n, (Header.writeBackup lb (h, d)).1 = .ok n := by
  unfold Header.writeBackup
  simp only [M.bind_apply, M.get_apply]
  rw [if_neg (UInt64.not_le.mpr hlt)]
  unfold Header.NoWrap at h1
  obtain ⟨s', e, -⟩ := Header.fileWriteHeader_nil (lba := h.currentLba) hs hf (by omega) h0 h2 h3 h4
  rw [e]
  exact ⟨_, rfl⟩

/-- What success without faults needs of a header. -/
structure Good (h : Header) (lb : LbSize) (d : Dev) : Prop where
  sig : h.signature.length = 8
  noWrap : h.NoWrap lb
  room : Room h lb d.cap
  stored : h.arrayStart lb + h.arrayLen ≤ d.data.length
  start : h.currentLba.toNat * lb.usize < 2 ^ 64
  block : h.currentLba.toNat * lb.usize + lb.usize ≤ d.cap
  small : h.arrayLen < 2 ^ 63

/-- A step that follows some plan keeps it. -/
theorem Good.step {h : Header} {lb : LbSize} {d d' : Dev} (hg : Good h lb d) (hc : d'.cap = d.cap) (hd : d.data.length ≤ d'.data.length) :
    Good h lb d' :=
  ⟨hg.sig, hg.noWrap, by rw [hc]; exact hg.room, hg.stored.trans hd, hg.start, by rw [hc]; exact hg.block, hg.small⟩

theorem Follows.kept {σ ε α : Type} {π : σ → Dev} {plan : List Write} {x : M σ ε α} {s : σ} (h : Follows π plan x s)
    (hf : (π s).faults = []) :
    (π (x s).2).faults = [] ∧ (π (x s).2).cap = (π s).cap ∧ (π s).data.length ≤ (π (x s).2).data.length := by
  obtain ⟨ws, -, e, -⟩ := h.writes
  exact ⟨h.faults hf, h.cap, by rw [e]; exact length_applyWrites _ _⟩

theorem onDev_apply {ε ε' α : Type} (g : ε → ε') (x : M Dev ε α) (s : GptDisk) :
    onDev g x s = (((x s.device).1).mapErr g, { s with device := (x s.device).2 }) := rfl

theorem writeRest_nil {m : Mode} {lb : LbSize} {ph : Header} {bh : Option Header} {parts : List Partition} {sync : Bool}
    {s : GptDisk} (hf : s.device.faults = []) (hg : Good ph lb s.device) (hlt : ph.currentLba < ph.backupLba)
    (hb : ∀ b, bh = some b → Good b lb s.device ∧ b.backupLba < b.currentLba ∧ b.numParts = ph.numParts)
    (hl : parts.length ≤ ph.numParts.toNat) : (writeRest m lb ph bh parts sync s).1 = .ok () := by
  have htail : ∀ s3 : GptDisk, s3.device.faults = [] → Good ph lb s3.device → ((do
      onPrimary ph (Header.writePrimary lb)
      onDev GptError.io Dev.flush
      if sync = true then onDev GptError.io Dev.syncAll else pure () : M GptDisk GptError Unit) s3).1 = .ok () := by
    intro s3 h3 g3
    obtain ⟨n, e⟩ := writePrimary_nil g3.sig h3 hlt g3.noWrap g3.small g3.stored g3.start g3.block
    have k := Follows.kept (onPrimary_follows (lb := lb) (s := s3) g3.sig) h3
    rw [M.bind_apply]
    have e' : (onPrimary ph (Header.writePrimary lb) s3).1 = .ok () := by unfold onPrimary; simp only [e]
    rcases hx : onPrimary ph (Header.writePrimary lb) s3 with ⟨r, s4⟩
    rw [hx] at e' k
    simp only at e' k
    subst e'
    simp only
    rw [M.bind_apply, onDev_apply, Dev.flush_nil k.1]
    simp only [Res.mapErr_ok]
    cases sync with
    | false => rfl
    | true =>
      simp only [if_true]
      rw [onDev_apply, Dev.syncAll_nil (by exact k.1)]
      rfl
  unfold writeRest
  rw [M.bind_apply]
  obtain ⟨r, e1⟩ := writeEntries_nil (m := m) (next := 0) hg.noWrap (fun b hb' => ⟨(hb b hb').1.noWrap, (hb b hb').2.2⟩) parts (idx := 0) hf
    (by omega) hg.room (fun b hb' => (hb b hb').1.room)
  have k1 := Follows.kept (onDev_follows (s := s) id (writeEntries_follows m hg.noWrap (fun b hb' => (hb b hb').1.noWrap) parts 0 0 s.device)) hf
  have o1 : (onDev id (writeEntries m lb ph bh parts 0 0) s).1 = .ok r := by rw [onDev_apply, e1]; rfl
  rcases hx1 : onDev id (writeEntries m lb ph bh parts 0 0) s with ⟨r1, s1⟩
  rw [hx1] at o1 k1
  simp only at o1 k1
  subst o1
  simp only
  have hr : r = parts.length := by
    obtain ⟨x1, -⟩ := onDev_ok hx1
    obtain ⟨e1, -, -⟩ := writeEntries_ok parts x1
    rw [e1]; split
    · rename_i h; subst h; rfl
    · omega
  subst hr
  have g1 := hg.step k1.2.1 k1.2.2
  rw [M.bind_apply]
  have e2 := writeZeros_nil (m := m) g1.noWrap hl g1.small k1.1 g1.room
  have k2 := Follows.kept (onDev_follows (s := s1) id (writeZeros_follows m g1.noWrap hl s1.device)) k1.1
  have o2 : (onDev id (writeZeros m lb ph parts.length) s1).1 = .ok () := by rw [onDev_apply, e2]; rfl
  rcases hx2 : onDev id (writeZeros m lb ph parts.length) s1 with ⟨r2, s2⟩
  rw [hx2] at o2 k2
  simp only at o2 k2
  subst o2
  simp only
  have g2 := g1.step k2.2.1 k2.2.2
  cases bh with
  | none => exact htail s2 k2.1 g2
  | some b =>
    obtain ⟨gb, hblt, hbn⟩ := hb b rfl
    have gb1 := (gb.step k1.2.1 k1.2.2).step k2.2.1 k2.2.2
    simp only
    rw [M.bind_apply]
    have e3 := writeZeros_nil (m := m) gb1.noWrap (next := parts.length) (by rw [hbn]; exact hl) gb1.small k2.1 gb1.room
    have k3 := Follows.kept (onDev_follows (s := s2) id (writeZeros_follows m gb1.noWrap (next := parts.length) (by rw [hbn]; exact hl) s2.device)) k2.1
    have o3 : (onDev id (writeZeros m lb b parts.length) s2).1 = .ok () := by rw [onDev_apply, e3]; rfl
    rcases hx3 : onDev id (writeZeros m lb b parts.length) s2 with ⟨r3, s3⟩
    rw [hx3] at o3 k3
    simp only at o3 k3
    subst o3
    simp only
    have gb2 := gb1.step k3.2.1 k3.2.2
    rw [M.bind_apply]
    obtain ⟨n, e4⟩ := writeBackup_nil gb2.sig k3.1 hblt gb2.noWrap gb2.small gb2.stored gb2.start gb2.block
    have k4 := Follows.kept (onBackup_follows (lb := lb) (s := s3) gb2.sig) k3.1
    have o4 : (onBackup b (Header.writeBackup lb) s3).1 = .ok () := by unfold onBackup; simp only [e4]
    rcases hx4 : onBackup b (Header.writeBackup lb) s3 with ⟨r4, s4⟩
    rw [hx4] at o4 k4
    simp only at o4 k4
    subst o4
    simp only
    exact htail s4 k4.1 ((g2.step k3.2.1 k3.2.2).step k4.2.1 k4.2.2)

end GptDisk

end Gpt
