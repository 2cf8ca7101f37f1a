import Verif.Lemmas.Cut
import Verif.Props.Write
/-!
# Interrupted writes: C42, C65
-/

namespace Gpt

open Spec GptDisk

/-! ## C65: what a crash can leave behind, exactly -/

/-- The bytes that `n` writes of `len` bytes starting at `off` touch, in order. -/
abbrev Spec.span (off len : Nat) : List Nat := List.range' off len

/-- The byte offsets `write_inplace` writes, in the order in which it writes them: entry by entry, each in the primary array and
then (if the backup is written) in the backup array; the empty rest of the primary array, that of the backup array; the backup
header block; the primary header block. `u` entries are in use, the arrays have `n` slots. -/
def Spec.writeOrder (lb k B n u : Nat) (backup : Bool) : List Nat :=
  (List.range u).flatMap (fun j => span (2 * lb + 128 * j) 128 ++ if backup then span ((B - k) * lb + 128 * j) 128 else []) ++
  span (2 * lb + 128 * u) (128 * (n - u)) ++
  (if backup then span ((B - k) * lb + 128 * u) (128 * (n - u)) ++ span (B * lb) lb else []) ++
  span lb lb

/-- `data` is `old` with the first `c` bytes in this order taken from `final`. -/
structure Spec.CutAt (order : List Nat) (old final : Bytes) (c : Nat) (data : Bytes) : Prop where
  length : data.length = old.length
  bytes : ∀ i, byteAt data i = if i ∈ order.take c then byteAt final i else byteAt old i

/-- The bytes a list of writes touches, in order. -/
def orderOf (plan : List Write) : List Nat := plan.flatMap fun w => List.range' w.1 w.2.length

theorem mem_span {w : Write} {i : Nat} : i ∈ List.range' w.1 w.2.length ↔ w.Covers i := by
  rw [List.mem_range'_1]; rfl

theorem mem_take_span {w : Write} {i k : Nat} (hk : k ≤ w.2.length) :
    i ∈ (List.range' w.1 w.2.length).take k ↔ Write.Covers (w.1, w.2.take k) i := by
  have e : (List.range' w.1 w.2.length).take k = List.range' w.1 k := by
    conv_lhs => rw [show w.2.length = k + (w.2.length - k) by omega, ← List.range'_append_1]
    exact List.take_left' List.length_range'
  rw [e, List.mem_range'_1]
  unfold Write.Covers
  simp only [List.length_take, Nat.min_eq_left hk]

/-- One direction: a torn prefix is a prefix of the byte order. -/
theorem torn_take {ws plan : List Write} (h : Torn ws plan) {f : Nat → UInt8}
    (hf : ∀ w ∈ plan, ∀ i, w.Covers i → byteAt w.2 (i - w.1) = f i) (data : Bytes) :
    ∃ c, c ≤ (orderOf plan).length ∧
      ∀ i, byteAt (applyWrites data ws) i = if i ∈ (orderOf plan).take c then f i else byteAt data i := by
  induction h generalizing data with
  | nil => exact ⟨0, Nat.zero_le _, fun i => by simp⟩
  | part o b k plan =>
    have hlen : (List.range' o b.length).length = b.length := List.length_range'
    refine ⟨min k b.length, ?_, fun i => ?_⟩
    · simp only [orderOf, List.flatMap_cons, List.length_append, hlen]; omega
    · rw [applyWrites_cons, applyWrites_nil, byteAt_patchW]
      simp only [orderOf, List.flatMap_cons]
      rw [List.take_append_of_le_length (by rw [hlen]; exact Nat.min_le_right _ _)]
      have e : b.take k = b.take (min k b.length) := by rw [List.take_eq_take_iff]; omega
      have hm := mem_take_span (w := (o, b)) (i := i) (k := min k b.length) (Nat.min_le_right _ _)
      simp only at hm
      rw [e]
      split
      · rename_i hc
        have hc' : Write.Covers (o, b.take (min k b.length)) i := hc
        rw [if_pos (hm.mpr hc')]
        obtain ⟨p, hp, h1, h2⟩ := (Torn.part o b (min k b.length) []).covers (List.mem_singleton.mpr rfl) hc'
        rw [List.mem_singleton] at hp
        subst hp
        rw [h2]
        exact hf _ List.mem_cons_self i h1
      · rename_i hc
        rw [if_neg (fun h => hc (hm.mp h))]
  | cons w h ih =>
    rename_i ws plan
    obtain ⟨c, hc, ih⟩ := ih (fun w' hw' => hf w' (List.mem_cons_of_mem _ hw')) (patchW data w)
    have hlen : (List.range' w.1 w.2.length).length = w.2.length := List.length_range'
    refine ⟨w.2.length + c, ?_, fun i => ?_⟩
    · simp only [orderOf, List.flatMap_cons, List.length_append, hlen] at hc ⊢; omega
    · have ho : (orderOf (w :: plan)).take (w.2.length + c) = List.range' w.1 w.2.length ++ (orderOf plan).take c := by
        simp only [orderOf, List.flatMap_cons]
        rw [List.take_append, hlen, List.take_of_length_le (by rw [hlen]; omega), Nat.add_sub_cancel_left]
      rw [applyWrites_cons, ih, ho, byteAt_patchW]
      by_cases h1 : i ∈ (orderOf plan).take c
      · rw [if_pos h1, if_pos (List.mem_append_right _ h1)]
      · rw [if_neg h1]
        by_cases h2 : w.Covers i
        · have h2' := h2
          unfold Write.Covers at h2'
          rw [if_pos h2', if_pos (List.mem_append_left _ (mem_span.mpr h2))]
          exact hf w List.mem_cons_self i h2
        · have h2' := h2
          unfold Write.Covers at h2'
          rw [if_neg h2', if_neg]
          rw [List.mem_append]
          rintro (h | h)
          · exact h2 (mem_span.mp h)
          · exact h1 h

/-- The other direction: every prefix of the byte order is a torn prefix. -/
theorem take_torn (plan : List Write) {f : Nat → UInt8} (hf : ∀ w ∈ plan, ∀ i, w.Covers i → byteAt w.2 (i - w.1) = f i)
    (data : Bytes) (c : Nat) : ∃ ws, Torn ws plan ∧
      ∀ i, byteAt (applyWrites data ws) i = if i ∈ (orderOf plan).take c then f i else byteAt data i := by
  induction plan generalizing data c with
  | nil => exact ⟨[], .nil _, fun i => by simp [orderOf]⟩
  | cons w plan ih =>
    have hlen : (List.range' w.1 w.2.length).length = w.2.length := List.length_range'
    by_cases hc : c ≤ w.2.length
    · refine ⟨[(w.1, w.2.take c)], .part w.1 w.2 c plan, fun i => ?_⟩
      rw [applyWrites_cons, applyWrites_nil, byteAt_patchW]
      simp only [orderOf, List.flatMap_cons]
      rw [List.take_append_of_le_length (by rw [hlen]; exact hc)]
      have hm := mem_take_span (i := i) hc
      split
      · rename_i hc
        have hc' : Write.Covers (w.1, w.2.take c) i := hc
        rw [if_pos (hm.mpr hc')]
        obtain ⟨p, hp, h1, h2⟩ := (Torn.part w.1 w.2 c []).covers (List.mem_singleton.mpr rfl) hc'
        rw [List.mem_singleton] at hp
        subst hp
        rw [h2]
        exact hf _ List.mem_cons_self i h1
      · rename_i hc
        rw [if_neg (fun h => hc (hm.mp h))]
    · obtain ⟨ws, h1, ih⟩ := ih (fun w' hw' => hf w' (List.mem_cons_of_mem _ hw')) (patchW data w) (c - w.2.length)
      refine ⟨w :: ws, .cons w h1, fun i => ?_⟩
      have ho : (orderOf (w :: plan)).take c = List.range' w.1 w.2.length ++ (orderOf plan).take (c - w.2.length) := by
        simp only [orderOf, List.flatMap_cons]
        rw [List.take_append, hlen, List.take_of_length_le (by rw [hlen]; omega)]
      rw [applyWrites_cons, ih, ho, byteAt_patchW]
      by_cases h1 : i ∈ (orderOf plan).take (c - w.2.length)
      · rw [if_pos h1, if_pos (List.mem_append_right _ h1)]
      · rw [if_neg h1]
        by_cases h2 : w.Covers i
        · have h2' := h2
          unfold Write.Covers at h2'
          rw [if_pos h2', if_pos (List.mem_append_left _ (mem_span.mpr h2))]
          exact hf w List.mem_cons_self i h2
        · have h2' := h2
          unfold Write.Covers at h2'
          rw [if_neg h2', if_neg]
          rw [List.mem_append]
          rintro (h | h)
          · exact h2 (mem_span.mp h)
          · exact h1 h

/-- The order of the entries. -/
theorem orderOf_entries {lb : LbSize} {ph : Header} {bh : Option Header} {oB : Nat} (hP : ph.arrayStart lb = 2 * lb.usize)
    (hs : ph.partSize = 128) (hb : ∀ b, bh = some b → b.arrayStart lb = oB ∧ b.partSize = 128 ∧ ph.partStart ≠ b.partStart)
    (parts : List Partition) (idx : Nat) : orderOf (entryPlan lb ph bh parts idx) =
      (List.range' idx parts.length).flatMap
        (fun j => span (2 * lb.usize + 128 * j) 128 ++ if bh.isSome then span (oB + 128 * j) 128 else []) := by
  have e128 : (128 : UInt32).toNat = 128 := rfl
  induction parts generalizing idx with
  | nil => rfl
  | cons p ps ih =>
    unfold entryPlan
    rw [List.length_cons, List.range'_succ, List.flatMap_cons, ← ih]
    unfold orderOf
    rw [List.flatMap_append, List.flatMap_append]
    congr 1
    congr 1
    · simp only [List.flatMap_cons, List.flatMap_nil, List.append_nil, slotW, Partition.asBytes_length]
      rw [hP, hs, e128, Nat.mul_comm idx]
    · cases bh with
      | none => rfl
      | some b =>
        obtain ⟨h1, h2, h3⟩ := hb b rfl
        unfold slotB
        simp only [Option.isSome_some, if_true]
        rw [if_pos h3]
        simp only [List.flatMap_cons, List.flatMap_nil, List.append_nil, slotW, Partition.asBytes_length]
        rw [h1, h2, e128, Nat.mul_comm idx]

/-- The order of the whole plan. -/
theorem orderOf_plan {s : GptDisk} {h : Header} {k B : Nat} (hs : SaneDisk s h k B)
    (hroom : (Spec.used s.partitions).length ≤ h.numParts.toNat) :
    orderOf (planOf s h k B (Spec.used s.partitions)) = writeOrder s.config.lbSize.usize k B h.numParts.toNat
      (Spec.used s.partitions).length (!s.config.readonlyBackup) := by
  have g := geo_sane hs.sane hs.fits s.config
  have e128 : (128 : UInt32).toNat = 128 := rfl
  have hent := orderOf_entries (lb := s.config.lbSize) (ph := rebuiltP k B h) (bh := bakOf s.config k B h) g.start g.size
    (fun b hb => ⟨(g.bak b hb).2.2.2.2.2.1, (g.bak b hb).2.2.1, (g.bak b hb).2.2.2.2.2.2⟩) (Spec.used s.partitions) 0
  have hsome : (bakOf s.config k B h).isSome = !s.config.readonlyBackup := by
    unfold bakOf
    cases s.config.readonlyBackup <;> rfl
  have hz : ∀ (x : Header) (o : Nat), x.arrayStart s.config.lbSize = o → x.partSize = 128 → x.numParts = h.numParts →
      List.range' (zeroW s.config.lbSize x (Spec.used s.partitions).length).1
        (zeroW s.config.lbSize x (Spec.used s.partitions).length).2.length =
      span (o + 128 * (Spec.used s.partitions).length) (128 * (h.numParts.toNat - (Spec.used s.partitions).length)) := by
    intro x o h1 h2 h3
    unfold zeroW
    simp only [zeros_length]
    rw [h1, h2, h3, e128, Nat.mul_comm, Nat.mul_comm _ 128]
  unfold planOf arrayPlan headPlan writeOrder
  unfold orderOf at hent ⊢
  simp only [List.flatMap_append]
  rw [hent, hsome, ← List.range_eq_range']
  simp only [List.flatMap_cons, List.flatMap_nil, List.append_nil]
  rw [hz (rebuiltP k B h) _ g.start rfl rfl]
  simp only [List.append_assoc]
  congr 2
  simp only [blockOf_length]
  cases hro : s.config.readonlyBackup with
  | true =>
    unfold bakOf
    rw [hro]
    simp
  | false =>
    have hb : bakOf s.config k B h = some (rebuiltB k B h) := by unfold bakOf; rw [hro]; rfl
    rw [hb]
    obtain ⟨b1, b2, b3, b4, b5, b6, b7⟩ := g.bak _ hb
    simp only [Option.toList_some, List.map_cons, List.map_nil, List.flatMap_cons, List.flatMap_nil, List.append_nil, blockOf_length,
      Bool.not_false, if_true, List.append_assoc]
    rw [hz (rebuiltB k B h) _ b6 rfl rfl]

/-- The same disk on a device of its present size that never fails. -/
def Spec.undisturbed (s : GptDisk) : GptDisk :=
  { s with device := { s.device with faults := [], cap := s.device.data.length } }

theorem undisturbed_sane {s : GptDisk} {h : Header} {k B : Nat} (hs : SaneDisk s h k B) : SaneDisk (undisturbed s) h k B :=
  ⟨hs.header, hs.sane, hs.fits, hs.length⟩

/-- On a device that never fails, the write succeeds. -/
theorem undisturbed_writes (m : Mode) {s : GptDisk} {h : Header} {k B : Nat} (hs : SaneDisk s h k B) (hw : s.config.writable = true)
    (hroom : (Spec.used s.partitions).length ≤ h.numParts.toNat) : ∃ sd, writeInplace m (undisturbed s) = (.ok (), sd) := by
  have := write_nil (m := m) (undisturbed_sane hs) hw hroom rfl hs.fits
  exact ⟨_, Prod.ext this rfl⟩

section
variable {m m' : Mode} {s sd : GptDisk} {h : Header} {k B : Nat}

theorem undisturbed_bytes (hs : SaneDisk s h k B) (hd : writeInplace m (undisturbed s) = (.ok (), sd)) (i : Nat) :
    byteAt sd.device.data i = finalByte s.config.lbSize (rebuiltP k B h) (bakOf s.config k B h) (Spec.used s.partitions)
      ((B - k) * s.config.lbSize.usize) (B * s.config.lbSize.usize) s.device.data i :=
  (write_ok (undisturbed_sane hs) hd).bytes i

theorem undisturbed_plan (hs : SaneDisk s h k B) (hd : writeInplace m (undisturbed s) = (.ok (), sd)) :
    ∀ w ∈ planOf s h k B (Spec.used s.partitions), ∀ i, w.Covers i → byteAt w.2 (i - w.1) = byteAt sd.device.data i := by
  have g := geo_sane hs.sane hs.fits s.config
  have hroom := (write_ok (undisturbed_sane hs) hd).room
  intro w hw i hc
  rw [undisturbed_bytes hs hd]
  exact plan_covers g hroom s.device.data hw hc

end

/-- **C65**, one half. Whatever the device does during `write_inplace`, the content afterwards is the old one with an initial part
of the bytes, in the order of `writeOrder`, replaced by those that an undisturbed write stores. -/
theorem c65_only (m m' : Mode) (s sd : GptDisk) (h : Header) (k B : Nat) (hs : SaneDisk s h k B)
    (hd : writeInplace m (undisturbed s) = (.ok (), sd)) :
    ∃ c, CutAt (writeOrder s.config.lbSize.usize k B h.numParts.toNat (Spec.used s.partitions).length (!s.config.readonlyBackup))
      s.device.data sd.device.data c (writeInplace m' s).2.device.data := by
  have hroom : (Spec.used s.partitions).length ≤ h.numParts.toNat := (write_ok (undisturbed_sane hs) hd).room
  obtain ⟨ws, ht, hw, -⟩ := (write_follows m' hs).writes
  rw [List.take_of_length_le hroom] at ht
  obtain ⟨c, -, hc⟩ := torn_take ht (undisturbed_plan hs hd) s.device.data
  rw [orderOf_plan hs hroom] at hc
  exact ⟨c, write_length m' hs, fun i => by rw [hw]; exact hc i⟩

/-- **C65**, the other half. Every such content is the outcome of some failing write. -/
theorem c65_all (m m' : Mode) (s sd : GptDisk) (h : Header) (k B : Nat) (hs : SaneDisk s h k B)
    (hd : writeInplace m (undisturbed s) = (.ok (), sd)) (hcap : (B + 1) * s.config.lbSize.usize ≤ s.device.cap) (c : Nat) :
    ∃ fs e s', writeInplace m' { s with device := { s.device with faults := fs } } = (.err e, s') ∧
      CutAt (writeOrder s.config.lbSize.usize k B h.numParts.toNat (Spec.used s.partitions).length (!s.config.readonlyBackup))
        s.device.data sd.device.data c s'.device.data := by
  have w := write_ok (undisturbed_sane hs) hd
  have hroom : (Spec.used s.partitions).length ≤ h.numParts.toNat := w.room
  obtain ⟨ws, ht, hc⟩ := take_torn _ (undisturbed_plan hs hd) s.device.data c
  rw [orderOf_plan hs hroom] at hc
  obtain ⟨fs, e, s', h1, h2⟩ := write_cut m' hs w.writable hroom hcap ht
  refine ⟨fs, e, s', h1, ?_, fun i => by rw [h2]; exact hc i⟩
  have := write_length m' (sane_faults hs fs)
  rw [h1] at this
  exact this

/-- The small disk with two partitions: a crash can leave the first entry in both arrays and 7 bytes of the second one. -/
example (m : Mode) : ∃ sd fs e s', writeInplace m (undisturbed (smallDisk [(1, smallPart), (2, smallPart)])) = (.ok (), sd) ∧
    writeInplace m { smallDisk [(1, smallPart), (2, smallPart)] with device := ⟨zeros 5120, 0, 5120, fs, []⟩ } = (.err e, s') ∧
    CutAt (writeOrder 512 1 9 4 2 true) (zeros 5120) sd.device.data (128 + 128 + 7) s'.device.data := by
  obtain ⟨sd, hd⟩ := undisturbed_writes m (smallDisk_sane [(1, smallPart), (2, smallPart)]) rfl (by decide)
  obtain ⟨fs, e, s', h1, h2⟩ := c65_all m m _ sd smallHeader 1 9 (smallDisk_sane _) hd (by show 10 * 512 ≤ 5120; decide) (128 + 128 + 7)
  exact ⟨sd, fs, e, s', hd, h1, h2⟩

/-! ## C42 -/

/-- The full statement of C42. -/
def C42 : Prop :=
  ∀ (m m' : Mode) (s s0 : GptDisk) (h : Header) (k B : Nat) (cfg : GptConfig) (d0 d0' d : Dev), SaneDisk s h k B →
    d0.data = s.device.data → d0.faults = [] → d0.pos < 2 ^ 64 → cfg.lbSize = s.config.lbSize →
    openFromDevice m' cfg d0 = (.ok s0, d0') → d.data = (writeInplace m s).2.device.data → d.faults = [] → d.pos < 2 ^ 64 →
    ∃ s2 d2, openFromDevice m' cfg d = (.ok s2, d2) ∧
      (s2.partitions = s0.partitions ∨ Numbered (Spec.used s.partitions) s2.partitions)

/-- The window in which the disk cannot be opened: the valid primary header block is still there, the array it points to no longer has
its checksum. Opening fails whatever the backup holds. -/
theorem c42_window (m : Mode) (cfg : GptConfig) (old : Bytes) (d : Dev) (h0 : Header) (hf : d.faults = []) (hp : d.pos < 2 ^ 64)
    (hlen : d.data.length < 2 ^ 64) (hl : d.data.length = old.length)
    (hv : ValidAt old cfg.lbSize.usize) (hh : HeaderAt old cfg.lbSize.usize h0) (h128 : h0.partSize = 128)
    (he : m = .release ∨ h0.numParts.toNat < 2 ^ 31)
    (hfit : h0.partStart.toNat * cfg.lbSize.usize + 128 * h0.numParts.toNat ≤ d.data.length)
    (hsame : ∀ i, cfg.lbSize.usize ≤ i → i < 2 * cfg.lbSize.usize → byteAt d.data i = byteAt old i)
    (hcrc : crc32 (slice d.data (h0.partStart.toNat * cfg.lbSize.usize) (128 * h0.numParts.toNat)) ≠ h0.crc32Parts)
    (ho : cfg.onlyValidHeaders = false) :
    (openFromDevice m cfg d).1 = .err (.io (.other "partition table CRC mismatch")) := by
  obtain ⟨h1, h2, e1, e2, e3⟩ := openFromDevice_nil m cfg hf hp hlen
  have h512 := lb_le cfg.lbSize
  have hr : readHeaderAt old cfg.lbSize.usize = .ok h0 := ((readHeaderAt_spec _ _).1 h0).mpr ⟨hv, hh⟩
  rw [readHeaderAt_ok] at hr
  obtain ⟨r1, r2⟩ := hr
  have hr : readHeaderAt d.data cfg.lbSize.usize = .ok h0 := by
    rw [readHeaderAt_ok]
    refine ⟨by omega, ?_⟩
    rw [← r2]
    congr 1
    exact slice_congr (by omega) (by omega) fun i h1 h2 => hsame i h1 (by omega)
  rw [← e1, ofExcept_ok] at hr
  subst hr
  have hsel : selectHeader cfg.onlyValidHeaders (.ok h0) h2 = .ok h0 := by
    rw [select_spec.1, ho]
    exact .inl ⟨rfl, by simp⟩
  rw [e3, hsel]
  simp only
  obtain ⟨p, e⟩ := fileReadPartitions_nil (m := m) (h := h0) (lb := cfg.lbSize) hf (by omega) h128 hfit he
  rw [if_neg hcrc] at e
  unfold openRest
  rw [M.bind_apply, M.mapErr_apply, e]
  rfl

/-- **C42**, before the primary array is touched. If the primary header was valid, and neither its block nor the array it points to has
changed, the disk opens with the old table, even if the backup is in pieces. -/
theorem c42_old_partial (m : Mode) (cfg : GptConfig) (s0 : GptDisk) (d0 d0' d : Dev) (h0 : Header) (hf0 : d0.faults = [])
    (hp0 : d0.pos < 2 ^ 64) (hopen : openFromDevice m cfg d0 = (.ok s0, d0')) (hf : d.faults = []) (hp : d.pos < 2 ^ 64)
    (hlen : d.data.length < 2 ^ 64) (hl : d.data.length = d0.data.length)
    (hv : PrimaryValid cfg.lbSize d0.data) (hh : HeaderAt d0.data cfg.lbSize.usize h0)
    (he : m = .release ∨ h0.numParts.toNat < 2 ^ 31)
    (hfit : h0.partStart.toNat * cfg.lbSize.usize + 128 * h0.numParts.toNat ≤ d.data.length)
    (hhead : ∀ i, cfg.lbSize.usize ≤ i → i < 2 * cfg.lbSize.usize → byteAt d.data i = byteAt d0.data i)
    (harr : ∀ i, h0.partStart.toNat * cfg.lbSize.usize ≤ i →
      i < h0.partStart.toNat * cfg.lbSize.usize + 128 * h0.numParts.toNat → byteAt d.data i = byteAt d0.data i)
    (ho : cfg.onlyValidHeaders = false) :
    ∃ s2 d2, openFromDevice m cfg d = (.ok s2, d2) ∧ s2.partitions = s0.partitions ∧ s2.guid = s0.guid := by
  have hlen0 : d0.data.length < 2 ^ 64 := by omega
  have h512 := lb_le cfg.lbSize
  obtain ⟨g1, -, -, -, -, -, h', hh', hprim, -⟩ := c44_selected m cfg d0 d0' s0 hf0 hp0 hlen0 hopen
  obtain ⟨hx, dx, -, -, -, ht, hg, -, -, -, hdx, hread⟩ := openFromDevice_ok hopen
  have hr0 : readHeaderAt d0.data cfg.lbSize.usize = .ok h0 := ((readHeaderAt_spec _ _).1 h0).mpr ⟨hv, hh⟩
  have hx0 : hx = h0 := by
    have e : h' = hx := by
      unfold GptDisk.header at hh'
      rw [ht] at hh'
      exact (Res.ok.inj hh').symm
    have hr1 : readHeaderAt d0.data cfg.lbSize.usize = .ok h' := ((readHeaderAt_spec _ _).1 h').mpr ⟨hv, hprim hv⟩
    rw [hr0] at hr1
    rw [← e]
    exact (Res.ok.inj hr1).symm
  subst hx0
  obtain ⟨f1, f2, -, -, f5, f6⟩ := fileReadPartitions_ok hread
  rw [hdx] at f5 f6
  obtain ⟨h1, h2, e1, e2, e3⟩ := openFromDevice_nil m cfg hf hp hlen
  rw [readHeaderAt_ok] at hr0
  obtain ⟨r1, r2⟩ := hr0
  have hr : readHeaderAt d.data cfg.lbSize.usize = .ok hx := by
    rw [readHeaderAt_ok]
    refine ⟨by omega, ?_⟩
    rw [← r2]
    congr 1
    exact slice_congr (by omega) (by omega) fun i h1 h2 => hhead i h1 (by omega)
  rw [← e1, ofExcept_ok] at hr
  subst hr
  have hsel : selectHeader cfg.onlyValidHeaders (.ok hx) h2 = .ok hx := by
    rw [select_spec.1, ho]
    exact .inl ⟨rfl, by simp⟩
  have hsl : slice d.data (hx.partStart.toNat * cfg.lbSize.usize) (128 * hx.numParts.toNat) =
      slice d0.data (hx.partStart.toNat * cfg.lbSize.usize) (128 * hx.numParts.toNat) :=
    slice_congr hfit (by omega) harr
  obtain ⟨p, e⟩ := fileReadPartitions_nil (m := m) (h := hx) (lb := cfg.lbSize) hf f1 f2 hfit he
  rw [hsl, if_pos f5] at e
  rw [e3, hsel]
  simp only
  unfold openRest
  simp only [M.bind_apply, M.mapErr_apply, e, M.get_apply, M.pure_apply]
  refine ⟨_, _, rfl, ?_, hg.symm⟩
  rw [f6]
  exact tableAt_congr _ _ fun j _ hj => slice_congr (by omega) (by omega) fun i h1 h2 => harr i (by omega) (by omega)

/-- The hypotheses of `c42_old_partial` are met: the small disk is written, then everything behind byte 3000, and with it the whole
backup, is lost. -/
example (m : Mode) : ∃ s1 s0 d0 s2 d2, writeInplace m (smallDisk [(1, smallPart)]) = (.ok (), s1) ∧
    openFromDevice m GptConfig.new ⟨s1.device.data, 0, 5120, [], []⟩ = (.ok s0, d0) ∧
    openFromDevice m GptConfig.new ⟨s1.device.data.take 3000 ++ zeros 2120, 0, 5120, [], []⟩ = (.ok s2, d2) ∧
    s2.partitions = s0.partitions := by
  obtain ⟨s1, hw1, hl1, -⟩ := smallDisk_written m [(1, smallPart)] (by decide)
  have w1 := write_ok (smallDisk_sane _) hw1
  obtain ⟨⟨hp, hph, hv, hh, hcrc⟩, -⟩ := c40_memory m _ s1 smallHeader 1 9 (smallDisk_sane _) hw1
  rw [w1.primary] at hph
  have hp2 : hp.partStart = 2 := by rw [← Except.ok.inj hph]; rfl
  have hp4 : hp.numParts = 4 := by rw [← Except.ok.inj hph]; rfl
  obtain ⟨s0, d0, h2, hopen, -⟩ := c30_write_open m m _ s1 smallHeader 1 9 GptConfig.new ⟨s1.device.data, 0, 5120, [], []⟩
    (smallDisk_sane _) hw1 rfl rfl (by show 0 < 2 ^ 64; decide) rfl (fun hc => by cases hc)
  have hl : (s1.device.data.take 3000 ++ zeros 2120).length = 5120 := by simp [hl1]
  have hb : ∀ i, i < 3000 → byteAt (s1.device.data.take 3000 ++ zeros 2120) i = byteAt s1.device.data i := by
    intro i hi
    rw [byteAt_append, if_pos (by simp [hl1]; omega), byteAt_take, if_pos hi]
  obtain ⟨s2, d2, e, ht, -⟩ := c42_old_partial m GptConfig.new s0 _ d0 ⟨s1.device.data.take 3000 ++ zeros 2120, 0, 5120, [], []⟩ hp rfl
    (by show 0 < 2 ^ 64; decide) hopen rfl (by show 0 < 2 ^ 64; decide) (by show (_ ++ _ : Bytes).length < _; rw [hl]; decide)
    (by show (_ ++ _ : Bytes).length = _; rw [hl]; exact hl1.symm) hv hh (.inr (by rw [hp4]; decide))
    (by rw [hp2, hp4]; show _ ≤ (_ ++ _ : Bytes).length; rw [hl]; decide)
    (fun i h1 h2 => hb i (by have h2 : i < 2 * 512 := h2; omega))
    (fun i h1 h2 => hb i (by rw [hp2, hp4] at h2; have h2 : i < 2 * 512 + 128 * 4 := h2; omega)) rfl
  exact ⟨s1, s0, d0, s2, d2, hw1, hopen, e, ht⟩

/-- **C42**, once the primary header block is being written. `sd` is the disk after an undisturbed write. If the block is complete,
or (with the backup written, in the last block) in a state that is not a valid header, the disk opens with the new table. -/
theorem c42_new_partial (m m' : Mode) (s sd : GptDisk) (h : Header) (k B : Nat) (cfg : GptConfig) (d : Dev) (hs : SaneDisk s h k B)
    (hdone : writeInplace m (undisturbed s) = (.ok (), sd)) (hd : d.data = (writeInplace m s).2.device.data)
    (hf : d.faults = []) (hp : d.pos < 2 ^ 64) (hlb : cfg.lbSize = s.config.lbSize) (ho : cfg.onlyValidHeaders = false)
    (hch : ∃ i, cfg.lbSize.usize ≤ i ∧ i < 2 * cfg.lbSize.usize ∧ byteAt d.data i ≠ byteAt s.device.data i)
    (hblock : (∀ i, cfg.lbSize.usize ≤ i → i < 2 * cfg.lbSize.usize → byteAt d.data i = byteAt sd.device.data i) ∨
      (¬ PrimaryValid cfg.lbSize d.data ∧ s.config.readonlyBackup = false ∧ s.device.data.length / s.config.lbSize.usize = B + 1)) :
    ∃ s2 d2, openFromDevice m' cfg d = (.ok s2, d2) ∧ Numbered (Spec.used s.partitions) s2.partitions ∧
      s2.guid = h.diskGuid := by
  have hlend : d.data.length = s.device.data.length := by rw [hd]; exact write_length m hs
  have w := write_ok (undisturbed_sane hs) hdone
  have hlens : sd.device.data.length = s.device.data.length := w.length
  have hroom : (Spec.used s.partitions).length ≤ h.numParts.toNat := w.room
  have hstage : ∀ i, ¬ (cfg.lbSize.usize ≤ i ∧ i < 2 * cfg.lbSize.usize) → byteAt d.data i = byteAt sd.device.data i := by
    intro i hi
    obtain ⟨j, j1, j2, j3⟩ := hch
    rw [hlb] at j1 j2 hi
    rw [hd] at j3
    rcases write_stage m hs with hst | ⟨hst, -⟩ | hst
    · exact absurd (hst j (.inl ⟨j1, j2⟩)) j3
    · exact absurd (hst j j1 j2) j3
    · rw [hd, hst i hi, undisturbed_bytes hs hdone, List.take_of_length_le hroom]
  rcases hblock with hb | ⟨hinv, hro, hB⟩
  · have hall : d.data = sd.device.data := by
      refine bytes_ext (by omega) fun i _ => ?_
      by_cases hi : cfg.lbSize.usize ≤ i ∧ i < 2 * cfg.lbSize.usize
      · exact hb i hi.1 hi.2
      · exact hstage i hi
    obtain ⟨s2, d2, h2, e, -, -, -, -, q, -, -, -, -, -, hn⟩ := c30_write_open m m' (undisturbed s) sd h k B cfg d
      (undisturbed_sane hs) hdone hall hf hp hlb (fun hc => by rw [ho] at hc; cases hc)
    exact ⟨s2, d2, e, hn, q⟩
  · have hpos := lb_pos s.config.lbSize
    obtain ⟨-, hkB⟩ := sane_bounds hs.sane
    have hmul : 2 * s.config.lbSize.usize ≤ (B - k) * s.config.lbSize.usize := Nat.mul_le_mul_right _ (by omega)
    have hmul2 : 2 * s.config.lbSize.usize ≤ B * s.config.lbSize.usize := Nat.mul_le_mul_right _ (by omega)
    obtain ⟨s2, d2, h2, e, -, -, -, q, -, -, -, -, hn⟩ := c31_partial m m' (undisturbed s) sd h k B cfg d
      (undisturbed_sane hs) hdone hro hB (by omega) (fun i hi => hstage i (by
        rw [hlb]
        have hi : ((B - k) * s.config.lbSize.usize ≤ i ∧ _) ∨ (B * s.config.lbSize.usize ≤ i ∧ _) := hi
        omega)) (by
        rw [hlb] at hinv; exact hinv) hf hp hlb ho
    exact ⟨s2, d2, e, hn, q⟩

/-- The hypotheses of `c42_new_partial` are met: the small disk, blank before. -/
example (m : Mode) : ∃ sd s2 d2, writeInplace m (undisturbed (smallDisk [(7, smallPart)])) = (.ok (), sd) ∧
    openFromDevice m GptConfig.new ⟨sd.device.data, 0, 5120, [], []⟩ = (.ok s2, d2) ∧ Numbered [smallPart] s2.partitions := by
  have hs := smallDisk_sane [(7, smallPart)]
  obtain ⟨sd, hd⟩ := undisturbed_writes m hs rfl (by decide)
  have hl : sd.device.data.length = 5120 := (write_ok (undisturbed_sane hs) hd).length.trans (zeros_length _)
  have hu : undisturbed (smallDisk [(7, smallPart)]) = smallDisk [(7, smallPart)] := by
    unfold undisturbed smallDisk
    simp only [zeros_length]
  obtain ⟨⟨hp, -, hv, -⟩, -⟩ := c40_memory m _ sd smallHeader 1 9 (undisturbed_sane hs) hd
  obtain ⟨s2, d2, e, hn, -⟩ := c42_new_partial m m (smallDisk [(7, smallPart)]) sd smallHeader 1 9 GptConfig.new
    ⟨sd.device.data, 0, 5120, [], []⟩ hs hd (by rw [← hu, hd]) rfl (by show 0 < 2 ^ 64; decide) rfl rfl (by
      refine ⟨512, by decide, by decide, ?_⟩
      show byteAt sd.device.data 512 ≠ byteAt (zeros 5120) 512
      rw [byteAt_zeros]
      have h0 := byteAt_slice sd.device.data 512 8 0
      rw [show slice sd.device.data 512 8 = signature from hv.signature] at h0
      rw [if_pos (by decide)] at h0
      rw [← h0]
      decide) (.inl fun _ _ _ => rfl)
  exact ⟨sd, s2, d2, hd, e, hn⟩

/-- The partition of the small disk with its required-partition flag set. -/
def flaggedPart : Partition := { smallPart with flags := 1 }

theorem flaggedPart_bytes : (∀ i, i ≠ 48 → byteAt (flaggedPart.asBytes 128) i = byteAt (smallPart.asBytes 128) i) ∧
    byteAt (flaggedPart.asBytes 128) 48 ≠ byteAt (smallPart.asBytes 128) 48 := by
  constructor
  · intro i hi
    rw [Partition.asBytes_128, Partition.asBytes_128]
    simp only [flaggedPart, byteAt_append, Uuid.toDisk_length, le64_length]
    repeat' split
    all_goals try rfl
    have hj : i - 16 - 16 - 8 - 8 ≠ 0 := by omega
    generalize i - 16 - 16 - 8 - 8 = j at *
    obtain ⟨j, rfl⟩ := Nat.exists_eq_succ_of_ne_zero hj
    match j with
    | 0 | 1 | 2 | 3 | 4 | 5 | 6 => rfl
    | j + 7 => omega
  · rw [Partition.asBytes_128, Partition.asBytes_128]
    simp only [flaggedPart, byteAt_append, Uuid.toDisk_length, le64_length]
    decide

/-- C42 fails: the small disk is written with one partition, then again with a flag of the partition changed, and that write is
interrupted after the first 128 bytes. It opened before and does not open now, although the backup is intact. -/
theorem c42_fails : ¬ C42 := by
  intro hc
  obtain ⟨s1, hw1, hl1, -⟩ := smallDisk_written .debug [(1, smallPart)] (by decide)
  have w1 := write_ok (smallDisk_sane _) hw1
  have r1 := w1.regions (smallDisk_sane _)
  obtain ⟨⟨hp, hph, hv, hh, hcrc⟩, -⟩ := c40_memory .debug _ s1 smallHeader 1 9 (smallDisk_sane _) hw1
  rw [w1.primary] at hph
  have hp2 : hp.partStart = 2 := by rw [← Except.ok.inj hph]; rfl
  have hp4 : hp.numParts = 4 := by rw [← Except.ok.inj hph]; rfl
  have hp8 : hp.partSize = 128 := by rw [← Except.ok.inj hph]; rfl
  obtain ⟨s0, d0, h2, hopen, -⟩ := c30_write_open .debug .debug _ s1 smallHeader 1 9 GptConfig.new ⟨s1.device.data, 0, 5120, [], []⟩
    (smallDisk_sane _) hw1 rfl rfl (by show 0 < 2 ^ 64; decide) rfl (fun hc => by cases hc)
  let s : GptDisk := { smallDisk [(1, flaggedPart)] with device := ⟨s1.device.data, 0, 5120, [], []⟩ }
  have hs : SaneDisk s smallHeader 1 9 :=
    ⟨rfl, smallSane, by show 10 * 512 ≤ s1.device.data.length; omega, by show s1.device.data.length < 2 ^ 64; omega⟩
  obtain ⟨sd, hd⟩ := undisturbed_writes .debug hs rfl (by show 1 ≤ 4; decide)
  obtain ⟨fs, e, s', hw2, hcut⟩ := c65_all .debug .debug s sd smallHeader 1 9 hs hd (by show 10 * 512 ≤ 5120; decide) 128
  have rd := (write_ok (undisturbed_sane hs) hd).regions (undisturbed_sane hs)
  have harr : ∀ (data : Bytes) (ps : List Partition) (p : Partition), slice data 1024 512 = tableBytes (p :: ps) 4 →
      ∀ i, 1024 ≤ i → i < 1152 → byteAt data i = byteAt (p.asBytes 128) (i - 1024) := by
    intro data ps p h i h1 h2
    have := byteAt_table_entry (parts := p :: ps) (n := 4) (j := 0) (i := i - 1024) (by simp) (by omega)
    rw [Nat.zero_mul, Nat.zero_add, ← h, byteAt_slice, if_pos (by omega), show 1024 + (i - 1024) = i from by omega] at this
    exact this
  have hmem : ∀ i, i ∈ (writeOrder 512 1 9 4 1 true).take 128 ↔ 1024 ≤ i ∧ i < 1152 := by
    intro i
    have : (writeOrder 512 1 9 4 1 true).take 128 = span 1024 128 := by
      unfold writeOrder
      simp only [List.append_assoc, List.range_one, List.flatMap_cons, List.flatMap_nil, List.append_nil]
      exact List.take_left' (by unfold span; simp)
    rw [this]
    unfold span
    rw [List.mem_range'_1]
  have hb : ∀ i, byteAt s'.device.data i = if 1024 ≤ i ∧ i < 1152 then byteAt (flaggedPart.asBytes 128) (i - 1024) else byteAt s1.device.data i := by
    intro i
    have := hcut.bytes i
    change _ = if i ∈ (writeOrder 512 1 9 4 1 true).take 128 then _ else _ at this
    rw [this]
    by_cases hi : 1024 ≤ i ∧ i < 1152
    · rw [if_pos ((hmem i).mpr hi), if_pos hi]
      exact harr _ [] flaggedPart rd.array i hi.1 hi.2
    · rw [if_neg (fun h => hi ((hmem i).mp h)), if_neg hi]
  have hbo : ∀ i, 1024 ≤ i → i < 1152 → byteAt s1.device.data i = byteAt (smallPart.asBytes 128) (i - 1024) := by
    exact harr _ [] smallPart r1.array
  have hsl : s'.device.data.length = 5120 := by rw [hcut.length]; exact hl1
  have hit : ArrayHit hp .lb512 s1.device.data s'.device.data 1072 := by
    refine ⟨by omega, fun i hi => ?_, 1072, ?_, ?_, ?_⟩
    · rw [hb]
      split
      · rename_i h
        rw [hbo i h.1 h.2]
        exact flaggedPart_bytes.1 _ (by omega)
      · rfl
    · rw [hp2]; decide
    · rw [hp2, hp4]; decide
    · rw [hb, hbo 1072 (by decide) (by decide)]
      exact flaggedPart_bytes.2
  have hne := arrayHit_crc hit (by rw [hp2, hp4, hl1]; decide)
  have hwin := c42_window .debug GptConfig.new s1.device.data ⟨s'.device.data, 0, 5120, [], []⟩ hp rfl (by show 0 < 2 ^ 64; decide)
    (by show s'.device.data.length < 2 ^ 64; omega) (by show s'.device.data.length = _; omega) hv hh hp8 (.inr (by rw [hp4]; decide))
    (by rw [hp2, hp4]; show 2 * 512 + 128 * 4 ≤ s'.device.data.length; omega)
    (fun i h1 h2 => by
      have h2 : i < 2 * 512 := h2
      show byteAt s'.device.data i = _
      rw [hb, if_neg (by omega)])
    (by rw [hcrc, Nat.mul_comm hp.numParts.toNat]; exact hne) rfl
  obtain ⟨s2, d2, e2, -⟩ := hc .debug .debug { s with device := { s.device with faults := fs } } s0 smallHeader 1 9 GptConfig.new
    ⟨s1.device.data, 0, 5120, [], []⟩ d0 ⟨s'.device.data, 0, 5120, [], []⟩ (sane_faults hs fs) rfl rfl (by show 0 < 2 ^ 64; decide) rfl
    hopen (by rw [hw2]) rfl (by show 0 < 2 ^ 64; decide)
  rw [e2] at hwin
  cases hwin

end Gpt
