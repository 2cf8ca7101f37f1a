import Verif.Lemmas.Journal
import Verif.Lemmas.WriteMem
/-!
# The writes of `write_inplace`, in order
-/

namespace Gpt

/-- The array of `h` ends below `2^64`. -/
def Header.NoWrap (h : Header) (lb : LbSize) : Prop := h.arrayStart lb + h.arrayLen < 2 ^ 64

namespace Partition

/-- `write_to_device` follows a single write to its slot. -/
theorem writeToDevice_follows (m : Mode) (p : Partition) {idx startLba : UInt64} {lb : LbSize} {sz : UInt32} (d : Dev)
    (h : startLba.toNat * lb.usize + idx.toNat * sz.toNat < 2 ^ 64) :
    Follows id [(startLba.toNat * lb.usize + idx.toNat * sz.toNat, p.asBytes sz)] (writeToDevice m p idx startLba lb sz) d := by
  unfold writeToDevice
  refine Follows.bind_nil (Follows.lift _ _) fun st d1 h1 _ => ?_
  rw [M.lift_ok, Res.ofOption_eq_ok, checkedMul64_some, lb_u64_toNat] at h1
  obtain ⟨⟨_, hst⟩, rfl⟩ := h1
  refine Follows.bind_nil (Follows.lift _ _) fun off d1 h1 _ => ?_
  rw [M.lift_ok, Res.ofOption_eq_ok, checkedMul64_some, UInt32.toNat_toUInt64] at h1
  obtain ⟨⟨_, hoff⟩, rfl⟩ := h1
  refine Follows.bind_nil (Follows.lift _ _) fun a d1 h1 _ => ?_
  rw [M.lift_ok] at h1
  obtain ⟨ha, rfl⟩ := h1
  obtain rfl := add64_ok ha
  refine Follows.bind_nil (Dev.seekStart_follows _ _) fun v d2 h1 hd => ?_
  obtain ⟨_, e, _⟩ := Dev.seekStart_ok h1
  have hp : d2.pos = startLba.toNat * lb.usize + idx.toNat * sz.toNat := by
    rw [e]
    simp only
    rw [u64_add_toNat (by omega), hst, hoff]
  have := Dev.writeAll_follows (p.asBytes sz) d2
  rw [hp] at this
  exact this

/-- `write_zero_entries_to_device` follows a single write to its slots. -/
theorem writeZeroEntries_follows (m : Mode) {idx n startLba : UInt64} {lb : LbSize} {sz : UInt32} (d : Dev)
    (h : startLba.toNat * lb.usize + idx.toNat * sz.toNat < 2 ^ 64) :
    Follows id [(startLba.toNat * lb.usize + idx.toNat * sz.toNat, zeros (n.toNat * sz.toNat))]
      (writeZeroEntries m idx n startLba lb sz) d := by
  unfold writeZeroEntries
  refine Follows.bind_nil (Follows.lift _ _) fun st d1 h1 _ => ?_
  rw [M.lift_ok, Res.ofOption_eq_ok, checkedMul64_some, lb_u64_toNat] at h1
  obtain ⟨⟨_, hst⟩, rfl⟩ := h1
  refine Follows.bind_nil (Follows.lift _ _) fun off d1 h1 _ => ?_
  rw [M.lift_ok, Res.ofOption_eq_ok, checkedMul64_some, UInt32.toNat_toUInt64] at h1
  obtain ⟨⟨_, hoff⟩, rfl⟩ := h1
  refine Follows.bind_nil (Follows.lift _ _) fun a d1 h1 _ => ?_
  rw [M.lift_ok] at h1
  obtain ⟨ha, rfl⟩ := h1
  obtain rfl := add64_ok ha
  refine Follows.bind_nil (Dev.seekStart_follows _ _) fun v d2 h1 hd => ?_
  obtain ⟨_, e, _⟩ := Dev.seekStart_ok h1
  have hp : d2.pos = startLba.toNat * lb.usize + idx.toNat * sz.toNat := by
    rw [e]
    simp only
    rw [u64_add_toNat (by omega), hst, hoff]
  refine Follows.bind_nil (Follows.lift _ _) fun k d3 h1 _ => ?_
  rw [M.lift_ok, Res.ofOption_eq_ok, checkedMul64_some, UInt32.toNat_toUInt64] at h1
  obtain ⟨⟨_, hk⟩, rfl⟩ := h1
  refine Follows.bind_nil (Follows.lift _ _) fun _ d4 h1 _ => ?_
  rw [M.lift_ok] at h1
  obtain ⟨_, rfl⟩ := h1
  rw [hk, Nat.mul_comm sz.toNat]
  have := Dev.writeAll_follows (zeros (n.toNat * sz.toNat)) d4
  rw [hp] at this
  exact this

end Partition

namespace GptDisk

/-- The write of the entry in slot `idx` of the array of `h`. -/
def slotW (lb : LbSize) (h : Header) (idx : Nat) (p : Partition) : Write :=
  (h.arrayStart lb + idx * h.partSize.toNat, p.asBytes h.partSize)

/-- The write of the backup slot, if that is not the primary slot. -/
def slotB (lb : LbSize) (ph : Header) (bh : Option Header) (idx : Nat) (p : Partition) : List Write :=
  match bh with
  | some b => if ph.partStart ≠ b.partStart then [slotW lb b idx p] else []
  | none => []

/-- The entries, from slot `idx` on. -/
def entryPlan (lb : LbSize) (ph : Header) (bh : Option Header) : List Partition → Nat → List Write
  | [], _ => []
  | p :: ps, idx => [slotW lb ph idx p] ++ slotB lb ph bh idx p ++ entryPlan lb ph bh ps (idx + 1)

/-- The zeroed remainder of the array of `h`. -/
def zeroW (lb : LbSize) (h : Header) (n : Nat) : Write :=
  (h.arrayStart lb + n * h.partSize.toNat, zeros ((h.numParts.toNat - n) * h.partSize.toNat))

/-- Both arrays. -/
def arrayPlan (lb : LbSize) (ph : Header) (bh : Option Header) (parts : List Partition) : List Write :=
  entryPlan lb ph bh parts 0 ++ [zeroW lb ph parts.length] ++ (bh.toList.map (zeroW lb · parts.length))

/-- The block of `h`, with the checksums of `data`. -/
def headerW (lb : LbSize) (h : Header) (data : Bytes) : Write :=
  (h.currentLba.toNat * lb.usize, h.block (Gpt.crc32 (slice data (h.arrayStart lb) h.arrayLen)) lb)

/-- The backup header block, if it is written, when the arrays are done. -/
def backupW (lb : LbSize) (bh : Option Header) (data : Bytes) : List Write := bh.toList.map (headerW lb · data)

/-- All writes: arrays, backup header, primary header. -/
def writePlan (lb : LbSize) (ph : Header) (bh : Option Header) (parts : List Partition) (data : Bytes) : List Write :=
  arrayPlan lb ph bh parts ++ backupW lb bh (applyWrites data (arrayPlan lb ph bh parts)) ++
    [headerW lb ph (applyWrites data (arrayPlan lb ph bh parts ++ backupW lb bh (applyWrites data (arrayPlan lb ph bh parts))))]

theorem slot_noWrap {h : Header} {lb : LbSize} (hn : h.NoWrap lb) {idx : Nat} (hi : idx ≤ h.numParts.toNat) :
    h.partStart.toNat * lb.usize + (UInt64.ofNat idx).toNat * h.partSize.toNat < 2 ^ 64 ∧ (UInt64.ofNat idx).toNat = idx := by
  have h1 := h.numParts.toNat_lt
  have e : (UInt64.ofNat idx).toNat = idx := by rw [UInt64.toNat_ofNat', Nat.mod_eq_of_lt (by omega)]
  have : idx * h.partSize.toNat ≤ h.numParts.toNat * h.partSize.toNat := Nat.mul_le_mul_right _ hi
  unfold Header.NoWrap Header.arrayStart Header.arrayLen at hn
  rw [e]
  exact ⟨by omega, rfl⟩

/-- The loop over the entries. It never gets past the last slot. -/
theorem writeEntries_follows (m : Mode) {lb : LbSize} {ph : Header} {bh : Option Header} (hp : ph.NoWrap lb)
    (hb : ∀ b, bh = some b → b.NoWrap lb) (parts : List Partition) (idx next : Nat) (d : Dev) :
    Follows id (entryPlan lb ph bh (parts.take (ph.numParts.toNat - idx)) idx) (writeEntries m lb ph bh parts idx next) d := by
  induction parts generalizing idx next d with
  | nil => rw [List.take_nil]; exact Follows.pure _ _
  | cons p ps ih =>
    unfold writeEntries
    split
    · exact Follows.throw _ _
    · rename_i hi
      have hsub : ph.numParts.toNat - idx = (ph.numParts.toNat - (idx + 1)) + 1 := by omega
      rw [hsub, List.take_succ_cons]
      unfold entryPlan
      obtain ⟨h1, h2⟩ := slot_noWrap hp (idx := idx) (by omega)
      rw [List.append_assoc]
      refine Follows.bind ?_ fun _ d1 _ _ => ?_
      · have := Partition.writeToDevice_follows m p d h1
        rw [h2] at this
        exact Follows.mapErr _ this
      · cases bh with
        | none => exact ih (idx + 1) (idx + 1) d1
        | some b =>
          unfold slotB
          simp only
          by_cases hne : ph.partStart ≠ b.partStart
          · rw [if_pos hne, if_pos hne]
            split
            · exact Follows.throw _ _
            · obtain ⟨h3, h4⟩ := slot_noWrap (hb b rfl) (idx := idx) (by omega)
              refine Follows.bind ?_ fun _ d1 _ _ => ih (idx + 1) (idx + 1) d1
              have := Partition.writeToDevice_follows m p d1 h3
              rw [h4] at this
              exact Follows.mapErr _ this
          · rw [if_neg hne, if_neg hne]
            split
            · exact Follows.throw _ _
            exact ih (idx + 1) (idx + 1) d1

/-- What the loop returns: the number of the slot after the last entry; all entries have slots. -/
theorem writeEntries_ok {m : Mode} {lb : LbSize} {ph : Header} {bh : Option Header} (parts : List Partition) {idx next r : Nat}
    {d d' : Dev} (h : writeEntries m lb ph bh parts idx next d = (.ok r, d')) :
    (r = if parts = [] then next else idx + parts.length) ∧ (parts = [] ∨ idx + parts.length ≤ ph.numParts.toNat) ∧
    (parts = [] ∨ ∀ b, bh = some b → idx + parts.length ≤ b.numParts.toNat) := by
  induction parts generalizing idx next d with
  | nil =>
    simp only [writeEntries, M.pure_ok] at h
    exact ⟨by simp [h.1], .inl rfl, .inl rfl⟩
  | cons p ps ih =>
    unfold writeEntries at h
    split at h
    · simp [M.throw] at h
    · rename_i hi
      rw [M.bind_ok] at h
      obtain ⟨_, d1, _, h⟩ := h
      have key : ∀ d2, writeEntries m lb ph bh ps (idx + 1) (idx + 1) d2 = (.ok r, d') →
          (∀ b, bh = some b → idx < b.numParts.toNat) →
          (r = if p :: ps = [] then next else idx + (p :: ps).length) ∧ (p :: ps = [] ∨ idx + (p :: ps).length ≤ ph.numParts.toNat) ∧
          (p :: ps = [] ∨ ∀ b, bh = some b → idx + (p :: ps).length ≤ b.numParts.toNat) := by
        intro d2 h2 hbn
        obtain ⟨e1, e2, e3⟩ := ih h2
        refine ⟨?_, .inr ?_, .inr fun b hb => ?_⟩
        · rw [if_neg (by simp), e1]
          split
          · rename_i hps; subst hps; simp
          · simp only [List.length_cons]; omega
        · rcases e2 with rfl | e2
          · simp only [List.length_cons, List.length_nil]; omega
          · simp only [List.length_cons]; omega
        · have := hbn b hb
          rcases e3 with rfl | e3
          · simp only [List.length_cons, List.length_nil]; omega
          · have := e3 b hb; simp only [List.length_cons]; omega
      cases bh with
      | none => exact key _ h (by simp)
      | some b =>
        simp only at h
        split at h
        · simp [M.throw, M.bind_apply] at h
        · rename_i hib
          have hbn : ∀ b', some b = some b' → idx < b'.numParts.toNat := by
            rintro b' ⟨⟩; omega
          split at h
          · rw [M.bind_ok] at h
            obtain ⟨_, d2, _, h⟩ := h
            exact key _ h hbn
          · exact key _ h hbn

theorem writeZeros_follows (m : Mode) {lb : LbSize} {h : Header} (hn : h.NoWrap lb) {next : Nat} (hx : next ≤ h.numParts.toNat)
    (d : Dev) : Follows id [zeroW lb h next] (writeZeros m lb h next) d := by
  obtain ⟨h1, h2⟩ := slot_noWrap hn hx
  have hc : checkedSub64 h.numParts.toUInt64 (UInt64.ofNat next) = some (UInt64.ofNat (h.numParts.toNat - next)) := by
    have hlt := h.numParts.toNat_lt
    rw [checkedSub64_some]
    rw [h2, UInt32.toNat_toUInt64, UInt64.toNat_ofNat', Nat.mod_eq_of_lt (by omega)]
    exact ⟨hx, rfl⟩
  unfold writeZeros
  rw [hc]
  have := Partition.writeZeroEntries_follows m (n := UInt64.ofNat (h.numParts.toNat - next)) d h1
  have hlt := h.numParts.toNat_lt
  rw [h2, UInt64.toNat_ofNat', Nat.mod_eq_of_lt (by omega)] at this
  exact Follows.mapErr _ this

end GptDisk

/-- `file_write_header` follows a single write of its block. -/
theorem Header.fileWriteHeader_follows {lba : UInt64} {lb : LbSize} {h : Header} {d : Dev} (hs : h.signature.length = 8) :
    Follows Prod.snd [(lba.toNat * lb.usize, h.block (Gpt.crc32 (slice d.data (h.arrayStart lb) h.arrayLen)) lb)]
      (Header.fileWriteHeader lba lb) (h, d) := by
  unfold Header.fileWriteHeader
  refine Follows.bind_nil (Follows.get _) fun s s1 h1 _ => ?_
  rw [M.get_ok] at h1
  obtain ⟨rfl, rfl⟩ := h1
  refine Follows.bind_nil ?_ fun c s1 h1 hd1 => ?_
  · exact Follows.zoom (by simp) (.quiet (partentryChecksum_quiet h lb d))
  · simp only [Header.onDev, M.zoom_ok] at h1
    obtain ⟨d1, hc, rfl⟩ := h1
    obtain ⟨e1, -, -⟩ := partentryChecksum_ok hc
    simp only at hd1
    refine Follows.bind_nil (.quiet (.refl _)) fun _ s1 h1 _ => ?_
    rw [M.modify_ok] at h1
    subst h1
    refine Follows.bind_nil (Follows.get _) fun s s1 h1 _ => ?_
    rw [M.get_ok] at h1
    obtain ⟨rfl, rfl⟩ := h1
    refine Follows.bind_nil (Follows.lift _ _) fun tb s1 h1 _ => ?_
    rw [M.lift_ok] at h1
    obtain ⟨htb, rfl⟩ := h1
    rw [Header.toBytes_eq (by exact hs)] at htb
    simp only [Res.ok.injEq] at htb
    subst htb
    refine Follows.bind_nil (.quiet (.refl _)) fun _ s1 h1 _ => ?_
    rw [M.modify_ok] at h1
    subst h1
    refine Follows.bind_nil (Follows.lift _ _) fun st s1 h1 _ => ?_
    rw [M.lift_ok, Res.ofOption_eq_ok, checkedMul64_some, lb_u64_toNat] at h1
    obtain ⟨⟨_, hst⟩, rfl⟩ := h1
    refine Follows.bind_nil (Follows.zoom (by simp) (Follows.mapErr _ (Dev.seekStart_follows _ _))) fun v s2 h1 hd2 => ?_
    simp only [Header.onDev, M.zoom_ok, M.mapErr_ok] at h1
    obtain ⟨d2, hk, rfl⟩ := h1
    obtain ⟨_, e, _⟩ := Dev.seekStart_ok hk
    have hp : d2.pos = lba.toNat * lb.usize := by rw [e]; exact hst
    have hw := Dev.writeAll_follows (h.block c lb) d2
    rw [hp, e1] at hw
    have := Follows.bind (π := Prod.snd) (b := [])
      (x := Header.onDev ((Dev.writeAll (h.block c lb)).mapErr HeaderError.io))
      (f := fun _ => (Pure.pure (h.block c lb).length : M (Header × Dev) HeaderError Nat))
      (Follows.zoom (s := ({ h with crc32Parts := c, crc32 := Gpt.crc32 (h.fieldBytes c) }, d2)) (by simp)
        (Follows.mapErr _ (by rw [e1]; exact hw)))
      (fun v s' _ _ => Follows.pure _ _)
    rw [List.append_nil] at this
    exact this

namespace GptDisk

theorem onDev_follows {ε ε' α : Type} {plan : List Write} {x : M Dev ε α} {s : GptDisk} (g : ε → ε')
    (h : Follows id plan x s.device) : Follows GptDisk.device plan (onDev g x) s :=
  Follows.zoom (fun _ _ => rfl) (Follows.mapErr g h)

theorem writePrimary_follows {lb : LbSize} {h : Header} {d : Dev} (hs : h.signature.length = 8) :
    Follows Prod.snd [headerW lb h d.data] (Header.writePrimary lb) (h, d) := by
  unfold Header.writePrimary
  refine Follows.bind_nil (Follows.get _) fun s s1 h1 _ => ?_
  rw [M.get_ok] at h1
  obtain ⟨rfl, rfl⟩ := h1
  split
  · exact Follows.throw _ _
  · exact Header.fileWriteHeader_follows hs

theorem writeBackup_follows {lb : LbSize} {h : Header} {d : Dev} (hs : h.signature.length = 8) :
    Follows Prod.snd [headerW lb h d.data] (Header.writeBackup lb) (h, d) := by
  unfold Header.writeBackup
  refine Follows.bind_nil (Follows.get _) fun s s1 h1 _ => ?_
  rw [M.get_ok] at h1
  obtain ⟨rfl, rfl⟩ := h1
  split
  · exact Follows.throw _ _
  · exact Header.fileWriteHeader_follows hs

theorem onPrimary_follows {lb : LbSize} {h : Header} {s : GptDisk} (hs : h.signature.length = 8) :
    Follows GptDisk.device [headerW lb h s.device.data] (onPrimary h (Header.writePrimary lb)) s := by
  have hw := writePrimary_follows (lb := lb) (d := s.device) hs
  obtain ⟨ws, h1, h2, h3⟩ := hw.writes
  refine ⟨⟨ws, h1, h2, fun a ha => ?_⟩, hw.cap, hw.faults⟩
  unfold onPrimary at ha
  simp only at ha
  cases hr : (Header.writePrimary lb (h, s.device)).1 with
  | ok n => exact h3 n hr
  | err e => rw [hr] at ha; simp at ha
  | panic => rw [hr] at ha; simp at ha

theorem onBackup_follows {lb : LbSize} {h : Header} {s : GptDisk} (hs : h.signature.length = 8) :
    Follows GptDisk.device [headerW lb h s.device.data] (onBackup h (Header.writeBackup lb)) s := by
  have hw := writeBackup_follows (lb := lb) (d := s.device) hs
  obtain ⟨ws, h1, h2, h3⟩ := hw.writes
  refine ⟨⟨ws, h1, h2, fun a ha => ?_⟩, hw.cap, hw.faults⟩
  unfold onBackup at ha
  simp only at ha
  cases hr : (Header.writeBackup lb (h, s.device)).1 with
  | ok n => exact h3 n hr
  | err e => rw [hr] at ha; simp at ha
  | panic => rw [hr] at ha; simp at ha

/-- The writing part of `write_inplace` follows its plan, whatever happens. (If there are more entries than slots it stops at
the last slot, with an error.) -/
theorem writeRest_follows (m : Mode) {lb : LbSize} {ph : Header} {bh : Option Header} (parts : List Partition) (sync : Bool)
    (s : GptDisk) (hs : ph.signature.length = 8) (hp : ph.NoWrap lb)
    (hb : ∀ b, bh = some b → b.NoWrap lb ∧ b.signature.length = 8 ∧ b.numParts = ph.numParts) :
    Follows GptDisk.device (writePlan lb ph bh (parts.take ph.numParts.toNat) s.device.data)
      (writeRest m lb ph bh parts sync) s := by
  unfold writeRest writePlan
  have htail : ∀ s1 : GptDisk, Follows GptDisk.device [headerW lb ph s1.device.data] (do
      onPrimary ph (Header.writePrimary lb)
      onDev GptError.io Dev.flush
      if sync = true then onDev GptError.io Dev.syncAll else pure () : M GptDisk GptError Unit) s1 := by
    intro s1
    have := Follows.bind (π := GptDisk.device) (b := []) (onPrimary_follows (s := s1) (lb := lb) hs)
      (f := fun _ => (do
        onDev GptError.io Dev.flush
        if sync = true then onDev GptError.io Dev.syncAll else pure () : M GptDisk GptError Unit)) (fun _ s2 _ _ => ?_)
    · rw [List.append_nil] at this; exact this
    · refine Follows.bind_nil (onDev_follows _ (Dev.flush_follows _)) fun _ s3 _ _ => ?_
      split
      · exact onDev_follows _ (Dev.syncAll_follows _)
      · exact Follows.pure _ _
  rw [List.append_assoc]
  unfold arrayPlan
  rw [List.append_assoc, List.append_assoc, List.append_assoc]
  refine Follows.bind (onDev_follows _ (writeEntries_follows m hp (fun b hb' => (hb b hb').1) parts 0 0 s.device)) fun next s1 h1 hd1 => ?_
  have hnext : next = parts.length ∧ parts.length ≤ ph.numParts.toNat := by
    unfold onDev at h1
    rw [M.zoom_ok] at h1
    obtain ⟨d', hx, _⟩ := h1
    rw [M.mapErr_ok] at hx
    obtain ⟨e1, e2, _⟩ := writeEntries_ok parts hx
    constructor
    · rw [e1]; split
      · rename_i h; subst h; rfl
      · omega
    · rcases e2 with rfl | e2
      · exact Nat.zero_le _
      · omega
  obtain ⟨rfl, hle⟩ := hnext
  rw [List.take_of_length_le (by omega)] at hd1 ⊢
  refine Follows.bind (onDev_follows _ (writeZeros_follows m hp hle s1.device)) fun _ s2 h2 hd2 => ?_
  cases bh with
  | none =>
    have := htail s2
    rw [hd2, hd1, ← applyWrites_append] at this
    simpa [backupW] using this
  | some b =>
    obtain ⟨hb1, hb2, hb3⟩ := hb b rfl
    refine Follows.bind (a := (some b).toList.map (zeroW lb · parts.length))
      (onDev_follows _ (writeZeros_follows m hb1 (by rw [hb3]; exact hle) s2.device)) fun _ s3 h3 hd3 => ?_
    have e3 : s3.device.data = applyWrites s.device.data (entryPlan lb ph (some b) parts 0 ++ ([zeroW lb ph parts.length] ++
        (some b).toList.map (zeroW lb · parts.length))) := by
      rw [hd3, hd2, hd1, ← applyWrites_append, ← applyWrites_append]
    rw [← e3]
    refine Follows.bind (a := backupW lb (some b) s3.device.data) (onBackup_follows hb2) fun _ s4 h4 hd4 => ?_
    have := htail s4
    rw [hd4] at this
    rw [applyWrites_append, applyWrites_append, applyWrites_append]
    rw [e3, applyWrites_append, applyWrites_append] at this ⊢
    exact this

end GptDisk

end Gpt
