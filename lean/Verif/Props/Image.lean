import Verif.Props.Build
/-!
# C88: what `write_inplace` leaves on the device, whatever the layout
-/

namespace Gpt

open Spec GptDisk

/-- Byte `i` after some writes (offset, bytes) in order: the last one that covers it decides. -/
def Spec.byteAfter (data : Bytes) (ws : List (Nat × Bytes)) (i : Nat) : UInt8 :=
  match ws.reverse.find? fun w => w.1 ≤ i && i < w.1 + w.2.length with
  | some w => byteAt w.2 (i - w.1)
  | none => byteAt data i

/-- The length after some writes: a write beyond the end makes the content longer, an empty one does not. -/
def Spec.lengthAfter (data : Bytes) (ws : List (Nat × Bytes)) : Nat :=
  (ws.filter fun w => w.2.length != 0).foldr (fun w n => max (w.1 + w.2.length) n) data.length

/-- The content after some writes. -/
def Spec.overlay (data : Bytes) (ws : List (Nat × Bytes)) : Bytes := (List.range (lengthAfter data ws)).map (byteAfter data ws)

/-- The byte where slot `i` of the array of `h` starts. -/
def Spec.slotOf (lb : LbSize) (h : Header) (i : Nat) : Nat := h.partStart.toNat * lb.usize + i * h.partSize.toNat

/-- The writes to the arrays: the entries one after the other, each to the primary array and then to the backup array if that
is another one; then zeros to the rest of both. -/
def Spec.arrayWrites (lb : LbSize) (ph : Header) (bh : Option Header) (ps : List Partition) : List (Nat × Bytes) :=
  ps.zipIdx.flatMap (fun x => (slotOf lb ph x.2, x.1.asBytes ph.partSize) ::
    (bh.toList.filter (fun b => b.partStart != ph.partStart)).map fun b => (slotOf lb b x.2, x.1.asBytes b.partSize)) ++
  (ph :: bh.toList).map fun h => (slotOf lb h ps.length, zeros ((h.numParts.toNat - ps.length) * h.partSize.toNat))

/-- The block that stores `h` with the array checksum `c`. -/
structure Spec.HeaderBlock (lb : LbSize) (h : Header) (c : UInt32) (b : Bytes) : Prop where
  length : b.length = lb.usize
  valid : ValidAt b 0
  fields : ∃ crc, HeaderAt b 0 { h with crc32 := crc, crc32Parts := c }
  rest : ∀ i, 92 ≤ i → byteAt b i = 0

/-- `w` writes the block of `h` to its LBA, with the checksum of its array in `data`. -/
structure Spec.HeaderWrite (lb : LbSize) (h : Header) (data : Bytes) (w : Nat × Bytes) : Prop where
  offset : w.1 = h.currentLba.toNat * lb.usize
  block : HeaderBlock lb h (crc32 (slice data (slotOf lb h 0) (h.numParts.toNat * h.partSize.toNat))) w.2

/-- All writes, in order: the arrays, the backup header if there is one, the primary header. -/
structure Spec.Writes (lb : LbSize) (ph : Header) (bh : Option Header) (ps : List Partition) (data : Bytes) (ws : List (Nat × Bytes)) :
    Prop where
  all : ∃ bw pw, ws = arrayWrites lb ph bh ps ++ bw ++ [pw] ∧
    (bh = none → bw = []) ∧
    (∀ b, bh = some b → ∃ w, bw = [w] ∧ HeaderWrite lb b (overlay data (arrayWrites lb ph bh ps)) w) ∧
    HeaderWrite lb ph (overlay data (arrayWrites lb ph bh ps ++ bw)) pw

/-- The primary header a write makes of the header in use. -/
def Spec.primaryAgain (h : Header) : HeaderBuilder where
  primary := true
  diskGuid := h.diskGuid
  primaryLba := if h.currentLba < h.backupLba then h.currentLba else h.backupLba
  backupLba := if h.currentLba < h.backupLba then h.backupLba else h.currentLba
  firstUsable := h.firstUsable
  lastUsable := h.lastUsable
  numParts := h.numParts
  partSize := h.partSize

/-- The headers a write makes: no backup one with `readonly_backup`. Their arrays end below 2^64 and are shorter
than 2^63 bytes, the most a vector can hold. -/
structure Spec.WriteHeaders (m : Mode) (s : GptDisk) (h ph : Header) (bh : Option Header) : Prop where
  header : s.header (ε := Empty) = .ok h
  primary : Built m s.config.lbSize (primaryAgain h) (.ok ph)
  primaryEnd : slotOf s.config.lbSize ph ph.numParts.toNat < 2 ^ 64
  size : ph.numParts.toNat * ph.partSize.toNat < 2 ^ 63
  none : bh = none → s.config.readonlyBackup = true
  some : ∀ b, bh = some b → s.config.readonlyBackup = false ∧ Built m s.config.lbSize (backupFrom ph) (.ok b) ∧
    slotOf s.config.lbSize b b.numParts.toNat < 2 ^ 64

/-! ### The specification's overlay is the sequence of writes -/

theorem byteAfter_eq (data : Bytes) (ws : List Write) (i : Nat) : byteAt (applyWrites data ws) i = byteAfter data ws i := by
  unfold byteAfter
  rw [← List.reverse_reverse ws]
  generalize ws.reverse = l
  rw [List.reverse_reverse]
  induction l with
  | nil => rfl
  | cons w l ih =>
    rw [List.reverse_cons, applyWrites_append, applyWrites_cons, applyWrites_nil, byteAt_patchW, List.find?_cons]
    by_cases hc : w.1 ≤ i ∧ i < w.1 + w.2.length
    · rw [if_pos hc, show (decide (w.1 ≤ i) && decide (i < w.1 + w.2.length)) = true by simpa using hc]
    · rw [if_neg hc, show (decide (w.1 ≤ i) && decide (i < w.1 + w.2.length)) = false by
        rw [Bool.eq_false_iff]; simpa using hc]
      exact ih

theorem lengthAfter_eq (data : Bytes) (ws : List Write) : (applyWrites data ws).length = lengthAfter data ws := by
  unfold lengthAfter
  have gen : ∀ (l : List Write) (n : Nat), l.foldr (fun w n => max (w.1 + w.2.length) n) n =
      max n (l.foldr (fun w n => max (w.1 + w.2.length) n) 0) := by
    intro l n
    induction l with
    | nil => simp
    | cons w l ih => simp only [List.foldr_cons]; rw [ih]; omega
  induction ws generalizing data with
  | nil => rfl
  | cons w ws ih =>
    rw [applyWrites_cons, ih]
    unfold patchW
    by_cases h : w.2 = []
    · rw [if_pos h, List.filter_cons, if_neg (by simp [h])]
    · have h0 : w.2.length ≠ 0 := by simpa using h
      rw [if_neg h, List.filter_cons, if_pos (by simpa using h), List.foldr_cons, gen _ (patch _ _ _).length, gen _ data.length, patch_length]
      omega

theorem overlay_eq (data : Bytes) (ws : List Write) : applyWrites data ws = overlay data ws := by
  refine bytes_ext ?_ fun i hi => ?_
  · unfold overlay
    rw [List.length_map, List.length_range, lengthAfter_eq]
  · rw [byteAfter_eq]
    unfold overlay
    rw [lengthAfter_eq] at hi
    unfold byteAt
    rw [List.getElem?_map, List.getElem?_range hi]
    rfl

theorem slotOf_eq (lb : LbSize) (h : Header) (i : Nat) : slotOf lb h i = h.arrayStart lb + i * h.partSize.toNat := rfl

theorem arrayWrites_eq (lb : LbSize) (ph : Header) (bh : Option Header) (ps : List Partition) :
    arrayPlan lb ph bh ps = arrayWrites lb ph bh ps := by
  unfold arrayPlan arrayWrites
  have key : ∀ (ps : List Partition) (n : Nat), entryPlan lb ph bh ps n = (ps.zipIdx n).flatMap (fun x =>
      (slotOf lb ph x.2, x.1.asBytes ph.partSize) ::
      (bh.toList.filter (fun b => b.partStart != ph.partStart)).map fun b => (slotOf lb b x.2, x.1.asBytes b.partSize)) := by
    intro ps
    induction ps with
    | nil => intro n; rfl
    | cons p ps ih =>
      intro n
      unfold entryPlan
      rw [ih, List.zipIdx_cons, List.flatMap_cons]
      congr 1
      unfold slotB
      cases bh with
      | none => rfl
      | some b =>
        simp only [Option.toList_some, List.filter_cons, List.filter_nil]
        by_cases hne : ph.partStart = b.partStart
        · rw [if_neg (by simpa using hne), if_neg (by simp [hne])]; rfl
        · rw [if_pos hne, if_pos (by simpa using fun h => hne h.symm)]; rfl
  rw [key, List.append_assoc]
  rfl

theorem headerWrite_of {lb : LbSize} {h : Header} (hs : h.signature = efiPart) (hr : h.reserved = 0) (data : Bytes) :
    HeaderWrite lb h data (headerW lb h data) where
  offset := rfl
  block := by
    have e : slotOf lb h 0 = h.arrayStart lb := by rw [slotOf_eq, Nat.zero_mul, Nat.add_zero]
    rw [e]
    have hl : (h.block (crc32 (slice data (h.arrayStart lb) h.arrayLen)) lb).length = lb.usize := Header.block_length ..
    have hrd := read_block (data := h.block (crc32 (slice data (h.arrayStart lb) h.arrayLen)) lb) (off := 0) (lb := lb) hs hr
      (by rw [hl]; omega) (slice_zero_length hl)
    obtain ⟨a1, a2⟩ := ((readHeaderAt_spec _ _).1 _).mp hrd
    exact ⟨hl, a1, ⟨_, a2⟩, fun i hi => Header.byteAt_block_tail (by rw [hs]; rfl) _ _ hi⟩

theorem makes_sig {b : HeaderBuilder} {k : Nat} {h : Header} (a : Makes b k h) : h.signature = efiPart ∧ h.reserved = 0 :=
  ⟨a.signature.trans (by decide +kernel), a.zeros.2.1⟩

theorem built_sig {m : Mode} {lb : LbSize} {b : HeaderBuilder} {h : Header} (hb : Built m lb b (.ok h)) :
    h.signature = efiPart ∧ h.reserved = 0 := by
  cases hb with
  | header k _ _ _ _ _ _ a => exact makes_sig a

theorem writes_of {lb : LbSize} {ph : Header} {bh : Option Header} (hp : ph.signature = efiPart ∧ ph.reserved = 0)
    (hb : ∀ b, bh = some b → b.signature = efiPart ∧ b.reserved = 0) (ps : List Partition) (data : Bytes) :
    Writes lb ph bh ps data (writePlan lb ph bh ps data) := by
  unfold writePlan
  rw [arrayWrites_eq, overlay_eq, overlay_eq]
  refine ⟨backupW lb bh (overlay data (arrayWrites lb ph bh ps)), _, rfl, ?_, ?_, headerWrite_of hp.1 hp.2 _⟩
  · rintro rfl; rfl
  · rintro b rfl
    exact ⟨_, rfl, headerWrite_of (hb b rfl).1 (hb b rfl).2 _⟩

theorem headers_of {m : Mode} {s : GptDisk} {h ph : Header} {bh : Option Header} (hw : WriteHeaders m s h ph bh) :
    s.tryHeader = .ok h ∧ primaryOf m h s.config.lbSize = .ok ph ∧ (s.config.readonlyBackup = true ↔ bh = none) ∧
    ∀ b, bh = some b → backupOf m ph s.config.lbSize = .ok b := by
  refine ⟨header_ok_iff.mp hw.header, (c86_build _ _ _ _).mpr hw.primary, ?_, ?_⟩
  · constructor
    · intro hr
      cases bh with
      | none => rfl
      | some b => have := (hw.some b rfl).1; rw [hr] at this; cases this
    · exact hw.none
  · intro b hb
    unfold backupOf
    rw [(backup_built rfl hw.primary).1]
    exact (c86_build _ _ _ _).mpr (hw.some b hb).2.1

theorem backup_count {m : Mode} {lb : LbSize} {ph b : Header} (hb : Built m lb (backupFrom ph) (.ok b)) :
    b.numParts = ph.numParts ∧ b.partSize = ph.partSize := by
  cases hb with
  | header k _ _ _ _ _ _ a => exact ⟨a.count, a.entry⟩

theorem image_run {m : Mode} {s : GptDisk} {h ph : Header} {bh : Option Header} (hw : WriteHeaders m s h ph bh) :
    Follows GptDisk.device (writePlan s.config.lbSize ph bh ((Spec.used s.partitions).take ph.numParts.toNat) s.device.data)
      (writeInplace m) s := by
  obtain ⟨h1, h2, h3, h4⟩ := headers_of hw
  have hsig := built_sig hw.primary
  have hq := findBackupLba_quiet s.config.lbSize s.device
  have e := writeInplace_eq m s
  have w2 : ∀ b, bh = some b → b.NoWrap s.config.lbSize ∧ b.signature.length = 8 ∧ b.numParts = ph.numParts := fun b hb => by
    obtain ⟨-, a1, a2⟩ := hw.some b hb
    exact ⟨a2, by rw [(built_sig a1).1]; rfl, (backup_count a1).1⟩
  by_cases hwr : s.config.writable = false
  · rw [if_pos hwr] at e
    exact .stop (by rw [e]; exact .refl _) (by rw [e]; simp)
  · rw [if_neg hwr] at e
    rcases hx : findBackupLba s.config.lbSize s.device with ⟨r, d1⟩
    rw [hx] at e hq
    simp only at hq
    cases r with
    | err x => exact .stop (by rw [e]; exact hq) (by rw [e]; simp)
    | panic => exact .stop (by rw [e]; exact hq) (by rw [e]; simp)
    | ok x =>
      simp only [h1, h2] at e
      have key : ∀ s1 : GptDisk, s1.device = d1 →
          writeInplace m s = writeRest m s.config.lbSize ph bh (usedParts s.partitions) s.syncAll s1 →
          Follows GptDisk.device (writePlan s.config.lbSize ph bh ((Spec.used s.partitions).take ph.numParts.toNat) s.device.data)
            (writeInplace m) s := by
        intro s1 hd e
        have f := writeRest_follows m (bh := bh) (usedParts s.partitions) s.syncAll s1
          (show ph.signature.length = 8 by rw [hsig.1]; rfl) hw.primaryEnd w2
        rw [hd, hq.data, usedParts_eq] at f
        rw [usedParts_eq] at e
        obtain ⟨ws, f1, f2, f3⟩ := f.writes
        refine ⟨⟨ws, f1, ?_, ?_⟩, ?_, ?_⟩
        · rw [e, f2, hd, hq.data]
        · rw [e]; exact f3
        · rw [e, f.cap, hd]; exact hq.cap
        · rw [e]; exact fun hf => f.faults (by rw [hd]; exact hq.faults hf)
      cases bh with
      | none =>
        rw [if_pos (h3.mpr rfl)] at e
        exact key _ rfl e
      | some b =>
        rw [if_neg (fun hr => by cases h3.mp hr)] at e
        simp only [h4 b rfl] at e
        exact key _ rfl e

/-- The writing part is reached when the write succeeds. -/
theorem image_rest {m : Mode} {s s' : GptDisk} {h ph : Header} {bh : Option Header} (hw : WriteHeaders m s h ph bh)
    (hok : writeInplace m s = (.ok (), s')) :
    (Spec.used s.partitions).length ≤ ph.numParts.toNat := by
  obtain ⟨h1, h2, h3, h4⟩ := headers_of hw
  have hsig := built_sig hw.primary
  have w2 : ∀ b, bh = some b → b.NoWrap s.config.lbSize ∧ b.signature.length = 8 ∧ b.numParts = ph.numParts := fun b hb => by
    obtain ⟨-, a1, a2⟩ := hw.some b hb
    exact ⟨a2, by rw [(built_sig a1).1]; rfl, (backup_count a1).1⟩
  rw [writeInplace_eq] at hok
  by_cases hwr : s.config.writable = false
  · rw [if_pos hwr] at hok; cases hok
  · rw [if_neg hwr] at hok
    rcases hx : findBackupLba s.config.lbSize s.device with ⟨r, d1⟩
    rw [hx] at hok
    cases r with
    | err x => cases hok
    | panic => cases hok
    | ok x =>
      simp only [h1, h2] at hok
      rw [← usedParts_eq]
      cases bh with
      | none =>
        rw [if_pos (h3.mpr rfl)] at hok
        exact (writeRest_ok (by rw [hsig.1]; rfl) hw.primaryEnd w2 hok).1
      | some b =>
        rw [if_neg (fun hr => by cases h3.mp hr)] at hok
        simp only [h4 b rfl] at hok
        exact (writeRest_ok (by rw [hsig.1]; rfl) hw.primaryEnd w2 hok).1

/-- **C88**: after a successful write the content is the old one with the planned writes done in order. -/
theorem c88_image (m : Mode) (s s' : GptDisk) (h ph : Header) (bh : Option Header) (hw : WriteHeaders m s h ph bh)
    (hok : writeInplace m s = (.ok (), s')) :
    (Spec.used s.partitions).length ≤ ph.numParts.toNat ∧
    ∃ ws, Writes s.config.lbSize ph bh (Spec.used s.partitions) s.device.data ws ∧ s'.device.data = overlay s.device.data ws := by
  have hle := image_rest hw hok
  have f := (image_run hw).ok hok
  rw [List.take_of_length_le hle, overlay_eq] at f
  exact ⟨hle, _, writes_of (built_sig hw.primary) (fun b hb => built_sig (hw.some b hb).2.1) _ _, f⟩

/-- **C88**: in any case the content is the old one with some of the planned writes done, from the first one on, the last of
them perhaps in part. -/
theorem c88_any (m : Mode) (s : GptDisk) (h ph : Header) (bh : Option Header) (hw : WriteHeaders m s h ph bh) :
    ∃ plan ws, Writes s.config.lbSize ph bh ((Spec.used s.partitions).take ph.numParts.toNat) s.device.data plan ∧
      Torn ws plan ∧ (writeInplace m s).2.device.data = overlay s.device.data ws := by
  obtain ⟨ws, h1, h2, -⟩ := (image_run hw).writes
  exact ⟨_, ws, writes_of (built_sig hw.primary) (fun b hb => built_sig (hw.some b hb).2.1) _ _, h1, by rw [h2, overlay_eq]⟩

/-- The array and the block of `h` lie on a device of `len` bytes. -/
structure Spec.OnDevice (lb : LbSize) (h : Header) (len : Nat) : Prop where
  array : slotOf lb h h.numParts.toNat ≤ len
  block : (h.currentLba.toNat + 1) * lb.usize ≤ len

/-- **C88**: on a device that works, when both headers and both arrays lie on the device and there are enough slots, the write
succeeds. -/
theorem c88_succeeds (m : Mode) (s : GptDisk) (h ph : Header) (bh : Option Header) (hw : WriteHeaders m s h ph bh)
    (hwr : s.config.writable = true) (hf : s.device.faults = []) (hcap : s.device.data.length ≤ s.device.cap)
    (hl3 : 3 * s.config.lbSize.usize ≤ s.device.data.length) (hlen : s.device.data.length < 2 ^ 64)
    (hlt : h.currentLba ≠ h.backupLba) (hp : OnDevice s.config.lbSize ph s.device.data.length)
    (hb : ∀ b, bh = some b → OnDevice s.config.lbSize b s.device.data.length)
    (hroom : (Spec.used s.partitions).length ≤ ph.numParts.toNat) : (writeInplace m s).1 = .ok () := by
  obtain ⟨h1, h2, h3, h4⟩ := headers_of hw
  have hsig := built_sig hw.primary
  have hpos := lb_pos s.config.lbSize
  have hlt' : ph.currentLba < ph.backupLba := by
    have hx := hw.primary
    cases hx with
    | header k _ _ _ _ _ _ a =>
      rw [a.current, a.backup]
      show (if h.currentLba < h.backupLba then h.currentLba else h.backupLba) <
        (if h.currentLba < h.backupLba then h.backupLba else h.currentLba)
      split
      · assumption
      · rename_i hn
        rw [UInt64.lt_iff_toNat_lt] at hn ⊢
        have : h.currentLba.toNat ≠ h.backupLba.toNat := fun e => hlt (UInt64.toNat_inj.mp e)
        omega
  have good : ∀ {x : Header}, x.signature = efiPart → x.arrayLen < 2 ^ 63 → OnDevice s.config.lbSize x s.device.data.length →
      Good x s.config.lbSize { s.device with pos := (UInt64.ofNat s.device.pos).toNat } := by
    intro x hx h0 ho
    have a1 := ho.array
    have a2 := ho.block
    rw [Nat.add_mul, Nat.one_mul] at a2
    rw [slotOf_eq] at a1
    refine ⟨by rw [hx]; rfl, ?_, ?_, a1, ?_, ?_, h0⟩
    · unfold Header.NoWrap Header.arrayLen; omega
    · unfold GptDisk.Room Header.arrayLen; exact a1.trans hcap
    · omega
    · exact a2.trans hcap
  rw [writeInplace_eq, if_neg (by simp [hwr]), findBackupLba_nil_any hf hlen, if_neg (by omega)]
  simp only [h1, h2]
  cases bh with
  | none =>
    rw [if_pos (h3.mpr rfl)]
    exact writeRest_nil (by exact hf) (good hsig.1 hw.size hp) hlt' (fun b hb => by cases hb) (by rw [usedParts_eq]; exact hroom)
  | some b =>
    rw [if_neg (fun hr => by cases h3.mp hr)]
    simp only [h4 b rfl]
    refine writeRest_nil (by exact hf) (good hsig.1 hw.size hp) hlt' ?_ (by rw [usedParts_eq]; exact hroom)
    rintro _ ⟨⟩
    obtain ⟨-, a1, -⟩ := hw.some b rfl
    refine ⟨good (built_sig a1).1 (by unfold Header.arrayLen; rw [(backup_count a1).1, (backup_count a1).2]; exact hw.size) (hb b rfl), ?_, (backup_count a1).1⟩
    cases a1 with
    | header k _ _ _ _ _ _ a =>
      rw [a.current, a.backup]
      exact hlt'

/-- A header that says the backup array starts in the middle of the usable blocks, which no disk of `SaneDisk` has. -/
def oddHeader : Header := { smallHeader with lastUsable := 20 }

def oddDisk (z : Bytes) : GptDisk := { smallDisk [(1, smallPart)] with device := ⟨z, 0, 51200, [], []⟩, primaryHeader := .ok oddHeader }

theorem just1 : JustEnough .lb512 (4 * 128 % 2 ^ 32) 1 :=
  ⟨by decide, fun j hj => by
    have e : LbSize.lb512.usize = 512 := rfl
    rw [e] at hj; omega⟩

theorem oddHeaders (m : Mode) (z : Bytes) :
    WriteHeaders m (oddDisk z) oddHeader oddHeader (some { oddHeader with currentLba := 9, backupLba := 1, partStart := 21 }) where
  header := rfl
  primary := .header 1 _ (by decide) (fun _ => by decide) just1 (by unfold HasRoom; decide) (fun _ => by decide)
    ⟨by decide +kernel, rfl, rfl, ⟨rfl, rfl, rfl⟩, rfl, rfl, by decide, by decide, rfl, by decide, rfl, rfl⟩
  primaryEnd := by show slotOf .lb512 _ _ < _; decide
  size := by decide
  none := fun h => by cases h
  some := by
    rintro _ ⟨⟩
    exact ⟨rfl, .header 1 _ (by decide) (fun _ => by decide) just1 (by unfold HasRoom; decide) (fun _ => by decide)
      ⟨by decide +kernel, rfl, rfl, ⟨rfl, rfl, rfl⟩, rfl, rfl, by decide, by decide, rfl, by decide, rfl, rfl⟩,
      by show slotOf .lb512 _ _ < _; decide⟩

-- the write succeeds and the backup array goes to block 21, behind the backup header in block 9
theorem oddDisk_writes (m : Mode) (z : Bytes) (hz : z.length = 51200) : (writeInplace m (oddDisk z)).1 = .ok () := by
  have hl : (oddDisk z).device.data.length = 51200 := hz
  refine c88_succeeds m _ _ _ _ (oddHeaders m z) rfl rfl (by rw [hl]; exact Nat.le_refl _) (by rw [hl]; exact (by decide : 3 * 512 ≤ 51200))
    (by rw [hl]; decide) (by decide) ?_ ?_ (show ([smallPart].filter _).length ≤ 4 by decide)
  · rw [hl]; exact ⟨(by decide : slotOf .lb512 oddHeader 4 ≤ 51200), (by decide : 2 * 512 ≤ 51200)⟩
  · rintro _ ⟨⟩
    rw [hl]; exact ⟨(by decide : slotOf .lb512 { oddHeader with partStart := 21 } 4 ≤ 51200), (by decide : 10 * 512 ≤ 51200)⟩

example (m : Mode) (z : Bytes) (hz : z.length = 51200) (i : Nat) (hi : i < 128) :
    byteAt (writeInplace m (oddDisk z)).2.device.data (10752 + i) = byteAt (smallPart.asBytes 128) i := by
  have hw1 := oddDisk_writes m z hz
  rcases hx : writeInplace m (oddDisk z) with ⟨r, s'⟩
  rw [hx] at hw1
  simp only at hw1
  subst hw1
  obtain ⟨-, ws, ⟨bw, pw, rfl, -, hb, hp⟩, e⟩ := c88_image m _ s' _ _ _ (oddHeaders m z) hx
  obtain ⟨w, rfl, hb'⟩ := hb _ rfl
  have l1 : pw.2.length = 512 := hp.block.length
  have l2 : w.2.length = 512 := hb'.block.length
  have o1 : pw.1 = 512 := hp.offset
  have o2 : w.1 = 4608 := hb'.offset
  have l3 : (smallPart.asBytes 128).length = 128 := smallPart.asBytes_length 128
  rw [e, ← overlay_eq]
  show byteAt (applyWrites z ([(1024, smallPart.asBytes 128), (10752, smallPart.asBytes 128), (1152, zeros 384), (10880, zeros 384)] ++
    [w] ++ [pw])) _ = _
  simp only [List.cons_append, List.nil_append, applyWrites_cons, applyWrites_nil, byteAt_patchW, l1, l2, o1, o2, zeros_length]
  rw [if_neg (by omega), if_neg (by omega), if_neg (by omega), if_neg (by omega), if_pos (by omega), Nat.add_sub_cancel_left]

end Gpt
