import Verif.Props.Repair
/-!
# Trying a failed write again: C98

A `write_inplace` that fails has already rebuilt the headers in memory and may have put any part of the new content on the device
(src/lib.rs:865-976). Nothing of that stands in the way of another attempt.
-/

namespace Gpt

open Spec GptDisk

namespace Spec

/-- The disk at a moment when the coming calls on the device go as `fs` says and the stream is at `p`. -/
abbrev facing (fs : List Fault) (p : Nat) (t : GptDisk) : GptDisk := { t with device := { t.device with faults := fs, pos := p } }

/-- The disk `t` is what some attempts to write `s` left. During each the device may fail at any call, and the stream may be
anywhere when it starts; some of them may have succeeded. -/
inductive Attempts (s : GptDisk) : GptDisk → Prop where
  | start : Attempts s s
  | again {t : GptDisk} (m : Mode) (fs : List Fault) (p : Nat) (h : Attempts s t) :
      Attempts s (writeInplace m (facing fs p t)).2

/-- The same, with the table in memory changed in any way between attempts. -/
inductive Revised (s : GptDisk) : GptDisk → Prop where
  | start : Revised s s
  | again {t : GptDisk} (m : Mode) (fs : List Fault) (p : Nat) (h : Revised s t) : Revised s (writeInplace m (facing fs p t)).2
  | edit {t : GptDisk} (table : PMap) (h : Revised s t) : Revised s (t.withParts table)

end Spec

namespace GptDisk

section
variable {s t : GptDisk} {h : Header} {k B : Nat}

/-- What is true of a disk after any number of attempts. -/
structure Tried (s : GptDisk) (h : Header) (k B : Nat) (t : GptDisk) : Prop where
  config : t.config = s.config
  guid : t.guid = s.guid
  partitions : t.partitions = s.partitions
  syncAll : t.syncAll = s.syncAll
  cap : t.device.cap = s.device.cap
  length : t.device.data.length = s.device.data.length
  backup : s.config.readonlyBackup = true → t.backupHeader = s.backupHeader
  header : ∃ h', t.tryHeader = .ok h' ∧ SaneHeader s.config.lbSize k B h' ∧ rebuiltP k B h' = rebuiltP k B h
  bytes : ∀ i, byteAt t.device.data i = byteAt s.device.data i ∨
    byteAt t.device.data i = finalByte s.config.lbSize (rebuiltP k B h) (bakOf s.config k B h)
      ((Spec.used s.partitions).take h.numParts.toNat) ((B - k) * s.config.lbSize.usize) (B * s.config.lbSize.usize) s.device.data i

theorem header_iff {s : GptDisk} {h : Header} : s.header (ε := Empty) = .ok h ↔ s.tryHeader = .ok h := by
  unfold GptDisk.header
  cases s.tryHeader with
  | ok x => exact ⟨fun e => by cases e; rfl, fun e => by cases e; rfl⟩
  | error e => exact ⟨fun e => (nomatch e), fun e => (nomatch e)⟩

theorem Tried.sane (hs : SaneDisk s h k B) (w : Tried s h k B t) (fs : List Fault) (p : Nat) :
    ∃ h', SaneDisk (facing fs p t) h' k B ∧ rebuiltP k B h' = rebuiltP k B h := by
  obtain ⟨h', e1, e2, e3⟩ := w.header
  refine ⟨h', ⟨header_iff.mpr e1, ?_, ?_, ?_⟩, e3⟩
  · rw [w.config]; exact e2
  · rw [w.config]; show _ ≤ t.device.data.length; rw [w.length]; exact hs.fits
  · show t.device.data.length < _; rw [w.length]; exact hs.length

/-- Over content that is old or final at every byte, the final content is the same. -/
theorem finalByte_mixed {lb : LbSize} {ph : Header} {bh : Option Header} {ps : List Partition} {oB oH : Nat} {data data' : Bytes} {i : Nat}
    (hb : byteAt data' i = byteAt data i ∨ byteAt data' i = finalByte lb ph bh ps oB oH data i) :
    finalByte lb ph bh ps oB oH data' i = finalByte lb ph bh ps oB oH data i := by
  unfold finalByte at hb ⊢
  split
  · rfl
  · rename_i h1
    rw [if_neg h1] at hb
    split
    · rfl
    · rename_i h2
      rw [if_neg h2] at hb
      cases bh with
      | none => exact hb.elim id id
      | some b =>
        dsimp only at hb ⊢
        split
        · rfl
        · rename_i h3
          rw [if_neg h3] at hb
          split
          · rfl
          · rename_i h4
            rw [if_neg h4] at hb
            exact hb.elim id id

theorem tried_start (hs : SaneDisk s h k B) : Tried s h k B s where
  config := rfl
  guid := rfl
  partitions := rfl
  syncAll := rfl
  cap := rfl
  length := rfl
  backup _ := rfl
  header := ⟨h, header_iff.mp hs.header, hs.sane, rfl⟩
  bytes _ := .inl rfl

theorem saneHeader_sameBut {lb : LbSize} {a b : Header} (h : a.SameBut b) (hs : SaneHeader lb k B a) : SaneHeader lb k B b := by
  unfold Header.SameBut at h
  rw [h]
  exact ⟨hs.entry, hs.count, hs.arrays, hs.lbas, hs.first, hs.usable, hs.last⟩

theorem saneHeader_rebuilt {lb : LbSize} (hs : SaneHeader lb k B h) : SaneHeader lb k B (rebuiltP k B h) := by
  obtain ⟨hB, hkB⟩ := sane_bounds hs
  have hf := hs.first
  have hu := hs.usable
  have hl := hs.last
  have e : (rebuiltP k B h).lastUsable.toNat = B - k - 1 := ofNat64 (by omega)
  refine ⟨rfl, hs.count, hs.arrays, .inl ⟨rfl, ofNat64 hB⟩, hf, ?_, ?_⟩
  · rw [e]
    show h.firstUsable.toNat ≤ _
    omega
  · rw [e]; omega

theorem rebuiltP_idem {ph : Header} (e : (rebuiltP k B h).SameBut ph) : rebuiltP k B ph = rebuiltP k B h := by
  unfold Header.SameBut at e
  rw [e]
  rfl

theorem tried_again (hs : SaneDisk s h k B) (w : Tried s h k B t) (m : Mode) (fs : List Fault) (p : Nat) :
    Tried s h k B (writeInplace m (facing fs p t)).2 := by
  obtain ⟨h', hs', hr⟩ := w.sane hs fs p
  have hn : h'.numParts = h.numParts := congrArg (f := Header.numParts) (a₁ := rebuiltP k B h') (a₂ := rebuiltP k B h) hr
  have hBk : rebuiltB k B h' = rebuiltB k B h := by unfold rebuiltB; rw [hr]
  have hbak : bakOf s.config k B h' = bakOf s.config k B h := by unfold bakOf; rw [hBk]
  have mem := writeInplace_mem m (facing fs p t)
  have len := write_length m hs'
  have cap := (write_follows m hs').cap
  have byt := write_bytes m hs'
  generalize writeInplace m (facing fs p t) = x at mem len cap byt
  refine ⟨mem.config.trans w.config, mem.guid.trans w.guid, mem.partitions.trans w.partitions, mem.syncAll.trans w.syncAll,
    cap.trans w.cap, len.trans w.length, fun hro => ?_, ?_, fun i => ?_⟩
  · rcases mem.headers with ⟨-, e⟩ | ⟨_, _, _, -, -, -, -, e | ⟨hc, -⟩⟩
    · exact e.trans (w.backup hro)
    · exact e.trans (w.backup hro)
    · have hc : t.config.readonlyBackup = false := hc
      rw [w.config, hro] at hc; cases hc
  · rcases mem.headers with ⟨e1, e2⟩ | ⟨h2, ph, ph', e1, e2, e3, e4, -⟩
    · obtain ⟨h2, q1, q2, q3⟩ := w.header
      refine ⟨h2, ?_, q2, q3⟩
      unfold tryHeader at q1 ⊢
      rw [e1, e2]
      exact q1
    · rw [header_iff.mp hs'.header] at e1
      cases e1
      rw [primaryOf_sane m hs'.sane] at e2
      cases e2
      have sane' : SaneHeader s.config.lbSize k B h' := by
        have := hs'.sane
        rwa [show (facing fs p t).config = s.config from w.config] at this
      refine ⟨ph', ?_, saneHeader_sameBut e3 (saneHeader_rebuilt sane'), (rebuiltP_idem e3).trans hr⟩
      unfold tryHeader
      rw [e4]
  · have hb := byt i
    have e : finalByte t.config.lbSize (rebuiltP k B h') (bakOf t.config k B h') ((Spec.used t.partitions).take h'.numParts.toNat)
        ((B - k) * t.config.lbSize.usize) (B * t.config.lbSize.usize) t.device.data i =
        finalByte s.config.lbSize (rebuiltP k B h) (bakOf s.config k B h) ((Spec.used s.partitions).take h.numParts.toNat)
        ((B - k) * s.config.lbSize.usize) (B * s.config.lbSize.usize) s.device.data i := by
      rw [w.config, w.partitions, hr, hbak, hn]
      exact finalByte_mixed (w.bytes i)
    rcases hb with hb | hb
    · have hb : byteAt x.2.device.data i = byteAt t.device.data i := hb
      rw [hb]; exact w.bytes i
    · right; exact hb.trans e

theorem tried (hs : SaneDisk s h k B) (ha : Attempts s t) : Tried s h k B t := by
  induction ha with
  | start => exact tried_start hs
  | again m fs p _ ih => exact tried_again hs ih m fs p

/-- What is true of a disk after any number of attempts and changes of the table. -/
structure TriedAny (s : GptDisk) (h : Header) (k B : Nat) (t : GptDisk) : Prop where
  config : t.config = s.config
  guid : t.guid = s.guid
  syncAll : t.syncAll = s.syncAll
  cap : t.device.cap = s.device.cap
  length : t.device.data.length = s.device.data.length
  backup : s.config.readonlyBackup = true → t.backupHeader = s.backupHeader
  header : ∃ h', t.tryHeader = .ok h' ∧ SaneHeader s.config.lbSize k B h' ∧ rebuiltP k B h' = rebuiltP k B h
  bytes : ∀ i, ¬ InPrimary s.config.lbSize h.numParts.toNat i →
    (s.config.readonlyBackup = false → ¬ InBackup s.config.lbSize h.numParts.toNat k B i) →
    byteAt t.device.data i = byteAt s.device.data i

theorem TriedAny.sane (hs : SaneDisk s h k B) (w : TriedAny s h k B t) (fs : List Fault) (p : Nat) :
    ∃ h', SaneDisk (facing fs p t) h' k B ∧ rebuiltP k B h' = rebuiltP k B h := by
  obtain ⟨h', e1, e2, e3⟩ := w.header
  refine ⟨h', ⟨header_iff.mpr e1, ?_, ?_, ?_⟩, e3⟩
  · rw [w.config]; exact e2
  · rw [w.config]; show _ ≤ t.device.data.length; rw [w.length]; exact hs.fits
  · show t.device.data.length < _; rw [w.length]; exact hs.length

theorem triedAny (hs : SaneDisk s h k B) (ha : Revised s t) : TriedAny s h k B t := by
  induction ha with
  | start =>
    have w := tried_start hs
    exact ⟨rfl, rfl, rfl, rfl, rfl, fun _ => rfl, w.header, fun _ _ _ => rfl⟩
  | edit table _ w => exact ⟨w.config, w.guid, w.syncAll, w.cap, w.length, w.backup, w.header, w.bytes⟩
  | @again t m fs p _ w =>
    obtain ⟨h', hs', hr⟩ := w.sane hs fs p
    have hn : h'.numParts = h.numParts := congrArg (f := Header.numParts) (a₁ := rebuiltP k B h') (a₂ := rebuiltP k B h) hr
    have w' := tried_again hs' (tried_start hs') m fs p
    have c : (facing fs p t).config = s.config := w.config
    refine ⟨w'.config.trans c, w'.guid.trans w.guid, w'.syncAll.trans w.syncAll, w'.cap.trans w.cap, w'.length.trans w.length,
      fun hro => (w'.backup (by rw [c]; exact hro)).trans (w.backup hro), ?_, fun i h1 h2 => ?_⟩
    · obtain ⟨h2, q1, q2, q3⟩ := w'.header
      rw [c] at q2
      exact ⟨h2, q1, q2, q3.trans hr⟩
    · refine Eq.trans ?_ (w.bytes i h1 h2)
      rw [← c, ← hn] at h1 h2
      rcases w'.bytes i with e | e
      · exact e
      · exact e.trans (finalByte_outside h1 h2)

/-- Two contents that agree outside the regions that are written have the same final content. -/
theorem finalByte_agree {cfg : GptConfig} {lb : LbSize} {ps : List Partition} {data data' : Bytes} {i : Nat}
    (hb : ¬ InPrimary lb h.numParts.toNat i → (cfg.readonlyBackup = false → ¬ InBackup lb h.numParts.toNat k B i) →
      byteAt data' i = byteAt data i) :
    finalByte lb (rebuiltP k B h) (bakOf cfg k B h) ps ((B - k) * lb.usize) (B * lb.usize) data' i =
    finalByte lb (rebuiltP k B h) (bakOf cfg k B h) ps ((B - k) * lb.usize) (B * lb.usize) data i := by
  by_cases h1 : InPrimary lb h.numParts.toNat i
  · exact finalByte_primary (ph := rebuiltP k B h) h1
  · by_cases hro : cfg.readonlyBackup = false
    · have e : bakOf cfg k B h = some (rebuiltB k B h) := by unfold bakOf; rw [hro]; rfl
      by_cases h2 : InBackup lb h.numParts.toNat k B i
      · rw [e]; exact finalByte_backup (ph := rebuiltP k B h) h2
      · rw [finalByte_outside h1 fun _ => h2, finalByte_outside h1 fun _ => h2]
        exact hb h1 fun _ => h2
    · rw [finalByte_outside h1 fun h => absurd h hro, finalByte_outside h1 fun h => absurd h hro]
      exact hb h1 fun h => absurd h hro

end

end GptDisk

/-! ## C98 -/

/-- **C98**, the content. However many attempts went wrong, and however, the attempt that succeeds leaves the same bytes and the
same state in memory as if the first one had succeeded. -/
theorem c98_same (m m' : Mode) (s s1 t t1 : GptDisk) (h : Header) (k B : Nat) (fs : List Fault) (p : Nat) (hs : SaneDisk s h k B)
    (hok : writeInplace m s = (.ok (), s1)) (ha : Attempts s t)
    (hok' : writeInplace m' (facing fs p t) = (.ok (), t1)) :
    t1.device.data = s1.device.data ∧ t1.primaryHeader = s1.primaryHeader ∧ t1.backupHeader = s1.backupHeader ∧
      t1.partitions = s1.partitions ∧ t1.guid = s1.guid ∧ t1.config = s1.config ∧ t1.syncAll = s1.syncAll := by
  have w := tried hs ha
  obtain ⟨h', hs', hr⟩ := w.sane hs fs p
  have hn : h'.numParts = h.numParts := congrArg (f := Header.numParts) (a₁ := rebuiltP k B h') (a₂ := rebuiltP k B h) hr
  have hBk : rebuiltB k B h' = rebuiltB k B h := by unfold rebuiltB; rw [hr]
  have hbak : bakOf s.config k B h' = bakOf s.config k B h := by unfold bakOf; rw [hBk]
  have w1 := write_ok hs hok
  have w2 := write_ok hs' hok'
  have c := w.config
  have q := w.partitions
  refine ⟨bytes_ext (w2.length.trans (w.length.trans w1.length.symm)) fun i _ => ?_, ?_, ?_, ?_, ?_, ?_, ?_⟩
  · rw [w2.bytes i, w1.bytes i]
    show finalByte t.config.lbSize _ (bakOf t.config k B h') (Spec.used t.partitions) ((B - k) * t.config.lbSize.usize)
      (B * t.config.lbSize.usize) t.device.data i = _
    rw [c, q, hr, hbak]
    have hb := w.bytes i
    rw [List.take_of_length_le w1.room] at hb
    exact finalByte_mixed hb
  · rw [w2.primary, w1.primary, hr, hn]
    show Except.ok ((rebuiltP k B h).sealed (Gpt.crc32 (tableBytes (Spec.used t.partitions) _))) = _
    rw [q]
  · rw [w2.backup, w1.backup]
    show (if t.config.readonlyBackup = true then t.backupHeader else _) = _
    rw [c]
    split
    · rename_i hro; exact w.backup hro
    · rw [hBk, hn]
      show Except.ok ((rebuiltB k B h).sealed (Gpt.crc32 (tableBytes (Spec.used t.partitions) _))) = _
      rw [q]
  · exact w2.rest.partitions.trans (q.trans w1.rest.partitions.symm)
  · exact w2.rest.guid.trans (w.guid.trans w1.rest.guid.symm)
  · exact w2.rest.config.trans (c.trans w1.rest.config.symm)
  · exact w2.rest.syncAll.trans (w.syncAll.trans w1.rest.syncAll.symm)

/-- **C98**, the outcome. On a device that works again the next attempt succeeds. -/
theorem c98_succeeds (m : Mode) (s t : GptDisk) (h : Header) (k B : Nat) (p : Nat) (hs : SaneDisk s h k B) (ha : Attempts s t)
    (hw : s.config.writable = true) (hroom : (Spec.used s.partitions).length ≤ h.numParts.toNat)
    (hcap : (B + 1) * s.config.lbSize.usize ≤ s.device.cap) :
    (writeInplace m (facing [] p t)).1 = .ok () := by
  have w := tried hs ha
  obtain ⟨h', hs', hr⟩ := w.sane hs [] p
  have hn : h'.numParts = h.numParts := congrArg (f := Header.numParts) (a₁ := rebuiltP k B h') (a₂ := rebuiltP k B h) hr
  refine c62_write_succeeds m _ h' k B hs' ?_ ?_ rfl ?_
  · show t.config.writable = true
    rw [w.config]; exact hw
  · show (Spec.used t.partitions).length ≤ _
    rw [w.partitions, hn]; exact hroom
  · show (B + 1) * t.config.lbSize.usize ≤ t.device.cap
    rw [w.config, w.cap]; exact hcap

/-- **C98**, meanwhile. Between attempts the table and the settings in memory are those of the start, the disk still describes the
same layout, and every byte of the device is the old one or the one that will be there in the end. -/
theorem c98_meanwhile (m : Mode) (s s1 t : GptDisk) (h : Header) (k B : Nat) (hs : SaneDisk s h k B)
    (hok : writeInplace m s = (.ok (), s1)) (ha : Attempts s t) :
    t.partitions = s.partitions ∧ t.config = s.config ∧ t.guid = s.guid ∧
      (∃ h', t.tryHeader = .ok h' ∧ h'.diskGuid = h.diskGuid ∧ h'.numParts = h.numParts ∧ h'.firstUsable = h.firstUsable) ∧
      t.device.data.length = s.device.data.length ∧
      ∀ i, byteAt t.device.data i = byteAt s.device.data i ∨ byteAt t.device.data i = byteAt s1.device.data i := by
  have w := tried hs ha
  have w1 := write_ok hs hok
  obtain ⟨h', e1, -, e3⟩ := w.header
  refine ⟨w.partitions, w.config, w.guid, ⟨h', e1, congrArg (f := Header.diskGuid) (a₁ := rebuiltP k B h') (a₂ := rebuiltP k B h) e3,
    congrArg (f := Header.numParts) (a₁ := rebuiltP k B h') (a₂ := rebuiltP k B h) e3,
    congrArg (f := Header.firstUsable) (a₁ := rebuiltP k B h') (a₂ := rebuiltP k B h) e3⟩, w.length, fun i => ?_⟩
  have hb := w.bytes i
  rw [List.take_of_length_le w1.room] at hb
  rw [w1.bytes i]
  exact hb

/-- **C98** with changes. The table may also be changed between attempts, and earlier attempts may have put entries of earlier
tables on the device: the attempt that succeeds leaves the same bytes and the same state in memory as if nothing but the changes had
come before it. -/
theorem c98_revised (m m' : Mode) (s s1 t t1 : GptDisk) (h : Header) (k B : Nat) (fs : List Fault) (p : Nat) (hs : SaneDisk s h k B)
    (ha : Revised s t) (hok : writeInplace m (s.withParts t.partitions) = (.ok (), s1))
    (hok' : writeInplace m' (facing fs p t) = (.ok (), t1)) :
    t1.device.data = s1.device.data ∧ t1.primaryHeader = s1.primaryHeader ∧ t1.backupHeader = s1.backupHeader ∧
      t1.partitions = s1.partitions ∧ t1.guid = s1.guid ∧ t1.config = s1.config ∧ t1.syncAll = s1.syncAll := by
  have w := triedAny hs ha
  obtain ⟨h', hs', hr⟩ := w.sane hs fs p
  have hn : h'.numParts = h.numParts := congrArg (f := Header.numParts) (a₁ := rebuiltP k B h') (a₂ := rebuiltP k B h) hr
  have hBk : rebuiltB k B h' = rebuiltB k B h := by unfold rebuiltB; rw [hr]
  have hbak : bakOf s.config k B h' = bakOf s.config k B h := by unfold bakOf; rw [hBk]
  have w1 := write_ok (s := s.withParts t.partitions) (h := h) ⟨hs.header, hs.sane, hs.fits, hs.length⟩ hok
  have w2 := write_ok hs' hok'
  have c := w.config
  refine ⟨bytes_ext (w2.length.trans (w.length.trans w1.length.symm)) fun i _ => ?_, ?_, ?_, ?_, ?_, ?_, ?_⟩
  · rw [w2.bytes i, w1.bytes i]
    show finalByte t.config.lbSize _ (bakOf t.config k B h') (Spec.used t.partitions) ((B - k) * t.config.lbSize.usize)
      (B * t.config.lbSize.usize) t.device.data i = _
    rw [c, hr, hbak]
    exact finalByte_agree (w.bytes i)
  · rw [w2.primary, w1.primary, hr, hn]
    rfl
  · rw [w2.backup, w1.backup]
    show (if t.config.readonlyBackup = true then t.backupHeader else _) = _
    rw [c]
    show _ = (if s.config.readonlyBackup = true then s.backupHeader else _)
    split
    · rename_i hro; exact w.backup hro
    · rw [hBk, hn]
      rfl
  · exact w2.rest.partitions.trans w1.rest.partitions.symm
  · exact w2.rest.guid.trans (w.guid.trans w1.rest.guid.symm)
  · exact w2.rest.config.trans (c.trans w1.rest.config.symm)
  · exact w2.rest.syncAll.trans (w.syncAll.trans w1.rest.syncAll.symm)

/-- **C98** with changes, the outcome. -/
theorem c98_revised_succeeds (m : Mode) (s t : GptDisk) (h : Header) (k B : Nat) (p : Nat) (hs : SaneDisk s h k B) (ha : Revised s t)
    (hw : s.config.writable = true) (hroom : (Spec.used t.partitions).length ≤ h.numParts.toNat)
    (hcap : (B + 1) * s.config.lbSize.usize ≤ s.device.cap) : (writeInplace m (facing [] p t)).1 = .ok () := by
  have w := triedAny hs ha
  obtain ⟨h', hs', hr⟩ := w.sane hs [] p
  have hn : h'.numParts = h.numParts := congrArg (f := Header.numParts) (a₁ := rebuiltP k B h') (a₂ := rebuiltP k B h) hr
  refine c62_write_succeeds m _ h' k B hs' ?_ ?_ rfl ?_
  · show t.config.writable = true
    rw [w.config]; exact hw
  · rw [hn]; exact hroom
  · show (B + 1) * t.config.lbSize.usize ≤ t.device.cap
    rw [w.config, w.cap]; exact hcap

/-- The small disk: a failed attempt with one partition, then one with two others. -/
example (m : Mode) (fs : List Fault) (a : GptDisk) (ha : a = (writeInplace m (facing fs 7 (smallDisk [(1, smallPart)]))).2) :
    ∃ s1 t1, writeInplace m (smallDisk [(2, smallPart), (3, smallPart)]) = (.ok (), s1) ∧
      writeInplace m (facing [] 0 (a.withParts [(2, smallPart), (3, smallPart)])) = (.ok (), t1) ∧
      t1.device.data = s1.device.data := by
  obtain ⟨s1, hw, -, -⟩ := smallDisk_written m [(2, smallPart), (3, smallPart)] (by decide)
  have hab : Revised (smallDisk [(1, smallPart)]) (a.withParts [(2, smallPart), (3, smallPart)]) := by
    subst ha
    exact .edit _ (.again m fs 7 .start)
  have ho := c98_revised_succeeds m _ _ smallHeader 1 9 0 (smallDisk_sane _) hab rfl
    (by show (Spec.used [(2, smallPart), (3, smallPart)]).length ≤ _; decide) (by show 10 * 512 ≤ 5120; decide)
  rcases hx : writeInplace m (facing [] 0 (a.withParts [(2, smallPart), (3, smallPart)])) with ⟨r, t1⟩
  rw [hx] at ho
  simp only at ho
  subst ho
  exact ⟨s1, t1, hw, rfl, (c98_revised m m _ s1 _ t1 smallHeader 1 9 [] 0 (smallDisk_sane _) hab hw hx).1⟩

/-- The small disk: two attempts during which the device fails as it likes, then one on the repaired device. -/
example (m : Mode) (fs gs : List Fault) (a b : GptDisk) (ha : a = (writeInplace m (facing fs 7 (smallDisk [(1, smallPart)]))).2)
    (hb : b = (writeInplace m (facing gs 3000 a)).2) :
    ∃ s1 t1, writeInplace m (smallDisk [(1, smallPart)]) = (.ok (), s1) ∧ writeInplace m (facing [] 0 b) = (.ok (), t1) ∧
      t1.device.data = s1.device.data := by
  obtain ⟨s1, hw, -, -⟩ := smallDisk_written m [(1, smallPart)] (by decide)
  have hab : Attempts (smallDisk [(1, smallPart)]) b := by
    subst hb ha
    exact .again m gs 3000 (.again m fs 7 .start)
  have ho := c98_succeeds m _ b smallHeader 1 9 0 (smallDisk_sane _) hab rfl (by decide) (by show 10 * 512 ≤ 5120; decide)
  rcases hx : writeInplace m (facing [] 0 b) with ⟨r, t1⟩
  rw [hx] at ho
  simp only at ho
  subst ho
  exact ⟨s1, t1, hw, rfl, (c98_same m m _ s1 b t1 smallHeader 1 9 [] 0 (smallDisk_sane _) hw hab hx).1⟩

end Gpt
