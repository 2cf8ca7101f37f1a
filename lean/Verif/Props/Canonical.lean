import Verif.Props.Resume
/-!
# What is on the device is decided by table and GUID: C145
-/

namespace Gpt

open Spec GptDisk

/-- Two entries are shown alike when they are read back. -/
structure Spec.ShownAlike (p q : Partition) : Prop where
  type : p.partType.guid = q.partType.guid
  guid : p.partGuid = q.partGuid
  first : p.firstLba = q.firstLba
  last : p.lastLba = q.lastLba
  flags : p.flags = q.flags
  name : storedName 36 p.name.toList = storedName 36 q.name.toList

section
variable {m m' : Mode} {cfg cfg' : GptConfig} {k : Nat} {d d' : Dev} {s s' t t' : GptDisk} {h h' : Header}

theorem rebuiltP_session {B : Nat} (v : Sound cfg k B d h s) (v' : Sound cfg' k B d' h' s') (hg : h.diskGuid = h'.diskGuid) :
    rebuiltP k B h = rebuiltP k B h' := by
  have e1 : h.firstUsable = h'.firstUsable := UInt64.toNat_inj.mp (v.first.trans v'.first.symm)
  have e2 : h.numParts = h'.numParts := v.count.trans v'.count.symm
  unfold rebuiltP
  rw [e1, e2, hg]

theorem session_written {B : Nat} (v : Sound cfg k B d h s) (v' : Sound cfg' k B d' h' s')
    (hlb : cfg.lbSize = cfg'.lbSize) (hg : h.diskGuid = h'.diskGuid) (hu : Spec.used s.partitions = Spec.used s'.partitions)
    (w : Written s h k B t) (w' : Written s' h' k B t') :
    (∀ i, InPrimary cfg.lbSize 128 i → byteAt t.device.data i = byteAt t'.device.data i) ∧
      (cfg.readonlyBackup = false → cfg'.readonlyBackup = false → ∀ i, InBackup cfg.lbSize 128 k B i →
        byteAt t.device.data i = byteAt t'.device.data i) := by
  have hP := rebuiltP_session v v' hg
  have hn : (rebuiltP k B h).numParts.toNat = 128 := by
    show h.numParts.toNat = 128
    rw [v.count]
    rfl
  have hl : s'.config.lbSize = s.config.lbSize := by rw [v.config, v'.config, hlb]
  have hc : s.config.lbSize = cfg.lbSize := by rw [v.config]
  constructor
  · intro i hi
    rw [w.bytes, w'.bytes, ← hP, ← hu, hl, hc]
    unfold finalByte
    rw [hn]
    unfold InPrimary at hi
    split
    · rfl
    · rw [if_pos (by unfold InP; omega), if_pos (by unfold InP; omega)]
  · intro hr hr' i hi
    have hb : bakOf s.config k B h = bakOf s'.config k B h' := by
      unfold bakOf rebuiltB
      rw [v.config, v'.config, hr, hr', hP]
    have hb' : bakOf s'.config k B h' = some (rebuiltB k B h') := by
      unfold bakOf
      rw [v'.config, hr']
      rfl
    rw [w.bytes, w'.bytes, ← hP, ← hu, hb, hb', hl, hc]
    unfold finalByte
    rw [hn]
    simp only
    split
    · rfl
    · split
      · rfl
      · split
        · rfl
        · rw [if_pos, if_pos]
          all_goals
            unfold InBackup at hi
            rw [Nat.add_mul, Nat.one_mul] at hi
            omega

/-- **C145**, the parts of the device that belong to the disk: two sessions on devices of one length, in any build mode and after any calls. If
the used partitions and the disk GUIDs in the headers are the same, a write leaves the same bytes there. -/
theorem c145_bytes (hs : InSession m cfg k d s) (hs' : InSession m' cfg' k d' s') (hlb : cfg.lbSize = cfg'.lbSize)
    (hlen : d.data.length = d'.data.length) (hh : s.primaryHeader = .ok h) (hh' : s'.primaryHeader = .ok h') (hg : h.diskGuid = h'.diskGuid)
    (hu : Spec.used s.partitions = Spec.used s'.partitions) (w : writeInplace m s = (.ok (), t)) (w' : writeInplace m' s' = (.ok (), t')) :
    (∀ i, InPrimary cfg.lbSize 128 i → byteAt t.device.data i = byteAt t'.device.data i) ∧
      (cfg.readonlyBackup = false → cfg'.readonlyBackup = false → ∀ i, InBackup cfg.lbSize 128 k (d.data.length / cfg.lbSize.usize - 1) i →
        byteAt t.device.data i = byteAt t'.device.data i) := by
  obtain ⟨B, g, hB, v, p⟩ := hs.asBuilt
  obtain ⟨B', g', hB', v', p'⟩ := hs'.asBuilt
  obtain rfl := Except.ok.inj (hh.symm.trans p.primary)
  obtain rfl := Except.ok.inj (hh'.symm.trans p'.primary)
  obtain rfl : B = B' := by
    rw [← hlb, ← hlen, hB] at hB'
    omega
  have := session_written v v' hlb hg hu (write_ok v.sane w) (write_ok v'.sane w')
  rw [hB]
  exact this

/-- **C145**, the whole device: sessions that began on the same content, and write the backup. -/
theorem c145_device (hs : InSession m cfg k d s) (hs' : InSession m' cfg' k d' s') (hlb : cfg.lbSize = cfg'.lbSize)
    (hd : d.data = d'.data) (hr : cfg.readonlyBackup = false) (hr' : cfg'.readonlyBackup = false)
    (hh : s.primaryHeader = .ok h) (hh' : s'.primaryHeader = .ok h') (hg : h.diskGuid = h'.diskGuid)
    (hu : Spec.used s.partitions = Spec.used s'.partitions) (w : writeInplace m s = (.ok (), t)) (w' : writeInplace m' s' = (.ok (), t')) :
    t.device.data = t'.device.data := by
  obtain ⟨b1, b2⟩ := c145_bytes hs hs' hlb (congrArg List.length hd) hh hh' hg hu w w'
  obtain ⟨B, g, hB, v, p⟩ := hs.asBuilt
  obtain ⟨B', g', hB', v', p'⟩ := hs'.asBuilt
  obtain rfl : B = B' := by
    rw [← hlb, ← hd, hB] at hB'
    omega
  have wr := write_ok v.sane w
  have wr' := write_ok v'.sane w'
  obtain ⟨q, u⟩ := v.step (m := m) hs.writable hs.count hB .writeInplace trivial
  obtain ⟨q', u'⟩ := v'.step (m := m') hs'.writable hs'.count hB' .writeInplace trivial
  have e1 : (Op.writeInplace.step m s).2 = t := by
    show (writeInplace m s).2 = t
    rw [w]
  have e2 : (Op.writeInplace.step m' s').2 = t' := by
    show (writeInplace m' s').2 = t'
    rw [w']
  rw [e1] at u
  rw [e2] at u'
  rw [hB] at b2
  refine bytes_ext (by rw [u.length, u'.length, hd]) fun i _ => ?_
  by_cases h1 : InPrimary cfg.lbSize 128 i
  · exact b1 i h1
  · by_cases h2 : InBackup cfg.lbSize 128 k B i
    · exact b2 hr hr' i h2
    · rw [u.bytes i h1 h2, u'.bytes i (hlb ▸ h1) (hlb ▸ h2), hd]

theorem numberFrom_alike {i : Nat} {ps qs : List Partition} (e : numberFrom i ps = numberFrom i qs) : List.Forall₂ ShownAlike ps qs := by
  induction ps generalizing i qs with
  | nil =>
    cases qs with
    | nil => exact .nil
    | cons q qs => cases e
  | cons p ps ih =>
    cases qs with
    | nil => cases e
    | cons q qs =>
      obtain ⟨e1, e2⟩ := List.cons.inj e
      refine .cons ?_ (ih e2)
      have e3 : storedPart p = storedPart q := (Prod.mk.inj e1).2
      have et := congrArg (fun x => x.partType.guid) e3
      have en := congrArg (fun x => x.name.toList) e3
      simp only [storedPart, PType.ofGuid_guid, String.toList_ofList] at et en
      exact ⟨et, (congrArg Partition.partGuid e3 :), (congrArg Partition.firstLba e3 :), (congrArg Partition.lastLba e3 :),
        (congrArg Partition.flags e3 :), en⟩

/-- **C145**, the other way round: if two writes leave the same bytes, the disk GUIDs in the headers are the same, and the used partitions are the
same one by one, as they are shown when they are read back. -/
theorem c145_shown (hs : InSession m cfg k d s) (hs' : InSession m' cfg' k d' s') (hlb : cfg.lbSize = cfg'.lbSize)
    (hh : s.primaryHeader = .ok h) (hh' : s'.primaryHeader = .ok h') (w : writeInplace m s = (.ok (), t)) (w' : writeInplace m' s' = (.ok (), t'))
    (hd : t.device.data = t'.device.data) :
    h.diskGuid = h'.diskGuid ∧ List.Forall₂ ShownAlike (Spec.used s.partitions) (Spec.used s'.partitions) := by
  obtain ⟨B, g, hB, v, p⟩ := hs.asBuilt
  obtain ⟨B', g', hB', v', p'⟩ := hs'.asBuilt
  obtain rfl := Except.ok.inj (hh.symm.trans p.primary)
  obtain rfl := Except.ok.inj (hh'.symm.trans p'.primary)
  obtain ⟨q, u⟩ := v.step (m := m) hs.writable hs.count hB .writeInplace trivial
  have e1 : (Op.writeInplace.step m s).2 = t := by
    show (writeInplace m s).2 = t
    rw [w]
  rw [e1] at u
  let c : GptConfig := { cfg with onlyValidHeaders := false }
  obtain ⟨b, x, o⟩ := open_written (m' := m) (cfg := c) (d := t.device) v.sane w rfl u.works.faults u.works.pos (by rw [v.config])
    (fun hv => nomatch hv)
  obtain ⟨b', x', o'⟩ := open_written (m' := m) (cfg := c) (d := t.device) v'.sane w' hd u.works.faults u.works.pos
    (by rw [v'.config]; exact hlb) (fun hv => nomatch hv)
  have e := o.symm.trans o'
  have e2 := Res.ok.inj (Prod.mk.inj e).1
  have eg := congrArg GptDisk.guid e2
  have ep := congrArg GptDisk.partitions e2
  exact ⟨eg, numberFrom_alike ep⟩

/-- **C67**, header: at any time the primary header is there, and its fields other than the disk GUID and the checksums are the ones a new table on
the device has. -/
theorem c67_header (hs : InSession m cfg k d s) :
    ∃ h, s.primaryHeader = .ok h ∧ h.signature = [0x45, 0x46, 0x49, 0x20, 0x50, 0x41, 0x52, 0x54] ∧ h.revision = (1, 0) ∧ h.headerSizeLe = 92 ∧ h.reserved = 0 ∧
      h.currentLba.toNat = 1 ∧ h.backupLba.toNat + 1 = d.data.length / cfg.lbSize.usize ∧ h.firstUsable.toNat = 2 + k ∧
      h.lastUsable.toNat + k + 2 = d.data.length / cfg.lbSize.usize ∧ h.partStart.toNat = 2 ∧ h.numParts = 128 ∧ h.partSize = 128 := by
  obtain ⟨B, h, hB, v, p⟩ := hs.asBuilt
  obtain ⟨B', h2, hB', -, h51, -⟩ := hs.sound
  obtain rfl : B = B' := by omega
  have hl := v.last
  have hc := v.count
  have hf := v.first
  have hp := p.primary
  obtain ⟨x, y, e⟩ := p.like
  have eb : h.backupLba = UInt64.ofNat B := (congrArg Header.backupLba e :)
  refine ⟨h, hp, (congrArg Header.signature e :), (congrArg Header.revision e :), (congrArg Header.headerSizeLe e :),
    (congrArg Header.reserved e :), ?_, ?_, hf, by omega, ?_, hc, (congrArg Header.partSize e :)⟩
  · rw [(congrArg Header.currentLba e : h.currentLba = 1)]
    rfl
  · rw [eb, ofNat64 (by omega), hB]
  · rw [(congrArg Header.partStart e : h.partStart = 2)]
    rfl

end

/-! ## The hypotheses are met -/

/-- Two sessions on one device, in different states: the second one went on with `update_guid`, which does not reach the headers (C135). -/
example (m : Mode) : InSession m (GptConfig.new.setWritable true) 32 dev100 (sessDisk m) ∧
    InSession m (GptConfig.new.setWritable true) 32 dev100 ((Op.updateGuid (some ⟨1, 2, 3, 4⟩) Uuid.nil).step m (sessDisk m)).2 ∧
    Spec.used (sessDisk m).partitions = Spec.used ((Op.updateGuid (some ⟨1, 2, 3, 4⟩) Uuid.nil).step m (sessDisk m)).2.partitions ∧
    (sessDisk m).primaryHeader = ((Op.updateGuid (some ⟨1, 2, 3, 4⟩) Uuid.nil).step m (sessDisk m)).2.primaryHeader := by
  have hs := sessDisk_session m
  refine ⟨hs, ?_, rfl, rfl⟩
  obtain ⟨g, f, f2, s0, d0, hcr, hse⟩ := hs.session
  exact ⟨hs.works, hs.small, hs.array, hs.writable, hs.count, hs.headers, g, f, f2, s0, d0, hcr, .call _ hse trivial⟩

end Gpt
