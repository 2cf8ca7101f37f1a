import Verif.Props.Ordinary
import Verif.Props.Seen
import Verif.Props.Device
/-!
# C115: several programs on one disk

Several disk objects, each made or opened by its own program, on the same disk. A disk object holds no lock and never looks at the disk
again: the objects do not notice one another, and the table on the disk is the one written last.
-/

namespace Gpt

open Spec GptDisk

namespace Spec

/-- The disk object, with this content on its device. -/
def onto (c : Bytes) (s : GptDisk) : GptDisk := { s with device := { s.device with data := c } }

/-- Whether the call is `write_inplace`. -/
def writes : Op → Bool
  | .writeInplace => true
  | _ => false

/-- Disk objects on one disk. -/
structure World (ι : Type) where
  /-- the disk objects (the content of their devices is immaterial: they all share `content`) -/
  handle : ι → GptDisk
  /-- what the object would be if it had been alone on the disk since it was made or opened -/
  alone : ι → GptDisk
  /-- what is on the disk -/
  content : Bytes
  /-- the last to call `write_inplace`, and its object at that time -/
  last : Option (ι × GptDisk)

/-- The call `op` by program `i`. -/
def World.call {ι : Type} [DecidableEq ι] (m : ι → Mode) (w : World ι) (i : ι) (op : Op) : World ι where
  handle := Function.update w.handle i (op.step (m i) (onto w.content (w.handle i))).2
  alone := Function.update w.alone i (op.step (m i) (w.alone i)).2
  content := (op.step (m i) (onto w.content (w.handle i))).2.device.data
  last := if writes op then some (i, w.handle i) else w.last

/-- Program `i` drops what it has and uses the object `s`. -/
def World.renew {ι : Type} [DecidableEq ι] (w : World ι) (i : ι) (s : GptDisk) : World ι :=
  { w with handle := Function.update w.handle i s, alone := Function.update w.alone i s }

/-- The programs `ι` with their builds `m` and configurations `cfg`, on a disk with content `c0`, in any order: ordinary calls, and
opening the disk (again) after it was written. -/
inductive Shared {ι : Type} [DecidableEq ι] (m : ι → Mode) (cfg : ι → GptConfig) (k : Nat) (c0 : Bytes) : World ι → Prop
  | start (s : ι → GptDisk) (d : ι → Dev) : (∀ i, InSession (m i) (cfg i) k (d i) (s i)) → (∀ i, (s i).device.data = c0) →
      Shared m cfg k c0 ⟨s, s, c0, none⟩
  | call {w : World ι} (i : ι) (op : Op) : Shared m cfg k c0 w → Ordinary (w.handle i) op → Shared m cfg k c0 (w.call m i op)
  | join {w : World ι} (i : ι) {l : ι × GptDisk} {d d' : Dev} {s : GptDisk} : Shared m cfg k c0 w → w.last = some l → d.Works →
      d.data = w.content → openFromDevice (m i) (cfg i) d = (.ok s, d') → Shared m cfg k c0 (w.renew i s)

/-- The configurations: one block size; nobody insists on valid backup headers while somebody leaves the backup alone. -/
structure Agree {ι : Type} (cfg : ι → GptConfig) (lb : LbSize) : Prop where
  size : ∀ i, (cfg i).lbSize = lb
  writable : ∀ i, (cfg i).writable = true
  count : ∀ i, (cfg i).changePartitionCount = false
  headers : ∀ i j, (cfg i).onlyValidHeaders = true → (cfg j).readonlyBackup = false

end Spec

/-! ## What the calls do not look at -/

/-- Equal but for the device, which may have another content of the same length (and another position, capacity and history). -/
structure Apart (s s' : GptDisk) : Prop where
  length : s.device.data.length = s'.device.data.length
  faults : s.device.faults = s'.device.faults
  rest : { s with device := s'.device } = s'

theorem Apart.fields {s s' : GptDisk} (h : Apart s s') : s.config = s'.config ∧ s.guid = s'.guid ∧ s.primaryHeader = s'.primaryHeader ∧
    s.backupHeader = s'.backupHeader ∧ s.partitions = s'.partitions ∧ s.syncAll = s'.syncAll := by
  have e := h.rest
  cases s; cases s'
  simp only [GptDisk.mk.injEq] at e ⊢
  exact ⟨e.1, e.2.2⟩

theorem Apart.refl (s : GptDisk) : Apart s s := ⟨rfl, rfl, rfl⟩

theorem Apart.of {s s' : GptDisk} (h1 : s.device.data.length = s'.device.data.length) (h2 : s.device.faults = s'.device.faults)
    (h3 : s.config = s'.config) (h4 : s.guid = s'.guid) (h5 : s.primaryHeader = s'.primaryHeader) (h6 : s.backupHeader = s'.backupHeader)
    (h7 : s.partitions = s'.partitions) (h8 : s.syncAll = s'.syncAll) : Apart s s' := by
  refine ⟨h1, h2, ?_⟩
  cases s; cases s'
  simp only at h3 h4 h5 h6 h7 h8 ⊢
  subst h3 h4 h5 h6 h7 h8
  rfl

theorem find_apart (lb : LbSize) (d d' : Dev) (hl : d.data.length = d'.data.length) (hf : d.faults = d'.faults) :
    (findBackupLba lb d).1 = (findBackupLba lb d').1 ∧ (findBackupLba lb d).2.data.length = (findBackupLba lb d').2.data.length ∧
    (findBackupLba lb d).2.faults = (findBackupLba lb d').2.faults := by
  obtain ⟨a, p, c, f, l⟩ := d
  obtain ⟨a', p', c', f', l'⟩ := d'
  simp only at hl hf
  subst hf
  unfold findBackupLba
  simp only [M.bind_apply, M.mapErr_apply, Dev.streamPosition, Dev.seekEnd, Dev.seekStart, Dev.nextFault, Dev.tick]
  cases f.headD .none <;> simp only [Res.mapErr_ok, Res.mapErr_err]
  · cases f.tail.headD .none <;> simp only [Res.mapErr_ok, Res.mapErr_err]
    · cases f.tail.tail.headD .none <;> simp only [Res.mapErr_ok, Res.mapErr_err]
      · rw [hl]
        split
        · exact ⟨rfl, hl, rfl⟩
        · exact ⟨rfl, hl, rfl⟩
      · exact ⟨trivial, hl, trivial⟩
    · exact ⟨trivial, hl, trivial⟩
  · exact ⟨trivial, hl, trivial⟩

theorem apart_sim : SimCalls Apart := by
  refine { config := fun h => h.fields.1, syncs := fun h => h.fields.2.2.2.2.2
           tryHeader := fun h => by unfold GptDisk.tryHeader; rw [h.fields.2.2.1, h.fields.2.2.2.1]
           parts := fun h => h.fields.2.2.2.2.1, guid := fun h => h.fields.2.1
           find := ?find, setDevice := ?device, setParts := ?_, setPrimary := ?_, setBackup := ?_, setGuid := ?_, setWritable := ?_ }
  case find =>
    refine fun lb => ⟨fun s s' h => ?_⟩
    obtain ⟨e1, e2, e3⟩ := find_apart lb _ _ h.length h.faults
    have e := h.fields
    unfold onDev M.zoom
    refine ⟨?_, Apart.of e2 e3 e.1 e.2.1 e.2.2.1 e.2.2.2.1 e.2.2.2.2.1 e.2.2.2.2.2⟩
    simp only [M.mapErr_apply]
    rw [e1]
  case device =>
    intro s s' h x
    have e := h.fields
    exact Apart.of rfl rfl e.1 e.2.1 e.2.2.1 e.2.2.2.1 e.2.2.2.2.1 e.2.2.2.2.2
  all_goals
    intro s s' h x
    have e := h.fields
    refine Apart.of h.length h.faults ?_ ?_ ?_ ?_ ?_ ?_ <;> simp only [e]

/-! ## The invariant -/

/-- A device with content `c`. -/
def baseline (c : Bytes) (cap : Nat) : Dev := ⟨c, 0, cap, [], []⟩

section
variable {m : Mode} {cfg : GptConfig} {k B : Nat} {d0 : Dev} {h : Header} {s : GptDisk} {c c0 : Bytes} {cap : Nat}

theorem Sound.rebase (v : Sound cfg k B d0 h s) : Sound cfg k B (baseline s.device.data s.device.cap) h s :=
  ⟨v.config, v.sane, v.count, v.first, v.last, v.table, v.ids, v.works, rfl, rfl, fun _ _ _ => rfl⟩

/-- Another content that has not been changed outside the metadata. -/
theorem Sound.onto (v : Sound cfg k B (baseline c0 cap) h s) (hl : c.length = c0.length)
    (hb : ∀ i, ¬ InPrimary cfg.lbSize 128 i → ¬ InBackup cfg.lbSize 128 k B i → byteAt c i = byteAt c0 i) :
    Sound cfg k B (baseline c0 cap) h (onto c s) := by
  have hl' : c.length = s.device.data.length := hl.trans v.length.symm
  refine ⟨v.config, ⟨v.sane.header, v.sane.sane, ?_, ?_⟩, v.count, v.first, v.last, v.table, v.ids,
    ⟨v.works.faults, v.works.cap, ?_, v.works.pos⟩, v.cap, hl, hb⟩
  · show _ ≤ c.length
    rw [hl']; exact v.sane.fits
  · show c.length < _
    rw [hl']; exact v.sane.length
  · show c.length ≤ _
    rw [hl']; exact v.works.length

theorem Sound.write (v : Sound cfg k B d0 h s) (hw : cfg.writable = true) : ∃ s1, writeInplace m s = (.ok (), s1) := by
  have hok := write_nil (m := m) v.sane (by rw [v.config]; exact hw) v.room v.works.faults (v.sane.fits.trans v.works.length)
  rcases hx : writeInplace m s with ⟨r, s1⟩
  rw [hx] at hok
  simp only at hok
  subst hok
  exact ⟨s1, rfl⟩

/-- Opening what was written, on any device and with another configuration. -/
theorem Sound.openOther {m' : Mode} {cfg' : GptConfig} {d : Dev} (v : Sound cfg k B d0 h s) (hB : d0.data.length / cfg.lbSize.usize = B + 1)
    (hw : cfg.writable = true) (hc : cfg.changePartitionCount = false)
    (hro : cfg'.onlyValidHeaders = true → cfg.readonlyBackup = false) (hlb : cfg'.lbSize = cfg.lbSize)
    {s1 : GptDisk} (h1 : writeInplace m s = (.ok (), s1)) (hd : d.data = s1.device.data) (hwk : d.Works) :
    ∃ s2 d2 h2, openFromDevice m' cfg' d = (.ok s2, d2) ∧ Sound cfg' k B (baseline d0.data d.cap) h2 s2 ∧ s2.guid = h.diskGuid ∧
      Numbered (Spec.used s.partitions) s2.partitions ∧ s2.device.data = d.data := by
  obtain ⟨h', v1⟩ := v.step hw hc hB .writeInplace trivial (m := m)
  have e1 : ((Op.writeInplace.step m s).2 : GptDisk) = s1 := by
    show (writeInplace m s).2 = s1
    rw [h1]
  rw [e1] at v1
  have w := write_ok v.sane h1
  have hs1 := w.saneDisk v.sane
  obtain rfl := Except.ok.inj ((header_try v1.sane.header).symm.trans (header_try hs1.header))
  have hroom := v.room
  have hcount := v.sane.sane.count
  have hlb' : cfg'.lbSize = s.config.lbSize := by rw [v.config]; exact hlb
  obtain ⟨b, p, e⟩ := open_written (m' := m') (cfg := cfg') (d := d) v.sane h1 hd hwk.faults hwk.pos hlb'
    (fun hv => by
      have := c30_backup_valid m s s1 h k B v.sane h1 (by rw [v.config]; exact hro hv) (v.blocks hB)
      rwa [hlb', hd])
  have hp : p < 2 ^ 64 := by
    have := (Dev.works_frame.openFromDevice m' cfg' d hwk).1.pos
    rw [e] at this
    exact this
  have hcfg : s1.config = s.config := w.rest.config
  refine ⟨_, _, _, e, ⟨rfl, ⟨rfl, ?_, ?_, ?_⟩, v1.count, v1.first, v1.last, ?_, ?_, ⟨hwk.faults, hwk.cap, hwk.length, hp⟩,
    rfl, ?_, ?_⟩, rfl, numbered_numberFrom (by omega), rfl⟩
  · show SaneHeader cfg'.lbSize k B _
    rw [hlb', ← hcfg]; exact v1.sane.sane
  · show _ * cfg'.lbSize.usize ≤ d.data.length
    rw [hlb', ← hcfg, hd]; exact v1.sane.fits
  · show d.data.length < _
    rw [hd]; exact v1.sane.length
  · have ht := v1.table
    rw [w.rest.partitions] at ht
    exact tidy_numbered ht (by omega)
  · intro i q hm
    have h128 : h.numParts.toNat = 128 := by rw [v.count]; rfl
    obtain ⟨j, hj, e⟩ := mem_numberFrom hm
    cases e
    have : (UInt32.ofNat (0 + j + 1)).toNat = j + 1 := by rw [UInt32.toNat_ofNat', Nat.mod_eq_of_lt (by omega)]; omega
    omega
  · show d.data.length = d0.data.length
    rw [hd]; exact v1.length
  · intro i hp hb
    show byteAt d.data i = byteAt d0.data i
    rw [hlb] at hp hb
    rw [hd]; exact v1.bytes i hp hb

end

/-- One call from two objects that are the same but for the content of the device. -/
theorem apart_step {m : Mode} {cfg : GptConfig} {k B : Nat} {d0 d0' : Dev} {h h' : Header} {s s' : GptDisk} (v : Sound cfg k B d0 h s)
    (v' : Sound cfg k B d0' h' s') (hw : cfg.writable = true) (hc : cfg.changePartitionCount = false)
    (hB : d0.data.length / cfg.lbSize.usize = B + 1) (hB' : d0'.data.length / cfg.lbSize.usize = B + 1)
    (ha : Apart s s') (op : Op) (ho : Ordinary s op) (ho' : Ordinary s' op) :
    (op.step m s).1 = (op.step m s').1 ∧ Apart (op.step m s).2 (op.step m s').2 := by
  by_cases hop : op = .writeInplace
  · subst hop
    obtain ⟨t, e⟩ := v.write (m := m) hw
    obtain ⟨t', e'⟩ := v'.write (m := m) hw
    obtain ⟨g, u⟩ := v.step (m := m) hw hc hB .writeInplace trivial
    obtain ⟨g', u'⟩ := v'.step (m := m) hw hc hB' .writeInplace trivial
    have q : Op.writeInplace.step m s = (.ok .unit, t) := by
      show ((writeInplace m s).1.map _, (writeInplace m s).2) = _
      rw [e]; rfl
    have q' : Op.writeInplace.step m s' = (.ok .unit, t') := by
      show ((writeInplace m s').1.map _, (writeInplace m s').2) = _
      rw [e']; rfl
    rw [q] at u
    rw [q'] at u'
    rw [q, q']
    have w := write_ok v.sane e
    have w' := write_ok v'.sane e'
    obtain rfl := Except.ok.inj ((header_try v.sane.header).symm.trans ((apart_sim.tryHeader ha).trans (header_try v'.sane.header)))
    obtain ⟨f1, f2, f3, f4, f5, f6⟩ := ha.fields
    refine ⟨rfl, Apart.of ?_ ?_ ?_ ?_ ?_ ?_ ?_ ?_⟩
    · rw [w.length, w'.length, ha.length]
    · rw [u.works.faults, u'.works.faults]
    · rw [w.rest.config, w'.rest.config, f1]
    · rw [w.rest.guid, w'.rest.guid, f2]
    · rw [w.primary, w'.primary, f5]
    · rw [w.backup, w'.backup, f1, f4, f5]
    · rw [w.rest.partitions, w'.rest.partitions, f5]
    · rw [w.rest.syncAll, w'.rest.syncAll, f6]
  · exact (apart_sim.step m op (fun d b e => by subst e; exact ho) hop).run _ _ ha

/-- What holds at any time. -/
structure Kept {ι : Type} (m : ι → Mode) (cfg : ι → GptConfig) (k B : Nat) (c0 : Bytes) (w : World ι) : Prop where
  length : w.content.length = c0.length
  bytes : ∀ i j, ¬ InPrimary (cfg i).lbSize 128 j → ¬ InBackup (cfg i).lbSize 128 k B j → byteAt w.content j = byteAt c0 j
  handle : ∀ i, ∃ cap h, Sound (cfg i) k B (baseline c0 cap) h (onto w.content (w.handle i))
  alone : ∀ i, ∃ cap h, Sound (cfg i) k B (baseline c0 cap) h (w.alone i)
  apart : ∀ i, Apart (onto w.content (w.handle i)) (w.alone i)
  last : ∀ i t, w.last = some (i, t) → ∃ c cap h t1, Sound (cfg i) k B (baseline c0 cap) h (onto c t) ∧
    writeInplace (m i) (onto c t) = (.ok (), t1) ∧ t1.device.data = w.content
  never : w.last = none → w.content = c0

theorem writes_iff {op : Op} : writes op = true ↔ op = .writeInplace := by
  cases op <;> simp [writes]

theorem kept {ι : Type} [DecidableEq ι] [Nonempty ι] {m : ι → Mode} {cfg : ι → GptConfig} {lb : LbSize} {k : Nat} {c0 : Bytes} {w : World ι}
    (hg : Agree cfg lb) (hs : Shared m cfg k c0 w) :
    ∃ B, c0.length / lb.usize = B + 1 ∧ 2 * k + 3 ≤ B ∧ B < 2 ^ 51 ∧ JustEnough lb (128 * 128) k ∧ Kept m cfg k B c0 w := by
  induction hs with
  | start s d hi hc =>
    obtain ⟨i0⟩ := ‹Nonempty ι›
    obtain ⟨B, h0, hB, hkB, hB51, v0⟩ := (hi i0).sound
    have hl0 : c0.length / lb.usize = B + 1 := by rw [← hc i0, ← hg.size i0, v0.length]; exact hB
    refine ⟨B, hl0, hkB, hB51, hg.size i0 ▸ (hi i0).array, rfl, fun _ _ _ _ => rfl, ?_, ?_, ?_, fun _ _ e => (nomatch e), fun _ => rfl⟩
    all_goals intro i
    all_goals obtain ⟨B', h, hB', -, -, v⟩ := (hi i).sound
    all_goals
      have e : B' = B := by
        have := v.length
        rw [hc i] at this
        rw [← this, hg.size i, hl0] at hB'
        omega
    all_goals subst e
    · refine ⟨_, h, Sound.onto (cap := (s i).device.cap) ?_ rfl fun _ _ _ => rfl⟩
      have := v.rebase
      rwa [hc i] at this
    · have := v.rebase
      rw [hc i] at this
      exact ⟨_, h, this⟩
    · refine ⟨?_, rfl, rfl⟩
      show c0.length = _
      rw [hc i]
  | @call w i op _ ho ih =>
    obtain ⟨B, hB, hkB, hB51, harr, K⟩ := ih
    have hBi : ∀ (j : ι) (cap : Nat), (baseline c0 cap).data.length / (cfg j).lbSize.usize = B + 1 := fun j cap => by rw [hg.size j]; exact hB
    obtain ⟨cap, h, v⟩ := K.handle i
    obtain ⟨cap', h', v'⟩ := K.alone i
    have ho1 : Ordinary (onto w.content (w.handle i)) op := by cases op <;> exact ho
    have ho2 : Ordinary (w.alone i) op := by
      have e1 := apart_sim.tryHeader (K.apart i)
      have e2 := apart_sim.parts (K.apart i)
      cases op <;> first | exact ho1 | (unfold Ordinary at ho1 ⊢; rw [← e1]; try rw [← e2]; exact ho1)
    obtain ⟨g, u⟩ := v.step (m := m i) (hg.writable i) (hg.count i) (hBi i cap) op ho1
    obtain ⟨g', u'⟩ := v'.step (m := m i) (hg.writable i) (hg.count i) (hBi i cap') op ho2
    obtain ⟨-, ap⟩ := apart_step (m := m i) v v' (hg.writable i) (hg.count i) (hBi i cap) (hBi i cap') (K.apart i) op ho1 ho2
    have hbytes : ∀ i' j, ¬ InPrimary (cfg i').lbSize 128 j → ¬ InBackup (cfg i').lbSize 128 k B j →
        byteAt (w.call m i op).content j = byteAt c0 j := by
      intro i' j h1 h2
      rw [hg.size i', ← hg.size i] at h1 h2
      exact u.bytes j h1 h2
    refine ⟨B, hB, hkB, hB51, harr, u.length, hbytes, fun j => ?_, fun j => ?_, fun j => ?_, fun j t => ?_, fun e => ?_⟩
    · show ∃ cap h, Sound (cfg j) k B (baseline c0 cap) h (onto (w.call m i op).content (Function.update w.handle i _ j))
      by_cases hj : j = i
      · subst hj
        rw [Function.update_self]
        exact ⟨cap, g, u⟩
      · rw [Function.update_of_ne hj]
        obtain ⟨cap2, h2, v2⟩ := K.handle j
        exact ⟨cap2, h2, v2.onto (c := (w.call m i op).content) u.length fun a b c => hbytes j a b c⟩
    · show ∃ cap h, Sound (cfg j) k B (baseline c0 cap) h (Function.update w.alone i _ j)
      by_cases hj : j = i
      · subst hj
        rw [Function.update_self]
        exact ⟨cap', g', u'⟩
      · rw [Function.update_of_ne hj]
        exact K.alone j
    · show Apart (onto (w.call m i op).content (Function.update w.handle i _ j)) (Function.update w.alone i _ j)
      by_cases hj : j = i
      · subst hj
        rw [Function.update_self, Function.update_self]
        exact ap
      · rw [Function.update_of_ne hj, Function.update_of_ne hj]
        have q := K.apart j
        refine ⟨?_, q.faults, q.rest⟩
        rw [← q.length]
        show (w.call m i op).content.length = w.content.length
        rw [K.length]
        exact u.length
    · show (if writes op then some (i, w.handle i) else w.last) = some (j, t) → _
      intro e
      by_cases hop : writes op = true
      · rw [if_pos hop] at e
        cases e
        obtain rfl := writes_iff.mp hop
        obtain ⟨t1, e1⟩ := v.write (m := m i) (hg.writable i)
        refine ⟨w.content, cap, h, t1, v, e1, ?_⟩
        show t1.device.data = (writeInplace (m i) (onto w.content (w.handle i))).2.device.data
        rw [e1]
      · rw [if_neg hop] at e
        obtain ⟨c, cap, h, t1, a, b, q⟩ := K.last j t e
        refine ⟨c, cap, h, t1, a, b, q.trans ?_⟩
        have ht : Spec.attaches op = none := by cases op <;> first | rfl | exact ho.elim
        exact (step_quiet (m i) op (onto w.content (w.handle i)) (fun e => hop (writes_iff.mpr e)) ht).1.untouched.1.symm
    · change (if writes op then some (i, w.handle i) else w.last) = none at e
      by_cases hop : writes op = true
      · rw [if_pos hop] at e; cases e
      · rw [if_neg hop] at e
        have ht : Spec.attaches op = none := by cases op <;> first | rfl | exact ho.elim
        rw [← K.never e]
        exact (step_quiet (m i) op (onto w.content (w.handle i)) (fun e => hop (writes_iff.mpr e)) ht).1.untouched.1
  | @join w i l d d' s _ hl hwk hd ho ih =>
    obtain ⟨B, hB, hkB, hB51, harr, K⟩ := ih
    obtain ⟨c, cap, h, t1, v, e1, q⟩ := K.last l.1 l.2 hl
    obtain ⟨s2, d2, h2, e2, v2, -, -, hdat⟩ := v.openOther (m' := m i) (cfg' := cfg i) (d := d) (by rw [hg.size]; exact hB) (hg.writable _) (hg.count _)
      (hg.headers i l.1) (by rw [hg.size, hg.size]) e1 (hd.trans q.symm) hwk
    rw [ho] at e2
    cases e2
    refine ⟨B, hB, hkB, hB51, harr, K.length, K.bytes, fun j => ?_, fun j => ?_, fun j => ?_, K.last, K.never⟩
    · show ∃ cap h, Sound (cfg j) k B (baseline c0 cap) h (onto w.content (Function.update w.handle i s j))
      by_cases hj : j = i
      · subst hj
        rw [Function.update_self]
        exact ⟨_, h2, v2.onto K.length fun a b c => K.bytes j a b c⟩
      · rw [Function.update_of_ne hj]; exact K.handle j
    · show ∃ cap h, Sound (cfg j) k B (baseline c0 cap) h (Function.update w.alone i s j)
      by_cases hj : j = i
      · subst hj
        rw [Function.update_self]
        exact ⟨_, h2, v2⟩
      · rw [Function.update_of_ne hj]; exact K.alone j
    · show Apart (onto w.content (Function.update w.handle i s j)) (Function.update w.alone i s j)
      by_cases hj : j = i
      · subst hj
        rw [Function.update_self, Function.update_self]
        refine ⟨?_, rfl, rfl⟩
        show w.content.length = _
        rw [hdat, hd]
      · rw [Function.update_of_ne hj, Function.update_of_ne hj]; exact K.apart j

/-! ## C115 -/

section
variable {ι : Type} [DecidableEq ι] {m : ι → Mode} {cfg : ι → GptConfig} {lb : LbSize} {k : Nat} {c0 : Bytes} {w : World ι}

/-- **C115**, unaware: what the accessors of an object show is what they would show had the program been alone on the disk. -/
theorem c115_unaware (hg : Agree cfg lb) (hs : Shared m cfg k c0 w) (i : ι) : (w.handle i).observe = (w.alone i).observe := by
  have : Nonempty ι := ⟨i⟩
  obtain ⟨B, -, -, -, -, K⟩ := kept hg hs
  obtain ⟨f1, f2, f3, f4, f5, f6⟩ := (K.apart i).fields
  have f7 := apart_sim.tryHeader (K.apart i)
  change (w.handle i).config = _ at f1
  change (w.handle i).guid = _ at f2
  change (w.handle i).primaryHeader = _ at f3
  change (w.handle i).backupHeader = _ at f4
  change (w.handle i).partitions = _ at f5
  change (w.handle i).tryHeader = _ at f7
  unfold observe primaryHeader? backupHeader?
  rw [f1, f2, f3, f4, f5, f7]

/-- **C115**, calls: an ordinary call returns what it would return had the program been alone; it does not panic, and a write succeeds,
whatever others wrote in the meantime. -/
theorem c115_calls (hg : Agree cfg lb) (hs : Shared m cfg k c0 w) (i : ι) (op : Op) (ho : Ordinary (w.handle i) op) :
    (op.step (m i) (onto w.content (w.handle i))).1 = (op.step (m i) (w.alone i)).1 ∧
    (op.step (m i) (onto w.content (w.handle i))).1 ≠ .panic ∧
    (op = .writeInplace → (op.step (m i) (onto w.content (w.handle i))).1 = .ok .unit) := by
  have : Nonempty ι := ⟨i⟩
  obtain ⟨B, hB, -, hB51, -, K⟩ := kept hg hs
  have hBi : ∀ (j : ι) (cap : Nat), (baseline c0 cap).data.length / (cfg j).lbSize.usize = B + 1 := fun j cap => by rw [hg.size j]; exact hB
  obtain ⟨cap, h, v⟩ := K.handle i
  obtain ⟨cap', h', v'⟩ := K.alone i
  have ho1 : Ordinary (onto w.content (w.handle i)) op := by cases op <;> exact ho
  have ho2 : Ordinary (w.alone i) op := by
    have e1 := apart_sim.tryHeader (K.apart i)
    have e2 := apart_sim.parts (K.apart i)
    cases op <;> first | exact ho1 | (unfold Ordinary at ho1 ⊢; rw [← e1]; try rw [← e2]; exact ho1)
  refine ⟨(apart_step (m := m i) v v' (hg.writable i) (hg.count i) (hBi i cap) (hBi i cap') (K.apart i) op ho1 ho2).1, v.noPanic hB51 op ho1, ?_⟩
  rintro rfl
  obtain ⟨t1, e1⟩ := v.write (m := m i) (hg.writable i)
  show (writeInplace (m i) (onto w.content (w.handle i))).1.map _ = _
  rw [e1]; rfl

/-- **C115**, last writer: once somebody wrote, any device with what is on the disk opens, and shows exactly the used partitions of the
object written last, as it was then. -/
theorem c115_last (hg : Agree cfg lb) (hs : Shared m cfg k c0 w) {i : ι} {t : GptDisk} (hl : w.last = some (i, t)) (m' : Mode)
    (cfg' : GptConfig) (d : Dev) (hd : d.data = w.content) (hw : d.Works) (hlb : cfg'.lbSize = lb)
    (hv : cfg'.onlyValidHeaders = true → (cfg i).readonlyBackup = false) :
    ∃ s d' h, openFromDevice m' cfg' d = (.ok s, d') ∧ t.tryHeader = .ok h ∧ s.guid = h.diskGuid ∧
      Numbered (Spec.used t.partitions) s.partitions := by
  have : Nonempty ι := ⟨i⟩
  obtain ⟨B, hB, -, -, -, K⟩ := kept hg hs
  obtain ⟨c, cap, h, t1, v, e1, q⟩ := K.last i t hl
  obtain ⟨s2, d2, h2, e2, -, hgd, hn, -⟩ := v.openOther (m' := m') (cfg' := cfg') (d := d) (by rw [hg.size]; exact hB) (hg.writable _) (hg.count _)
    hv (by rw [hlb, hg.size]) e1 (hd.trans q.symm) hw
  exact ⟨s2, d2, h, e2, header_try v.sane.header, hgd, hn⟩

/-- **C115**, before the first write: the disk is as it was. -/
theorem c115_none (hg : Agree cfg lb) (hs : Shared m cfg k c0 w) (i : ι) (hl : w.last = none) : w.content = c0 := by
  have : Nonempty ι := ⟨i⟩
  obtain ⟨B, -, -, -, -, K⟩ := kept hg hs
  exact K.never hl

/-- **C115**, data: whatever the programs do, block 0, the blocks between the arrays and whatever follows the last whole block never change. -/
theorem c115_data (hg : Agree cfg lb) (hs : Shared m cfg k c0 w) (i : ι) (j : Nat)
    (hj : j < lb.usize ∨ ((2 + k) * lb.usize ≤ j ∧ j < (c0.length / lb.usize - 1 - k) * lb.usize) ∨ c0.length / lb.usize * lb.usize ≤ j) :
    byteAt w.content j = byteAt c0 j ∧ w.content.length = c0.length := by
  have : Nonempty ι := ⟨i⟩
  obtain ⟨B, hB, hkB, -, harr, K⟩ := kept hg hs
  have e := harr.enough
  have hpos := lb_pos lb
  rw [hB, Nat.add_sub_cancel] at hj
  have q1 : (2 + k) * lb.usize = 2 * lb.usize + k * lb.usize := Nat.add_mul ..
  have q2 : (B - k) * lb.usize + k * lb.usize = B * lb.usize := by rw [← Nat.add_mul]; congr 1; omega
  have q3 : (B + 1) * lb.usize = B * lb.usize + lb.usize := by rw [Nat.add_mul, Nat.one_mul]
  have q4 : 3 * lb.usize ≤ (B - k) * lb.usize := Nat.mul_le_mul_right _ (by omega)
  have q5 : (2 + k) * lb.usize ≤ (B - k) * lb.usize := Nat.mul_le_mul_right _ (by omega)
  refine ⟨K.bytes i j ?_ ?_, K.length⟩
  · rw [hg.size]; unfold InPrimary; omega
  · rw [hg.size]; unfold InBackup; omega

end

/-- A lost update: two programs start from the same empty table of 100 blocks. The first adds a partition and writes; the second, which does
not know, adds another and writes; opening the disk shows the second partition only. -/
example (m : Mode) : ∃ (w : World Bool) (t s : GptDisk) (d' : Dev),
    Shared (fun _ => m) (fun _ => GptConfig.new.setWritable true) 32 dev100.data w ∧
    (w.handle false).partitions.map (fun e => (e.1, e.2.name)) = [(1, "a")] ∧ w.last = some (true, t) ∧
    openFromDevice m GptConfig.new { dev100 with data := w.content } = (.ok s, d') ∧
    Numbered (Spec.used t.partitions) s.partitions ∧ (Spec.used t.partitions).map (·.name) = ["b"] := by
  have hwk : dev100.Works := ⟨rfl, by show 51200 < 2 ^ 64; decide, Nat.le_of_eq dev100_length, by show 0 < 2 ^ 64; decide⟩
  have hc := made_created m (GptConfig.new.setWritable true) (d := dev100) (B := 99) rfl (by show 0 < 2 ^ 64; decide) (by rw [dev100_length]; decide)
    enough512 (by rw [dev100_length]; rfl) (by decide)
  have h0 : InSession m (GptConfig.new.setWritable true) 32 dev100 (madeDisk (GptConfig.new.setWritable true) dev100 32 99 Uuid.nil) :=
    ⟨hwk, by rw [dev100_length]; decide, enough512, rfl, rfl, fun _ => rfl, _, _, _, _, _, hc, .start⟩
  obtain ⟨opA, hA⟩ : ∃ op : Op, op = .addPartition "a" 1024 (exPart 0 0).partType 0 none Uuid.nil Uuid.nil := ⟨_, rfl⟩
  obtain ⟨opB, hB⟩ : ∃ op : Op, op = .addPartition "b" 1024 (exPart 0 0).partType 0 none Uuid.nil Uuid.nil := ⟨_, rfl⟩
  have hg : Agree (fun _ : Bool => GptConfig.new.setWritable true) .lb512 := ⟨fun _ => rfl, fun _ => rfl, fun _ => rfl, fun _ _ _ => rfl⟩
  have sh0 : Shared (fun _ : Bool => m) (fun _ => GptConfig.new.setWritable true) 32 dev100.data ⟨_, _, _, none⟩ :=
    .start (fun _ => madeDisk (GptConfig.new.setWritable true) dev100 32 99 Uuid.nil) (fun _ => dev100) (fun _ => h0) (fun _ => rfl)
  have sh1 := Shared.call false opA sh0 (by rw [hA]; exact ⟨by decide, fun _ h => nomatch h⟩)
  have sh2 := Shared.call false .writeInplace sh1 trivial
  have sh3 := Shared.call true opB sh2 (by rw [hB]; exact ⟨by decide, fun _ h => nomatch h⟩)
  have sh4 := Shared.call true .writeInplace sh3 trivial
  have dat := (c115_data hg sh4 true 0 (.inl (by decide))).2
  obtain ⟨s, d', h, e, -, -, hn⟩ := c115_last hg sh4 (i := true) rfl m GptConfig.new { dev100 with data := _ } rfl
    ⟨rfl, by show 51200 < 2 ^ 64; decide, Nat.le_of_eq (dat.trans dev100_length), by show 0 < 2 ^ 64; decide⟩ rfl (fun h => nomatch h)
  have a1 : InSession m (GptConfig.new.setWritable true) 32 dev100 (opA.step m (madeDisk (GptConfig.new.setWritable true) dev100 32 99 Uuid.nil)).2 :=
    ⟨hwk, by rw [dev100_length]; decide, enough512, rfl, rfl, fun _ => rfl, _, _, _, _, _, hc, .call opA .start (by
      rw [hA]; exact ⟨by decide, fun _ h => nomatch h⟩)⟩
  obtain ⟨_, _, -, -, -, v⟩ := a1.sound
  obtain ⟨s1, hs1⟩ := v.write (m := m) rfl
  refine ⟨_, _, s, d', sh4, ?_, rfl, e, hn, ?_⟩
  · have o := congrArg Observe.parts (c115_unaware hg sh4 false)
    change _ = (writeInplace m _).2.partitions at o
    simp only [GptDisk.observe] at o
    rw [o]
    change List.map _ (writeInplace m (opA.step m (madeDisk (GptConfig.new.setWritable true) dev100 32 99 Uuid.nil)).2).2.partitions = _
    rw [hs1, (write_ok v.sane hs1).rest.partitions, hA]
    cases m <;> decide +kernel
  · have o := congrArg Observe.parts (c115_unaware hg sh3 true)
    simp only [GptDisk.observe] at o
    rw [o]
    change List.map _ (Spec.used (opB.step m (madeDisk (GptConfig.new.setWritable true) dev100 32 99 Uuid.nil)).2.partitions) = _
    rw [hB]
    cases m <;> decide +kernel

end Gpt
