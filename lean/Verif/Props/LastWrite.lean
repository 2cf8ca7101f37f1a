import Verif.Props.Labels
import Verif.Props.Larger
import Verif.Props.Shared
/-!
# Only the last write counts: C143
-/

namespace Gpt

open Spec GptDisk

/-- The call is not a write. -/
def Spec.noWrite : Op → Bool
  | .writeInplace => false
  | _ => true

/-- What the calls of a history other than writes return, in order. -/
def Spec.outcomesBut (m : Mode) (ops : List Op) (s : GptDisk) : List (Res GptError OpVal) :=
  ((ops.zip (outcomes m ops s)).filter fun e => noWrite e.1).map Prod.snd

theorem noWrite_iff {op : Op} : noWrite op = true ↔ op ≠ .writeInplace := by cases op <;> simp [noWrite]

/-! ## Headers as the library makes them -/

theorem hdrLike_symm {h h' : Header} (e : HdrLike h h') : HdrLike h' h := by
  obtain ⟨a, b, rfl⟩ := e
  exact ⟨h.crc32, h.crc32Parts, rfl⟩

theorem hdrLike_trans {h h' h'' : Header} (e : HdrLike h h') (e' : HdrLike h' h'') : HdrLike h h'' := by
  obtain ⟨a, b, rfl⟩ := e
  obtain ⟨c, d, rfl⟩ := e'
  exact ⟨c, d, rfl⟩

theorem rebuiltP_like {k B : Nat} {h h' : Header} (e : HdrLike h h') : rebuiltP k B h' = rebuiltP k B h := by
  obtain ⟨a, b, rfl⟩ := e
  rfl

/-- The primary header is there, and as `HeaderBuilder` makes it, but for the checksums. -/
structure AsBuilt (k B : Nat) (h : Header) (s : GptDisk) : Prop where
  primary : s.primaryHeader = .ok h
  like : HdrLike (rebuiltP k B h) h

section
variable {Q : Prop} {m : Mode} {cfg : GptConfig} {k B : Nat} {d0 : Dev} {h h' : Header} {s s' : GptDisk}

theorem asBuilt_written (v : Sound cfg k B d0 h s) {s1 : GptDisk} (e : writeInplace m s = (.ok (), s1)) :
    ∃ c, AsBuilt k B ((rebuiltP k B h).sealed c) s1 := ⟨_, (write_ok v.sane e).primary, _, _, rfl⟩

theorem Sound.wrote (v : Sound cfg k B d0 h s) (hw : cfg.writable = true) : ∃ s1, writeInplace m s = (.ok (), s1) := by
  have hok := write_nil (m := m) v.sane (by rw [v.config]; exact hw) v.room v.works.faults (v.sane.fits.trans v.works.length)
  exact ⟨(writeInplace m s).2, Prod.ext hok rfl⟩

theorem inserted_primary (v : Sound cfg k B d0 h s) (hc : cfg.changePartitionCount = false) {id : UInt32} {p : Partition} {fresh2 : Uuid}
    {r : Res GptError UInt32} {s' : GptDisk} (hi : Inserted m id p fresh2 s r s') : s'.primaryHeader = s.primaryHeader := by
  cases hi with
  | panic => rfl
  | refused => rfl
  | plain => rfl
  | rebuilt _ _ _ _ _ hp => rw [v.config, hc] at hp; cases hp

theorem AsBuilt.step (p : AsBuilt k B h s) (v : Sound cfg k B d0 h s) (hw : cfg.writable = true) (hc : cfg.changePartitionCount = false)
    (hB : d0.data.length / cfg.lbSize.usize = B + 1) (op : Op) (ho : Ordinary s op) :
    ∃ h', Sound cfg k B d0 h' (op.step m s).2 ∧ AsBuilt k B h' (op.step m s).2 := by
  have key : ∃ h2, AsBuilt k B h2 (op.step m s).2 := by
    cases op with
    | addPartition name size ty flags align fresh fresh2 =>
      refine ⟨h, ?_, p.like⟩
      show (addPartition m name size ty flags align fresh fresh2 s).2.primaryHeader = _
      rcases addPartition_any m name size ty flags align fresh fresh2 s with ⟨e, -⟩ | ⟨_, _, _, _, hi⟩
      · rw [e]; exact p.primary
      · rw [inserted_primary v hc hi]; exact p.primary
    | addPartitionAt name id first length ty flags fresh fresh2 =>
      refine ⟨h, ?_, p.like⟩
      show (addPartitionAt m name id first length ty flags fresh fresh2 s).2.primaryHeader = _
      rcases addPartitionAt_any m name id first length ty flags fresh fresh2 s with ⟨e, -⟩ | ⟨_, _, _, _, hi⟩
      · rw [e]; exact p.primary
      · rw [inserted_primary v hc hi]; exact p.primary
    | removePartition id =>
      refine ⟨h, ?_, p.like⟩
      show (removePartition (ε := GptError) id s).2.primaryHeader = _
      unfold removePartition
      split <;> exact p.primary
    | removePartitionByGuid g =>
      refine ⟨h, ?_, p.like⟩
      show (removePartitionByGuid (ε := GptError) g s).2.primaryHeader = _
      unfold removePartitionByGuid
      split <;> exact p.primary
    | takePartitions => exact ⟨h, p.primary, p.like⟩
    | updateGuid u r => exact ⟨h, p.primary, p.like⟩
    | updateDiskDevice d w => exact ho.elim
    | deviceMut d => exact ho.elim
    | updatePartitions pp fresh =>
      have ht := ho.2 h (header_try v.sane.header)
      have hlen : pp.length ≤ 128 := keys_length (lo := 0) ht.keys fun i p hm => ho.1 i p hm
      have h0 : PMap.get pp 0 = none := by
        cases hg : PMap.get pp 0 with
        | none => rfl
        | some p => exact absurd (ho.1 0 p (PMap.mem_of_get hg)).1 (by decide)
      rw [step_updatePartitions, updatePartitions_sane v.sane v.count hlen h0 v.works.faults v.works.pos (v.blocks hB)]
      exact ⟨_, rfl, HdrLike.refl _⟩
    | writeInplace =>
      obtain ⟨s1, e⟩ := v.wrote (m := m) hw
      obtain ⟨c, q⟩ := asBuilt_written v e
      have e1 : (Op.writeInplace.step m s).2 = s1 := by
        show (writeInplace m s).2 = s1
        rw [e]
      rw [e1]
      exact ⟨_, q⟩
  obtain ⟨h1, v1⟩ := v.step (m := m) hw hc hB op ho
  obtain ⟨h2, p2⟩ := key
  obtain rfl := Except.ok.inj ((tryHeader_of_primary p2.primary).symm.trans (header_try v1.sane.header))
  exact ⟨_, v1, p2⟩

/-- At any time of a session. -/
theorem Spec.InSession.asBuilt {d : Dev} (hs : InSession m cfg k d s) :
    ∃ B h, d.data.length / cfg.lbSize.usize = B + 1 ∧ Sound cfg k B d h s ∧ AsBuilt k B h s := by
  obtain ⟨guid, fresh, fresh2, s0, d0, hcr, hse⟩ := hs.session
  have hsm := hs.small
  have hwhen := (c61_when m cfg guid fresh fresh2 d k hs.works.faults hs.works.pos (by omega) hs.array).1.mp ⟨s0, by rw [hcr]⟩
  obtain ⟨B, hB⟩ : ∃ B, d.data.length / cfg.lbSize.usize = B + 1 := ⟨d.data.length / cfg.lbSize.usize - 1, by omega⟩
  have hkB : 2 * k + 3 ≤ B := by omega
  have hB51 : B < 2 ^ 51 := by
    have h1 := Nat.div_mul_le_self d.data.length cfg.lbSize.usize
    have h2 : (B + 1) * 512 ≤ (B + 1) * cfg.lbSize.usize := Nat.mul_le_mul_left _ (by cases cfg.lbSize <;> decide)
    rw [hB] at h1
    omega
  have hc := createFromDevice_nil m cfg guid fresh fresh2 hs.works.faults hs.works.pos (by omega) hs.array hB
  rw [if_pos hkB, hcr] at hc
  cases hc
  have hsane := madeDisk_sane (g := guid.getD fresh) (by omega) hs.array hB hkB
  have v0 : Sound cfg k B d (createdP k B (guid.getD fresh)) (madeDisk cfg d k B (guid.getD fresh)) := by
    refine ⟨rfl, hsane, rfl, ofNat64 (by omega), ?_, tidy_nil _, (fun _ _ hm => nomatch hm), hs.works, rfl, rfl, fun _ _ _ => rfl⟩
    show (UInt64.ofNat (B - k - 1)).toNat + k + 1 = B
    rw [ofNat64 (by omega)]
    omega
  refine ⟨B, ?_⟩
  suffices ∃ h, Sound cfg k B d h s ∧ AsBuilt k B h s by
    obtain ⟨h, a, b⟩ := this
    exact ⟨h, hB, a, b⟩
  induction hse with
  | start => exact ⟨_, v0, rfl, 0, 0, rfl⟩
  | call op hse ho ih =>
    obtain ⟨h, v, p⟩ := ih ⟨hs.works, hs.small, hs.array, hs.writable, hs.count, hs.headers, _, _, _, _, _, hcr, hse⟩
    exact p.step v hs.writable hs.count hB op ho
  | reopen hse h1 h2 ih =>
    obtain ⟨h, v, p⟩ := ih ⟨hs.works, hs.small, hs.array, hs.writable, hs.count, hs.headers, _, _, _, _, _, hcr, hse⟩
    obtain ⟨s2, d2, h2', e, v2, -⟩ := v.reopen hB hs.headers hs.writable hs.count h1
    rw [e] at h2
    cases h2
    refine ⟨_, v2, ?_⟩
    obtain ⟨h3, v3⟩ := v.step hs.writable hs.count hB .writeInplace trivial (m := m)
    change Sound cfg k B d h3 (writeInplace m _).2 at v3
    rw [h1] at v3
    obtain ⟨b, q, e'⟩ := open_written (m' := m) (cfg := _) (d := _) v.sane h1 rfl v3.works.faults v3.works.pos rfl
      (fun hv => c30_backup_valid m _ _ h k B v.sane h1 (by rw [v.config] at hv ⊢; exact hs.headers hv) (v.blocks hB))
    rw [e'] at e
    cases e
    obtain rfl := Except.ok.inj ((header_try v2.sane.header).symm.trans (tryHeader_of_primary rfl))
    exact ⟨rfl, _, _, rfl⟩

/-! ## Two disks in step, one of them written more often -/

/-- The same disk but for the backup header, the content of the device and its position. -/
structure Aside (s s' : GptDisk) : Prop where
  length : s.device.data.length = s'.device.data.length
  faults : s.device.faults = s'.device.faults
  config : s.config = s'.config
  guid : s.guid = s'.guid
  partitions : s.partitions = s'.partitions
  sync : s.syncAll = s'.syncAll
  primary : ∃ h, s.primaryHeader = .ok h ∧ s'.primaryHeader = .ok h

theorem aside_sim : SimCalls Aside where
  config h := h.config
  syncs h := h.sync
  tryHeader h := by
    obtain ⟨x, e1, e2⟩ := h.primary
    rw [tryHeader_of_primary e1, tryHeader_of_primary e2]
  parts h := h.partitions
  guid h := h.guid
  setParts h _ := ⟨h.length, h.faults, h.config, h.guid, rfl, h.sync, h.primary⟩
  setPrimary h x := ⟨h.length, h.faults, h.config, h.guid, h.partitions, h.sync, x, rfl, rfl⟩
  setBackup h _ := ⟨h.length, h.faults, h.config, h.guid, h.partitions, h.sync, h.primary⟩
  setGuid h _ := ⟨h.length, h.faults, h.config, rfl, h.partitions, h.sync, h.primary⟩
  setDevice h _ := ⟨rfl, rfl, h.config, h.guid, h.partitions, h.sync, h.primary⟩
  setWritable h w := ⟨h.length, h.faults, by rw [h.config], h.guid, h.partitions, h.sync, h.primary⟩
  find lb := by
    refine ⟨fun s s' h => ?_⟩
    obtain ⟨e1, e2, e3⟩ := find_apart lb _ _ h.length h.faults
    unfold onDev M.zoom
    refine ⟨?_, e2, e3, h.config, h.guid, h.partitions, h.sync, h.primary⟩
    simp only [M.mapErr_apply]
    rw [e1]

/-- The change of labels that changes nothing. -/
def noRelabel : Relabel := ⟨id, id, id, id, fun _ => Iff.rfl, fun _ _ h => h⟩

theorem noRelabel_table (t : PMap) : noRelabel.table t = t := by
  unfold Relabel.table
  exact List.map_id'' (fun _ => rfl) t

theorem noRelabel_op {op : Op} (ho : Ordinary s op) : OpLike noRelabel op op := by
  cases op with
  | addPartition n sz t f a r r2 => exact .addPartition n sz t f a r r2
  | addPartitionAt n i fl l t f r r2 => exact .addPartitionAt n i fl l t f r r2
  | removePartition i => exact .removePartition i
  | removePartitionByGuid g => exact .removePartitionByGuid g
  | takePartitions => exact .takePartitions
  | updateGuid u r => exact .updateGuid u r
  | updatePartitions pp r =>
    have := OpLike.updatePartitions (φ := noRelabel) pp r
    rw [noRelabel_table] at this
    exact this
  | updateDiskDevice d w => exact ho.elim
  | deviceMut d => exact ho.elim
  | writeInplace => exact .writeInplace

theorem step_no_dev {op : Op} (ho : Ordinary s op) (d : Dev) : (op.step m s).1 ≠ .ok (.dev d) := by
  cases op with
  | updateDiskDevice d w => exact ho.elim
  | deviceMut d => exact ho.elim
  | _ =>
    unfold Op.step M.mapOk
    simp only
    split <;> simp

/-- `s` and `s'` differ in how often they were written; `Q`: their backup headers are the same if they are not to be written. -/
structure Lag (Q : Prop) (cfg : GptConfig) (k B : Nat) (d0 : Dev) (h h' : Header) (s s' : GptDisk) : Prop where
  left : Sound cfg k B d0 h s
  right : Sound cfg k B d0 h' s'
  builtL : AsBuilt k B h s
  builtR : AsBuilt k B h' s'
  like : HdrLike h h'
  guid : s.guid = s'.guid
  partitions : s.partitions = s'.partitions
  sync : s.syncAll = s'.syncAll
  tail : cfg.readonlyBackup = true → (Q → s.backupHeader = s'.backupHeader) ∧
    ∀ i, ¬ InPrimary cfg.lbSize 128 i → byteAt s.device.data i = byteAt s'.device.data i

theorem Lag.ordinary (l : Lag Q cfg k B d0 h h' s s') {op : Op} (ho : Ordinary s op) : Ordinary s' op := by
  have e := header_try l.left.sane.header
  have e' := header_try l.right.sane.header
  obtain ⟨a, b, rfl⟩ := l.like
  cases op with
  | addPartitionAt name id first length ty flags fresh fresh2 =>
    refine ⟨ho.1, ho.2.1, fun x hx => ?_⟩
    obtain rfl := Except.ok.inj (e'.symm.trans hx)
    have := ho.2.2 h e
    rw [l.partitions] at this
    exact this
  | updatePartitions pp fresh =>
    refine ⟨ho.1, fun x hx => ?_⟩
    obtain rfl := Except.ok.inj (e'.symm.trans hx)
    have t := ho.2 h e
    exact ⟨t.keys, t.order, t.inside, t.apart⟩
  | _ => exact ho

theorem ordinary_backup {op : Op} (v : Sound cfg k B d0 h s) (hc : cfg.changePartitionCount = false)
    (hB : d0.data.length / cfg.lbSize.usize = B + 1) (ho : Ordinary s op) (hop : op ≠ .writeInplace)
    (hro : cfg.readonlyBackup = true) : (op.step m s).2.backupHeader = s.backupHeader := by
  have ins : ∀ {id : UInt32} {p : Partition} {fresh2 : Uuid} {r : Res GptError UInt32} {s' : GptDisk}, Inserted m id p fresh2 s r s' →
      s'.backupHeader = s.backupHeader := by
    intro id p fresh2 r s' hi
    cases hi with
    | panic => rfl
    | refused => rfl
    | plain => rfl
    | rebuilt _ _ _ _ _ hp => rw [v.config, hc] at hp; cases hp
  cases op with
  | addPartition name size ty flags align fresh fresh2 =>
    show (addPartition m name size ty flags align fresh fresh2 s).2.backupHeader = _
    rcases addPartition_any m name size ty flags align fresh fresh2 s with ⟨e, -⟩ | ⟨_, _, _, _, hi⟩
    · rw [e]
    · exact ins hi
  | addPartitionAt name id first length ty flags fresh fresh2 =>
    show (addPartitionAt m name id first length ty flags fresh fresh2 s).2.backupHeader = _
    rcases addPartitionAt_any m name id first length ty flags fresh fresh2 s with ⟨e, -⟩ | ⟨_, _, _, _, hi⟩
    · rw [e]
    · exact ins hi
  | removePartition id =>
    show (removePartition (ε := GptError) id s).2.backupHeader = _
    unfold removePartition
    split <;> rfl
  | removePartitionByGuid g =>
    show (removePartitionByGuid (ε := GptError) g s).2.backupHeader = _
    unfold removePartitionByGuid
    split <;> rfl
  | takePartitions => rfl
  | updateGuid u r => rfl
  | updateDiskDevice d w => exact ho.elim
  | deviceMut d => exact ho.elim
  | writeInplace => exact absurd rfl hop
  | updatePartitions pp fresh =>
    have ht := ho.2 h (header_try v.sane.header)
    have hlen : pp.length ≤ 128 := keys_length (lo := 0) ht.keys fun i p hm => ho.1 i p hm
    have h0 : PMap.get pp 0 = none := by
      cases hg : PMap.get pp 0 with
      | none => rfl
      | some p => exact absurd (ho.1 0 p (PMap.mem_of_get hg)).1 (by decide)
    rw [step_updatePartitions, updatePartitions_sane v.sane v.count hlen h0 v.works.faults v.works.pos (v.blocks hB)]
    show (if s.config.readonlyBackup then s.backupHeader else _) = _
    rw [v.config, hro, if_pos rfl]

/-- A call that is not a write, made on both. -/
theorem Lag.call (l : Lag Q cfg k B d0 h h' s s') (hw : cfg.writable = true) (hc : cfg.changePartitionCount = false)
    (hB : d0.data.length / cfg.lbSize.usize = B + 1) {op : Op} (ho : Ordinary s op) (hop : op ≠ .writeInplace) :
    (op.step m s).1 = (op.step m s').1 ∧ ∃ g g', Lag Q cfg k B d0 g g' (op.step m s).2 (op.step m s').2 := by
  have ho' := l.ordinary ho
  have r1 : DiskLike noRelabel s { s with primaryHeader := .ok h' } := by
    refine ⟨rfl, rfl, rfl, DevLike.refl _, ?_, ?_, (noRelabel_table _).symm⟩
    · rw [l.builtL.primary]
      exact .ok l.like
    · show ReadLike s.backupHeader s.backupHeader
      cases s.backupHeader with
      | ok x => exact .ok (HdrLike.refl x)
      | error e => exact .error e
  have r2 : Aside { s with primaryHeader := .ok h' } s' :=
    ⟨l.left.length.trans l.right.length.symm, l.left.works.faults.trans l.right.works.faults.symm, l.left.config.trans l.right.config.symm,
      l.guid, l.partitions, l.sync, h', rfl, l.builtR.primary⟩
  obtain ⟨a1, a2⟩ := c137_call (m := m) r1 (noRelabel_op ho)
  obtain ⟨b1, b2⟩ := (aside_sim.step m op (fun d w e => by subst e; exact ho) hop).run _ _ r2
  have nodev := step_no_dev (m := m) ho
  refine ⟨?_, ?_⟩
  · rw [← b1]
    generalize (op.step m s).1 = x at a1 nodev
    generalize (op.step m { s with primaryHeader := .ok h' }).1 = y at a1
    cases a1 with
    | err => rfl
    | panic => rfl
    | ok q =>
      cases q with
      | unit => rfl
      | id => rfl
      | optId => rfl
      | parts t => rw [noRelabel_table]
      | dev => exact absurd rfl (nodev _)
  · obtain ⟨g, v, p⟩ := l.builtL.step (m := m) l.left hw hc hB op ho
    obtain ⟨g', v', p'⟩ := l.builtR.step (m := m) l.right hw hc hB op ho'
    refine ⟨g, g', v, v', p, p', ?_, ?_, ?_, ?_, fun hro => ⟨fun q => ?_, fun i hi => ?_⟩⟩
    · obtain ⟨x, e1, e2⟩ := b2.primary
      obtain rfl := Except.ok.inj (e2.symm.trans p'.primary)
      have q := a2.primary
      rw [p.primary, e1] at q
      cases q with
      | ok e => exact e
    · exact a2.guid.symm.trans b2.guid
    · have e := a2.partitions
      rw [noRelabel_table] at e
      exact e.symm.trans b2.partitions
    · exact a2.sync.symm.trans b2.sync
    · rw [ordinary_backup l.left hc hB ho hop hro, ordinary_backup l.right hc hB ho' hop hro]
      exact (l.tail hro).1 q
    · have hat : Spec.attaches op = none := by
        cases op <;> first | rfl | exact ho.elim
      rw [(step_quiet m op s hop hat).1.data, (step_quiet m op s' hop hat).1.data]
      exact (l.tail hro).2 i hi

/-- A write made on one of them. -/
theorem Lag.wrote (l : Lag Q cfg k B d0 h h' s s') (hw : cfg.writable = true) (hc : cfg.changePartitionCount = false)
    (hB : d0.data.length / cfg.lbSize.usize = B + 1) : ∃ g, Lag Q cfg k B d0 g h' ((Op.writeInplace).step m s).2 s' := by
  obtain ⟨g, v, p⟩ := l.builtL.step (m := m) l.left hw hc hB .writeInplace trivial
  obtain ⟨s1, e⟩ := l.left.wrote (m := m) hw
  have e1 : (Op.writeInplace.step m s).2 = s1 := by
    show (writeInplace m s).2 = s1
    rw [e]
  rw [e1] at v p ⊢
  have w := write_ok l.left.sane e
  have h128 : h.numParts.toNat = 128 := by rw [l.left.count]; rfl
  refine ⟨g, v, l.right, p, l.builtR, ?_, w.rest.guid.trans l.guid, w.rest.partitions.trans l.partitions, w.rest.syncAll.trans l.sync,
    fun hro => ⟨fun q => ?_, fun i hi => ?_⟩⟩
  · obtain rfl := Except.ok.inj (p.primary.symm.trans w.primary)
    refine hdrLike_trans (h' := rebuiltP k B h) (hdrLike_symm ⟨_, _, rfl⟩) ?_
    rw [← rebuiltP_like l.like]
    exact l.builtR.like
  · rw [w.backup, l.left.config, hro, if_pos rfl]
    exact (l.tail hro).1 q
  · rw [w.bytes i, ← (l.tail hro).2 i hi]
    unfold finalByte bakOf
    rw [l.left.config, hro, if_pos rfl]
    have hn : (rebuiltP k B h).numParts = h.numParts := rfl
    unfold InPrimary at hi
    rw [hn, h128, if_neg (by omega), if_neg (by unfold InP; omega)]

/-- A write made on both: the same is on the device, and the disks are the same but for the log and the position of the device. -/
theorem Lag.final (l : Lag Q cfg k B d0 h h' s s') (hw : cfg.writable = true) :
    ∃ t t', writeInplace m s = (.ok (), t) ∧ writeInplace m s' = (.ok (), t') ∧ t.device.data = t'.device.data ∧ t.config = t'.config ∧
      t.guid = t'.guid ∧ t.primaryHeader = t'.primaryHeader ∧ (Q → t.backupHeader = t'.backupHeader) ∧ t.partitions = t'.partitions ∧
      t.syncAll = t'.syncAll := by
  obtain ⟨t, e⟩ := l.left.wrote (m := m) hw
  obtain ⟨t', e'⟩ := l.right.wrote (m := m) hw
  have w := write_ok l.left.sane e
  have w' := write_ok l.right.sane e'
  have hP : rebuiltP k B h' = rebuiltP k B h := rebuiltP_like l.like
  have hBk : rebuiltB k B h' = rebuiltB k B h := by unfold rebuiltB; rw [hP]
  have hn : h'.numParts = h.numParts := by rw [l.left.count, l.right.count]
  have h128 : h.numParts.toNat = 128 := by rw [l.left.count]; rfl
  have hcfg := l.left.config.trans l.right.config.symm
  refine ⟨t, t', e, e', ?_, ?_, ?_, ?_, ?_, w.rest.partitions.trans (l.partitions.trans w'.rest.partitions.symm),
    w.rest.syncAll.trans (l.sync.trans w'.rest.syncAll.symm)⟩
  · refine bytes_ext (by rw [w.length, w'.length, l.left.length, l.right.length]) fun i _ => ?_
    rw [w.bytes, w'.bytes]
    have hbak : bakOf s'.config k B h' = bakOf s.config k B h := by unfold bakOf; rw [hBk, hcfg]
    rw [hP, hbak, ← hcfg, ← l.partitions]
    have hnP : (rebuiltP k B h).numParts = h.numParts := rfl
    unfold finalByte
    rw [hnP, h128]
    split
    · rfl
    · rename_i c1
      split
      · rfl
      · rename_i c2
        have hi : ¬ InPrimary cfg.lbSize 128 i := by
          unfold InPrimary
          unfold InP at c2
          rw [l.left.config] at c1 c2
          omega
        unfold bakOf
        cases hro : s.config.readonlyBackup with
        | true =>
          rw [l.left.config] at hro
          simp only [if_true]
          exact (l.tail hro).2 i hi
        | false =>
          simp only [Bool.false_eq_true, if_false]
          split
          · rfl
          · rename_i c3
            split
            · rfl
            · rename_i c4
              have hb : ¬ InBackup cfg.lbSize 128 k B i := by
                unfold InBackup
                rw [l.left.config] at c3 c4
                have : (B + 1) * cfg.lbSize.usize = B * cfg.lbSize.usize + cfg.lbSize.usize := by rw [Nat.add_mul, Nat.one_mul]
                omega
              rw [l.left.bytes i hi hb, l.right.bytes i hi hb]
  · rw [w.rest.config, w'.rest.config, hcfg]
  · rw [w.rest.guid, w'.rest.guid, l.guid]
  · rw [w.primary, w'.primary, hP, hn, l.partitions]
  · intro q
    rw [w.backup, w'.backup, hBk, hn, l.partitions, hcfg]
    cases hro : s'.config.readonlyBackup with
    | true =>
      rw [l.right.config] at hro
      simp only [if_true]
      exact (l.tail hro).1 q
    | false => rfl

theorem lag_run (hw : cfg.writable = true) (hc : cfg.changePartitionCount = false) (hB : d0.data.length / cfg.lbSize.usize = B + 1)
    (ops : List Op) (l : Lag Q cfg k B d0 h h' s s') (ho : OrdinaryAll m ops s) :
    outcomesBut m ops s = outcomes m (ops.filter noWrite) s' ∧ ∃ g g', Lag Q cfg k B d0 g g' (runOps m ops s) (runOps m (ops.filter noWrite) s') := by
  induction ops generalizing h h' s s' with
  | nil => exact ⟨rfl, _, _, l⟩
  | cons op ops ih =>
    obtain ⟨o1, o2⟩ := ho
    by_cases hop : op = .writeInplace
    · subst hop
      obtain ⟨g, l1⟩ := l.wrote (m := m) hw hc hB
      exact ih l1 o2
    · obtain ⟨e, g, g', l1⟩ := l.call (m := m) hw hc hB o1 hop
      obtain ⟨i1, i2⟩ := ih l1 o2
      have hf : (op :: ops).filter noWrite = op :: ops.filter noWrite := List.filter_cons_of_pos (noWrite_iff.mpr hop)
      rw [hf]
      refine ⟨?_, i2⟩
      have hz : outcomesBut m (op :: ops) s = (op.step m s).1 :: outcomesBut m ops (op.step m s).2 := by
        unfold outcomesBut
        show (((op, (op.step m s).1) :: ops.zip (outcomes m ops (op.step m s).2)).filter fun e => noWrite e.1).map Prod.snd = _
        rw [List.filter_cons_of_pos (p := fun e : Op × Res GptError OpVal => noWrite e.1) (noWrite_iff.mpr hop)]
        rfl
      rw [hz, i1, e]
      rfl

end

/-! ## C143 -/

section
variable {m : Mode} {cfg : GptConfig} {k : Nat} {d : Dev} {s : GptDisk}

theorem session_lag (hs : InSession m cfg k d s) : ∃ B h, d.data.length / cfg.lbSize.usize = B + 1 ∧ Lag True cfg k B d h h s s := by
  obtain ⟨B, h, hB, v, p⟩ := hs.asBuilt
  exact ⟨B, h, hB, v, v, p, p, HdrLike.refl h, rfl, rfl, rfl, fun _ => ⟨fun _ => rfl, fun _ _ => rfl⟩⟩

/-- **C143**, calls: writes in between change neither what the other calls return nor the table. -/
theorem c143_calls (hs : InSession m cfg k d s) {ops : List Op} (ho : OrdinaryAll m ops s) :
    outcomesBut m ops s = outcomes m (ops.filter noWrite) s ∧
      (runOps m ops s).partitions = (runOps m (ops.filter noWrite) s).partitions ∧
      (runOps m ops s).guid = (runOps m (ops.filter noWrite) s).guid := by
  obtain ⟨B, h, hB, l⟩ := session_lag hs
  obtain ⟨e, g, g', l1⟩ := lag_run hs.writable hs.count hB ops l ho
  exact ⟨e, l1.partitions, l1.guid⟩

/-- **C143**, the device: two histories with the same calls but for writes, each ended with a write, leave the same bytes; what is in memory is
the same too. -/
theorem c143_last (hs : InSession m cfg k d s) {ops ops' : List Op} (ho : OrdinaryAll m ops s) (ho' : OrdinaryAll m ops' s)
    (same : ops.filter noWrite = ops'.filter noWrite) :
    ∃ t t', writeInplace m (runOps m ops s) = (.ok (), t) ∧ writeInplace m (runOps m ops' s) = (.ok (), t') ∧
      t.device.data = t'.device.data ∧ t.config = t'.config ∧ t.guid = t'.guid ∧ t.primaryHeader = t'.primaryHeader ∧
      t.backupHeader = t'.backupHeader ∧ t.partitions = t'.partitions ∧ t.syncAll = t'.syncAll := by
  obtain ⟨B, h, hB, l⟩ := session_lag hs
  obtain ⟨-, g, g', l1⟩ := lag_run hs.writable hs.count hB ops l ho
  obtain ⟨-, f, f', l2⟩ := lag_run hs.writable hs.count hB ops' l ho'
  rw [← same] at l2
  obtain ⟨t, u, e1, e2, a1, a2, a3, a4, a5, a6, a7⟩ := l1.final (m := m) hs.writable
  obtain ⟨t', u', e1', e2', b1, b2, b3, b4, b5, b6, b7⟩ := l2.final (m := m) hs.writable
  rw [e2] at e2'
  cases e2'
  exact ⟨t, t', e1, e1', a1.trans b1.symm, a2.trans b2.symm, a3.trans b3.symm, a4.trans b4.symm, (a5 trivial).trans (b5 trivial).symm, a6.trans b6.symm,
    a7.trans b7.symm⟩

end

/-! ## The hypotheses are met -/

/-- Two histories of `sessDisk`: one writes after removing its partition, the other only before, twice. -/
example (m : Mode) :
    let a := Op.removePartition 1
    let b := Op.addPartition "b" 512 (exPart 0 0).partType 0 none Uuid.nil Uuid.nil
    InSession m (GptConfig.new.setWritable true) 32 dev100 (sessDisk m) ∧ OrdinaryAll m [a, .writeInplace, b] (sessDisk m) ∧
      OrdinaryAll m [.writeInplace, .writeInplace, a, b] (sessDisk m) ∧
      [a, .writeInplace, b].filter noWrite = [.writeInplace, .writeInplace, a, b].filter noWrite :=
  ⟨sessDisk_session m, ⟨trivial, trivial, ⟨by decide, fun _ h => nomatch h⟩, trivial⟩,
    ⟨trivial, trivial, trivial, ⟨by decide, fun _ h => nomatch h⟩, trivial⟩, rfl⟩

end Gpt
