import Verif.Props.LastWrite
/-!
# Closing a disk and opening it again: C144
-/

namespace Gpt

open Spec GptDisk

section
variable {Q : Prop} {m : Mode} {cfg : GptConfig} {k B : Nat} {d0 : Dev} {h h' : Header} {s s' : GptDisk}

theorem Lag.symm (l : Lag Q cfg k B d0 h h' s s') : Lag Q cfg k B d0 h' h s' s :=
  ⟨l.right, l.left, l.builtR, l.builtL, hdrLike_symm l.like, l.guid.symm, l.partitions.symm, l.sync.symm,
    fun hro => ⟨fun q => ((l.tail hro).1 q).symm, fun i hi => ((l.tail hro).2 i hi).symm⟩⟩

/-- Any call made on both. -/
theorem Lag.step (l : Lag Q cfg k B d0 h h' s s') (hw : cfg.writable = true) (hc : cfg.changePartitionCount = false)
    (hB : d0.data.length / cfg.lbSize.usize = B + 1) {op : Op} (ho : Ordinary s op) (hd : s.device.data = s'.device.data) :
    (op.step m s).1 = (op.step m s').1 ∧ (op.step m s).2.device.data = (op.step m s').2.device.data ∧
      ∃ g g', Lag Q cfg k B d0 g g' (op.step m s).2 (op.step m s').2 := by
  by_cases hop : op = .writeInplace
  · subst hop
    obtain ⟨g, l1⟩ := l.wrote (m := m) hw hc hB
    obtain ⟨g', l2⟩ := l1.symm.wrote (m := m) hw hc hB
    obtain ⟨t, t', e, e', ed, -⟩ := l.final (m := m) hw
    refine ⟨?_, ?_, g, g', l2.symm⟩
    · unfold Op.step M.mapOk
      simp only [e, e']
    · show (writeInplace m s).2.device.data = (writeInplace m s').2.device.data
      rw [e, e']
      exact ed
  · obtain ⟨e, l1⟩ := l.call (m := m) hw hc hB ho hop
    have hat : Spec.attaches op = none := by
      cases op <;> first | rfl | exact ho.elim
    exact ⟨e, by rw [(step_quiet m op s hop hat).1.data, (step_quiet m op s' hop hat).1.data, hd], l1⟩

theorem lag_both (hw : cfg.writable = true) (hc : cfg.changePartitionCount = false) (hB : d0.data.length / cfg.lbSize.usize = B + 1)
    (ops : List Op) (l : Lag Q cfg k B d0 h h' s s') (hd : s.device.data = s'.device.data) (ho : OrdinaryAll m ops s) :
    outcomes m ops s = outcomes m ops s' ∧ (runOps m ops s).device.data = (runOps m ops s').device.data ∧
      ∃ g g', Lag Q cfg k B d0 g g' (runOps m ops s) (runOps m ops s') := by
  induction ops generalizing h h' s s' with
  | nil => exact ⟨rfl, hd, _, _, l⟩
  | cons op ops ih =>
    obtain ⟨o1, o2⟩ := ho
    obtain ⟨e, ed, g, g', l1⟩ := l.step (m := m) hw hc hB o1 hd
    obtain ⟨i1, i2⟩ := ih l1 ed o2
    refine ⟨?_, i2⟩
    show (op.step m s).1 :: outcomes m ops (op.step m s).2 = (op.step m s').1 :: outcomes m ops (op.step m s').2
    rw [e, i1]

end

section
variable {m : Mode} {cfg : GptConfig} {k : Nat} {d : Dev} {s s1 s2 : GptDisk}

/-- What opening a written disk gives. -/
theorem reopened (hs : InSession m cfg k d s) {B : Nat} {h : Header} (hB : d.data.length / cfg.lbSize.usize = B + 1) (v : Sound cfg k B d h s)
    (h1 : writeInplace m s = (.ok (), s1)) : ∃ b q, openFromDevice m s.config s1.device = (.ok (openedState s.config { s1.device with pos := q }
      (.ok ((rebuiltP k B h).sealed (crc32 (tableBytes (Spec.used s.partitions) h.numParts.toNat)))) b
      ((rebuiltP k B h).sealed (crc32 (tableBytes (Spec.used s.partitions) h.numParts.toNat))) (Spec.used s.partitions)),
      { s1.device with pos := q }) := by
  obtain ⟨g, v1⟩ := v.step (m := m) hs.writable hs.count hB .writeInplace trivial
  have e1 : (Op.writeInplace.step m s).2 = s1 := by
    show (writeInplace m s).2 = s1
    rw [h1]
  rw [e1] at v1
  exact open_written (m' := m) (cfg := s.config) (d := s1.device) v.sane h1 rfl v1.works.faults v1.works.pos rfl
    (fun hv => c30_backup_valid m _ _ h k B v.sane h1 (by rw [v.config] at hv ⊢; exact hs.headers hv) (v.blocks hB))

/-- A session never syncs a file. -/
theorem Spec.InSession.sync (hs : InSession m cfg k d s) : s.syncAll = false := by
  obtain ⟨guid, fresh, fresh2, s0, d0, hcr, hse⟩ := hs.session
  have hsm := hs.small
  have hwhen := (c61_when m cfg guid fresh fresh2 d k hs.works.faults hs.works.pos (by omega) hs.array).1.mp ⟨s0, by rw [hcr]⟩
  obtain ⟨B, hB⟩ : ∃ B, d.data.length / cfg.lbSize.usize = B + 1 := ⟨d.data.length / cfg.lbSize.usize - 1, by omega⟩
  have hc := createFromDevice_nil m cfg guid fresh fresh2 hs.works.faults hs.works.pos (by omega) hs.array hB
  rw [if_pos (by omega), hcr] at hc
  cases hc
  induction hse with
  | start => rfl
  | @call t op hse ho ih =>
    have hs' : InSession m cfg k d t := ⟨hs.works, hs.small, hs.array, hs.writable, hs.count, hs.headers, _, _, _, _, _, hcr, hse⟩
    by_cases hop : op = .writeInplace
    · subst hop
      obtain ⟨B, h, hB, v, p⟩ := hs'.asBuilt
      obtain ⟨s1, e⟩ := v.wrote (m := m) hs.writable
      show (writeInplace m t).2.syncAll = false
      rw [e]
      exact (write_ok v.sane e).rest.syncAll.trans (ih hs')
    · have hat : Spec.attaches op = none := by
        cases op <;> first | rfl | exact ho.elim
      exact (step_quiet m op t hop hat).2.2.trans (ih hs')
  | @reopen t t1 t2 d2 hse h1 h2 ih =>
    have hs' : InSession m cfg k d t := ⟨hs.works, hs.small, hs.array, hs.writable, hs.count, hs.headers, _, _, _, _, _, hcr, hse⟩
    obtain ⟨B, h, hB, v, p⟩ := hs'.asBuilt
    obtain ⟨b, q, e'⟩ := reopened hs' hB v h1
    rw [h2] at e'
    cases e'
    rfl

theorem numberFrom_self {i : Nat} {t : PMap} (hi : i + t.length < 2 ^ 32) : numberFrom i (t.map Prod.snd) = t ↔
    (∀ j (hj : j < t.length), (t[j]).1.toNat = i + j + 1) ∧ ∀ e ∈ t, storedPart e.2 = e.2 := by
  induction t generalizing i with
  | nil => exact ⟨fun _ => ⟨fun j hj => absurd hj (Nat.not_lt_zero j), fun e he => nomatch he⟩, fun _ => rfl⟩
  | cons e t ih =>
    obtain ⟨a, p⟩ := e
    rw [List.length_cons] at hi
    show (UInt32.ofNat (i + 1), storedPart p) :: numberFrom (i + 1) (t.map Prod.snd) = (a, p) :: t ↔ _
    rw [List.cons.injEq, ih (by omega), Prod.mk.injEq]
    have ha : UInt32.ofNat (i + 1) = a ↔ a.toNat = i + 1 := by
      constructor
      · rintro rfl
        exact UInt32.toNat_ofNat_of_lt' (show _ < 2 ^ 32 by omega)
      · intro e
        rw [← e]
        exact UInt32.ofNat_toNat
    rw [ha]
    constructor
    · rintro ⟨⟨h1, h2⟩, h3, h4⟩
      refine ⟨fun j hj => ?_, fun e he => ?_⟩
      · cases j with
        | zero => exact h1
        | succ j =>
          have := h3 j (by rw [List.length_cons] at hj; omega)
          rw [List.getElem_cons_succ]
          omega
      · rcases List.mem_cons.mp he with rfl | he
        · exact h2
        · exact h4 e he
    · rintro ⟨h1, h2⟩
      refine ⟨⟨h1 0 (by simp), h2 (a, p) (List.mem_cons_self ..)⟩, fun j hj => ?_, fun e he => h2 e (List.mem_cons_of_mem _ he)⟩
      have := h1 (j + 1) (by rw [List.length_cons]; omega)
      rw [List.getElem_cons_succ] at this
      omega

theorem storedPart_self {p : Partition} : storedPart p = p ↔ PType.ofGuid p.partType.guid = p.partType ∧ storedName 36 p.name.toList = p.name.toList := by
  obtain ⟨t, g, f, l, a, n⟩ := p
  unfold storedPart
  simp only [Partition.mk.injEq, true_and]
  have : String.ofList (storedName 36 n.toList) = n ↔ storedName 36 n.toList = n.toList := by
    constructor
    · intro e
      have := congrArg String.toList e
      rwa [String.toList_ofList] at this
    · intro e
      rw [e, String.ofList_toList]
  rw [this]

/-- **C144**, exactly: the new handle shows the same table and GUID if and only if every entry is used, the ids are 1 to `n`, every type is the one
listed for its GUID, every name is one that is read back, and the disk GUID is the one in the header. -/
theorem c144_same (hs : InSession m cfg k d s) (h1 : writeInplace m s = (.ok (), s1)) {d2 : Dev}
    (h2 : openFromDevice m s.config s1.device = (.ok s2, d2)) {h : Header} (hh : s.primaryHeader = .ok h) :
    (s2.partitions = s1.partitions ∧ s2.guid = s1.guid) ↔
      (∀ e ∈ s.partitions, e.2.partType.guid ≠ Uuid.nil) ∧ (∀ j (hj : j < s.partitions.length), (s.partitions[j]).1.toNat = j + 1) ∧
      (∀ e ∈ s.partitions, PType.ofGuid e.2.partType.guid = e.2.partType ∧ storedName 36 e.2.name.toList = e.2.name.toList) ∧
      s.guid = h.diskGuid := by
  obtain ⟨B, h', hB, v, p⟩ := hs.asBuilt
  obtain rfl := Except.ok.inj (hh.symm.trans p.primary)
  obtain ⟨b, q, e'⟩ := reopened hs hB v h1
  rw [h2] at e'
  cases e'
  have w := write_ok v.sane h1
  have hroom := v.room
  rw [w.rest.partitions, w.rest.guid]
  show (numberFrom 0 (Spec.used s.partitions) = s.partitions ∧ h.diskGuid = s.guid) ↔ _
  have key : ∀ hu : (∀ e ∈ s.partitions, e.2.partType.guid ≠ Uuid.nil), Spec.used s.partitions = s.partitions.map Prod.snd := by
    intro hu
    unfold Spec.used
    refine List.filter_eq_self.mpr fun p hp => ?_
    obtain ⟨e, he, rfl⟩ := List.mem_map.mp hp
    exact bne_iff_ne.mpr (hu e he)
  have hlen : 0 + s.partitions.length < 2 ^ 32 := by
    have := keys_length (lo := 0) v.table.keys v.ids
    omega
  constructor
  · rintro ⟨e1, e2⟩
    have hu : ∀ e ∈ s.partitions, e.2.partType.guid ≠ Uuid.nil := by
      have hl := congrArg List.length e1
      rw [numberFrom_length] at hl
      have hf : (Spec.used s.partitions) = s.partitions.map Prod.snd := by
        unfold Spec.used at hl ⊢
        exact List.filter_sublist.eq_of_length (by rw [hl, List.length_map])
      intro e he
      have : e.2 ∈ Spec.used s.partitions := by rw [hf]; exact List.mem_map_of_mem he
      exact bne_iff_ne.mp (List.mem_filter.mp this).2
    rw [key hu, numberFrom_self hlen] at e1
    exact ⟨hu, fun j hj => by rw [e1.1 j hj]; omega, fun e he => storedPart_self.mp (e1.2 e he), e2.symm⟩
  · rintro ⟨hu, hi, hp, hg⟩
    rw [key hu, numberFrom_self hlen]
    exact ⟨⟨fun j hj => by rw [hi j hj]; omega, fun e he => storedPart_self.mpr (hp e he)⟩, hg.symm⟩

/-- **C144**: a disk is written, closed and opened again. If the new handle shows the same table and GUID, it takes the place of the old one:
every history of ordinary calls returns the same on both, leaves the same bytes on the device, and the same table and GUID. -/
theorem c144_resume (hs : InSession m cfg k d s) (h1 : writeInplace m s = (.ok (), s1)) {d2 : Dev}
    (h2 : openFromDevice m s.config s1.device = (.ok s2, d2)) (hpart : s2.partitions = s1.partitions)
    (hguid : s2.guid = s1.guid) {ops : List Op} (ho : OrdinaryAll m ops s1) :
    outcomes m ops s2 = outcomes m ops s1 ∧ (runOps m ops s2).device.data = (runOps m ops s1).device.data ∧
      (runOps m ops s2).partitions = (runOps m ops s1).partitions ∧ (runOps m ops s2).guid = (runOps m ops s1).guid := by
  obtain ⟨B, h, hB, v, p⟩ := hs.asBuilt
  obtain ⟨s3, d3, h3, e, v2, -⟩ := v.reopen hB hs.headers hs.writable hs.count h1
  rw [h2] at e
  cases e
  obtain ⟨g, v1, p1⟩ := p.step (m := m) v hs.writable hs.count hB .writeInplace trivial
  have e1 : (Op.writeInplace.step m s).2 = s1 := by
    show (writeInplace m s).2 = s1
    rw [h1]
  rw [e1] at v1 p1
  obtain ⟨b, q, e'⟩ := reopened hs hB v h1
  rw [h2] at e'
  cases e'
  have w := write_ok v.sane h1
  obtain rfl := Except.ok.inj ((header_try v2.sane.header).symm.trans (tryHeader_of_primary rfl))
  obtain rfl := Except.ok.inj (p1.primary.symm.trans w.primary)
  have l : Lag False cfg k B d _ _ s1 _ := ⟨v1, v2, p1, ⟨rfl, _, _, rfl⟩, HdrLike.refl _, hguid.symm, hpart.symm,
    w.rest.syncAll.trans hs.sync, fun _ => ⟨False.elim, fun _ _ => rfl⟩⟩
  obtain ⟨a1, a2, g, g', l1⟩ := lag_both hs.writable hs.count hB ops l rfl ho
  exact ⟨a1.symm, a2.symm, l1.partitions.symm, l1.guid.symm⟩

end

/-! ## The hypotheses are met -/

/-- `sessDisk` is written, opened again, and shows the same. -/
theorem sessDisk_reopens (m : Mode) : ∃ s1 s2 d2, writeInplace m (sessDisk m) = (.ok (), s1) ∧ openFromDevice m (sessDisk m).config s1.device = (.ok s2, d2) ∧
    s2.partitions = s1.partitions ∧ s2.guid = s1.guid := by
  have hs := sessDisk_session m
  obtain ⟨B, h, hB, v, p⟩ := hs.asBuilt
  obtain ⟨s1, e1⟩ := v.wrote (m := m) hs.writable
  obtain ⟨b, q, e2⟩ := reopened hs hB v e1
  have hg : (sessDisk m).guid = h.diskGuid := by
    have : (sessDisk m).primaryHeader.toOption.map Header.diskGuid = some (sessDisk m).guid := by cases m <;> decide +kernel
    rw [p.primary] at this
    exact (Option.some.inj this).symm
  obtain ⟨a1, a2⟩ := (c144_same hs e1 e2 p.primary).mpr ⟨by rw [sessDisk_partitions]; decide +kernel, by
      rw [sessDisk_partitions]
      intro j hj
      cases j with
      | zero => rfl
      | succ j => exact absurd hj (by simp),
    by rw [sessDisk_partitions]; decide +kernel, hg⟩
  exact ⟨s1, _, _, e1, e2, a1, a2⟩

/-- Then a partition is added and the disk is written. -/
example (m : Mode) (s1 : GptDisk) : OrdinaryAll m [.addPartition "b" 512 (exPart 0 0).partType 0 none Uuid.nil Uuid.nil, .writeInplace] s1 :=
  ⟨⟨by decide, fun _ h => nomatch h⟩, trivial, trivial⟩

end Gpt
