import Verif.Props.AnyOrder
import Verif.Props.Decides
import Verif.Props.Session
import Verif.Props.Disjoint
/-!
# The same calls on a larger device: C136

Two sessions (C67) with the same block size, one on a larger device. As long as the smaller device has room, both go the same way.
-/

namespace Gpt

open Spec GptDisk

/-- The calls of a history are ordinary (C67), each in the state it is made in. -/
def Spec.OrdinaryAll (m : Mode) : List Op → GptDisk → Prop
  | [], _ => True
  | op :: ops, s => Ordinary s op ∧ OrdinaryAll m ops (op.step m s).2

section
variable {m m' : Mode} {cfg cfg' : GptConfig} {k : Nat} {d d' : Dev} {s s' : GptDisk} {h h' : Header}

/-- The usable range of `h'` begins where that of `h` does and ends no earlier. -/
structure Reaches (h h' : Header) : Prop where
  first : h'.firstUsable.toNat = h.firstUsable.toNat
  last : h.lastUsable.toNat ≤ h'.lastUsable.toNat
  count : h'.numParts = h.numParts

theorem Reaches.extent (hr : Reaches h h') {t : PMap} {y n : Nat} (hf : FreeExtent h t y n) : FreeExtent h' t y n := by
  intro x h1 h2
  obtain ⟨a, b, c⟩ := hf x h1 h2
  have := hr.first
  have := hr.last
  exact ⟨by omega, by omega, c⟩

/-- Below a free extent of the smaller range the two ranges have the same free extents. -/
theorem Reaches.below (hr : Reaches h h') {t : PMap} {y y' n : Nat} (hn : 0 < n) (hf : FreeExtent h t y n) (hy : y' < y)
    (hf' : FreeExtent h' t y' n) : FreeExtent h t y' n := by
  intro x h1 h2
  obtain ⟨a, b, c⟩ := hf' x h1 h2
  have e := (hf (y + n - 1) (by omega) (by omega)).2.1
  have := hr.first
  exact ⟨by omega, by omega, c⟩

theorem Reaches.insert (hr : Reaches h h') (hp : s'.partitions = s.partitions) (hc : s.config.changePartitionCount = false)
    (hc' : s'.config.changePartitionCount = false) {id : UInt32} {p : Partition} {r : Res GptError UInt32} {t : GptDisk}
    (hi : Insert m h s id p r t) : ∃ t', Insert m' h' s' id p r t' ∧ t'.partitions = t.partitions := by
  cases hi with
  | refused a b => exact ⟨s', .refused (by rw [hr.count]; exact a) hc', hp⟩
  | fits t a b => exact ⟨{ s' with partitions := t }, .fits t (by rw [hr.count]; exact a) (by rw [hp]; exact b), rfl⟩
  | rebuilt _ _ _ _ e => rw [hc] at e; cases e
  | failed _ _ _ _ _ e => rw [hc] at e; cases e

theorem session_reaches (hs : InSession m cfg k d s) (hs' : InSession m' cfg' k d' s') (hlb : cfg'.lbSize = cfg.lbSize)
    (hle : d.data.length ≤ d'.data.length) (hh : s.tryHeader = .ok h) (hh' : s'.tryHeader = .ok h') : Reaches h h' := by
  obtain ⟨x, e1, -, e2, e3, e4, -⟩ := c67_table hs
  obtain ⟨x', e1', -, e2', e3', e4', -⟩ := c67_table hs'
  rw [hh] at e1
  cases e1
  rw [hh'] at e1'
  cases e1'
  rw [hlb] at e4'
  have := Nat.div_le_div_right (c := cfg.lbSize.usize) hle
  exact ⟨by omega, by omega, by rw [e2, e2']⟩

theorem session_range_header (hs : InSession m cfg k d s) (hh : s.tryHeader = .ok h) : Range h ∧ Tidy h s.partitions ∧ h.numParts.toNat = 128 ∧
    s.config.changePartitionCount = false ∧ s.config = cfg := by
  obtain ⟨B, h1, hB, hkB, hB51, v⟩ := hs.sound
  have e := header_try v.sane.header
  rw [hh] at e
  cases e
  have := v.first
  have := v.last
  exact ⟨⟨by omega, by omega, by omega⟩, v.table, by rw [v.count]; rfl, by rw [v.config]; exact hs.count, v.config⟩

/-- **C136**, one call. What is ordinary on the smaller device is ordinary on the larger one, and unless the call fails for lack of space it
returns the same there and leaves the same table. -/
theorem c136_call (hs : InSession m cfg k d s) (hs' : InSession m' cfg' k d' s') (hlb : cfg'.lbSize = cfg.lbSize)
    (hle : d.data.length ≤ d'.data.length) (hp : s'.partitions = s.partitions) (op : Op) (ho : Ordinary s op)
    (hn : (op.step m s).1 ≠ .err .notEnoughSpace) :
    Ordinary s' op ∧ (op.step m' s').1 = (op.step m s).1 ∧ (op.step m' s').2.partitions = (op.step m s).2.partitions := by
  obtain ⟨h, hh, -⟩ := c67_table hs
  obtain ⟨h', hh', -⟩ := c67_table hs'
  have re := session_reaches hs hs' hlb hle hh hh'
  obtain ⟨hr, ht, hcn, hc, ecfg⟩ := session_range_header hs hh
  obtain ⟨hr', ht', hcn', hc', ecfg'⟩ := session_range_header hs' hh'
  have fromPair : ∀ {α : Type} {x x' : M GptDisk GptError α} (f : α → OpVal),
      (∃ t', x' s' = ((x s).1, t') ∧ t'.partitions = (x s).2.partitions) →
      ((x'.mapOk f) s').1 = ((x.mapOk f) s).1 ∧ ((x'.mapOk f) s').2.partitions = ((x.mapOk f) s).2.partitions := by
    rintro α x x' f ⟨t', e, ep⟩
    constructor
    · simp only [M.mapOk, e]
    · simp only [M.mapOk, e]
      exact ep
  cases op with
  | addPartition name size ty flags align fresh fresh2 =>
    refine ⟨ho, fromPair _ ?_⟩
    have run := c77_add_partition m name size ty flags align fresh fresh2 s h hh hr ht (fun a ha => (ho.2 a ha).2) (by omega)
    have run' := c77_add_partition m' name size ty flags align fresh fresh2 s' h' hh' hr' ht' (fun a ha => (ho.2 a ha).2) (by omega)
    have hn' : (addPartition m name size ty flags align fresh fresh2 s).1 ≠ .err .notEnoughSpace := by
      intro e
      apply hn
      simp only [Op.step, M.mapOk, e]
    generalize hxx : addPartition m name size ty flags align fresh fresh2 s = xx at run hn'
    rcases xx with ⟨r, t⟩
    simp only at run hn' ⊢
    have hset : ∀ id : UInt32, NextId h' s'.partitions id.toNat → Settled h' s' id := fun _ _ => .inr (.inl hc')
    cases run with
    | zero e => exact absurd e ho.1
    | zeroAlign x _ e _ => exact absurd rfl (ho.2 0 e).1
    | noSpace => exact absurd rfl hn'
    | insert start n id _ _ h0 hal hen hdiv hfree hmin hid hins =>
      have hpos : 0 < n.toNat := by
        rcases Nat.eq_zero_or_pos n.toNat with e | e
        · have := hen.enough
          rw [e, Nat.zero_mul] at this
          exact absurd (UInt64.toNat_inj.mp (by show size.toNat = 0; omega)) h0
        · exact e
      obtain ⟨t', hi', ep⟩ := re.insert (m' := m') hp hc hc' hins
      have key : Add m' h' s' name size ty flags align fresh r t' := by
        refine .insert start n id _ _ h0 hal (by rw [ecfg', hlb, ← ecfg]; exact hen) hdiv (by rw [hp]; exact re.extent hfree) ?_ ?_ hi'
        · intro y hy hfy
          rw [hp] at hfy
          by_cases hlt : y < start.toNat
          · exact hmin y hy (re.below hpos hfree hlt hfy)
          · omega
        · rw [hp]
          unfold NextId at hid ⊢
          rw [re.count]
          exact hid
      obtain ⟨e1, e2⟩ := c77_determined hset run' key
      exact ⟨t', Prod.ext e1 e2, ep⟩
  | addPartitionAt name id first length ty flags fresh fresh2 =>
    obtain ⟨o1, o2, o3⟩ := ho
    have hfree := o3 h hh
    refine ⟨⟨o1, o2, fun x hx => ?_⟩, fromPair _ ?_⟩
    · rw [hh'] at hx
      cases hx
      rw [hp]
      exact re.extent hfree
    have run := c76_add_partition_at m name id first length ty flags fresh fresh2 s h hh hr ht
    have run' := c76_add_partition_at m' name id first length ty flags fresh fresh2 s' h' hh' hr' ht'
    generalize hxx : addPartitionAt m name id first length ty flags fresh fresh2 s = xx at run
    rcases xx with ⟨r, t⟩
    simp only at run ⊢
    have hset : Settled h' s' id := .inr (.inl hc')
    have hlen : 0 < length.toNat := by
      rcases Nat.eq_zero_or_pos length.toNat with e | e
      · exact absurd (UInt64.toNat_inj.mp e) o2
      · exact e
    have hend := (hfree (first.toNat + length.toNat - 1) (by omega) (by omega)).2.1
    have hlast := hr.last
    cases run with
    | zero e => rcases e with e | e <;> contradiction
    | taken a b c =>
      have key : AddAt m' h' s' name id first length ty flags fresh (.err .partitionIdAlreadyUsed) s' := .taken a b (by rw [hp]; exact c)
      obtain ⟨e1, e2⟩ := c76_determined hset run' key
      exact ⟨s', Prod.ext e1 e2, hp⟩
    | noSpace a b c e => exact absurd hfree (e _ (Nat.le_refl _))
    | overflow y a b c e f g i => omega
    | insert y _ _ a b c e f g hins =>
      obtain ⟨t', hi', ep⟩ := re.insert (m' := m') hp hc hc' hins
      have key : AddAt m' h' s' name id first length ty flags fresh r t' :=
        .insert y _ _ a b (by rw [hp]; exact c) e (by rw [hp]; exact re.extent f) (fun _ => by omega) hi'
      obtain ⟨e1, e2⟩ := c76_determined hset run' key
      exact ⟨t', Prod.ext e1 e2, ep⟩
  | removePartition id =>
    refine ⟨trivial, fromPair _ ?_⟩
    unfold removePartition
    rw [hp]
    cases PMap.get s.partitions id with
    | some p => exact ⟨_, rfl, rfl⟩
    | none => exact ⟨_, rfl, hp⟩
  | removePartitionByGuid g =>
    refine ⟨trivial, fromPair _ ?_⟩
    unfold removePartitionByGuid
    rw [hp]
    cases s.partitions.find? (fun e => e.2.partGuid == g) with
    | some p => exact ⟨_, rfl, rfl⟩
    | none => exact ⟨_, rfl, hp⟩
  | takePartitions =>
    refine ⟨trivial, fromPair _ ?_⟩
    unfold takePartitions
    rw [hp]
    exact ⟨_, rfl, rfl⟩
  | updateGuid u r => exact ⟨trivial, rfl, hp⟩
  | updatePartitions pp fresh =>
    obtain ⟨o1, o2⟩ := ho
    have hlen : pp.length ≤ 128 := keys_length (lo := 0) (o2 h hh).keys fun i p hm => o1 i p hm
    have h0 : PMap.get pp 0 = none := by
      cases hg : PMap.get pp 0 with
      | none => rfl
      | some p => exact absurd (o1 0 p (PMap.mem_of_get hg)).1 (by decide)
    have tidy : ∀ x, s'.tryHeader = .ok x → Tidy x pp := by
      intro x hx
      rw [hh'] at hx
      cases hx
      have t := o2 h hh
      have := re.first
      have := re.last
      exact ⟨t.keys, t.order, fun p hp => ⟨by have := (t.inside p hp).1; omega, by have := (t.inside p hp).2; omega⟩, t.apart⟩
    refine ⟨⟨o1, tidy⟩, fromPair _ ?_⟩
    obtain ⟨B, h1, hB, _, _, v⟩ := hs.sound
    obtain ⟨B', h1', hB', _, _, v'⟩ := hs'.sound
    rw [updatePartitions_sane v.sane v.count hlen h0 v.works.faults v.works.pos (v.blocks hB),
      updatePartitions_sane v'.sane v'.count hlen h0 v'.works.faults v'.works.pos (v'.blocks hB')]
    exact ⟨_, rfl, rfl⟩
  | updateDiskDevice d w => exact ho.elim
  | deviceMut d => exact ho.elim
  | writeInplace =>
    refine ⟨trivial, fromPair _ ?_⟩
    obtain ⟨s1, _, _, _, e, -⟩ := c67_write_open hs
    obtain ⟨s1', _, _, _, e', -⟩ := c67_write_open hs'
    obtain ⟨_, _, _, _, _, v⟩ := hs.sound
    obtain ⟨_, _, _, _, _, v'⟩ := hs'.sound
    rw [e, e']
    refine ⟨s1', rfl, ?_⟩
    show s1'.partitions = s1.partitions
    rw [(write_ok v.sane e).rest.partitions, (write_ok v'.sane e').rest.partitions, hp]

/-- **C136**. A history of ordinary calls none of which fails for lack of space goes the same way on a larger device: the same results, the
same table (so every partition in the same place). -/
theorem c136_run (hs : InSession m cfg k d s) (hs' : InSession m' cfg' k d' s') (hlb : cfg'.lbSize = cfg.lbSize)
    (hle : d.data.length ≤ d'.data.length) (hp : s'.partitions = s.partitions) (ops : List Op) (ho : OrdinaryAll m ops s)
    (hn : ∀ r ∈ outcomes m ops s, r ≠ .err .notEnoughSpace) :
    OrdinaryAll m' ops s' ∧ outcomes m' ops s' = outcomes m ops s ∧ (runOps m' ops s').partitions = (runOps m ops s).partitions ∧
      InSession m cfg k d (runOps m ops s) ∧ InSession m' cfg' k d' (runOps m' ops s') := by
  induction ops generalizing s s' with
  | nil => exact ⟨trivial, rfl, hp, hs, hs'⟩
  | cons op ops ih =>
    obtain ⟨a, b, c⟩ := c136_call hs hs' hlb hle hp op ho.1 (hn _ List.mem_cons_self)
    obtain ⟨i1, i2, i3⟩ := ih (hs.step op ho.1) (hs'.step op a) c ho.2 fun r hr => hn r (List.mem_cons_of_mem _ hr)
    refine ⟨⟨a, i1⟩, ?_, i3⟩
    show _ :: _ = _ :: _
    rw [b, i2]

/-- **C136**, opened again. Both disks written and opened hold the same table, up to what an entry cannot store (C30). -/
theorem c136_open (hs : InSession m cfg k d s) (hs' : InSession m' cfg' k d' s') (hlb : cfg'.lbSize = cfg.lbSize)
    (hle : d.data.length ≤ d'.data.length) (hp : s'.partitions = s.partitions) (ops : List Op) (ho : OrdinaryAll m ops s)
    (hn : ∀ r ∈ outcomes m ops s, r ≠ .err .notEnoughSpace) :
    ∃ s1 s2 d2 s1' s2' d2', writeInplace m (runOps m ops s) = (.ok (), s1) ∧ openFromDevice m cfg s1.device = (.ok s2, d2) ∧
      writeInplace m' (runOps m' ops s') = (.ok (), s1') ∧ openFromDevice m' cfg' s1'.device = (.ok s2', d2') ∧
      Numbered (Spec.used (runOps m ops s).partitions) s2.partitions ∧ Numbered (Spec.used (runOps m ops s).partitions) s2'.partitions := by
  obtain ⟨-, -, e, i, i'⟩ := c136_run hs hs' hlb hle hp ops ho hn
  obtain ⟨s1, s2, d2, _, a1, a2, -, -, -, a3⟩ := c67_write_open i
  obtain ⟨s1', s2', d2', _, b1, b2, -, -, -, b3⟩ := c67_write_open i'
  rw [e] at b3
  exact ⟨s1, s2, d2, s1', s2', d2', a1, a2, b1, b2, a3, b3⟩

end

/-! ## The hypotheses are met -/

/-- The table of `sessDisk` on a device of 300 blocks. -/
def sessDisk300 (m : Mode) : GptDisk :=
  ((Op.addPartition "a" 1024 (exPart 0 0).partType 0 none Uuid.nil Uuid.nil).step m
    (madeDisk (GptConfig.new.setWritable true) dev300 32 299 Uuid.nil)).2

theorem sessDisk300_session (m : Mode) : InSession m (GptConfig.new.setWritable true) 32 dev300 (sessDisk300 m) := by
  have hwk : dev300.Works := ⟨rfl, by show 153600 < 2 ^ 64; decide, Nat.le_of_eq dev300_length, by show 0 < 2 ^ 64; decide⟩
  have hc := made_created m (GptConfig.new.setWritable true) (d := dev300) (B := 299) rfl (by show 0 < 2 ^ 64; decide) (by rw [dev300_length]; decide)
    enough512 (by rw [dev300_length]; rfl) (by decide)
  exact ⟨hwk, by rw [dev300_length]; decide, enough512, rfl, rfl, fun _ => rfl, _, _, _, _, _, hc,
    .call _ .start ⟨by decide, fun _ h => nomatch h⟩⟩

theorem sessDisk300_partitions (m : Mode) : (sessDisk300 m).partitions = [(1, ⟨(exPart 0 0).partType, Uuid.nil, 34, 35, 0, "a"⟩)] := by
  cases m <;> decide +kernel

/-- A history with an addition of 31 blocks, the last that fit on the device of 100 blocks. -/
def fillOps : List Op := [.addPartition "b" 15872 (exPart 0 0).partType 0 none Uuid.nil Uuid.nil, .removePartition 1, .removePartition 9]

theorem fillOps_outcomes (m : Mode) : outcomes m fillOps (sessDisk m) = [.ok (.id 2), .ok (.optId (some 1)), .ok (.optId none)] := by
  cases m <;> decide +kernel

/-- `c136_run` on the two devices, with the result of every call. -/
example (m m' : Mode) : outcomes m' fillOps (sessDisk300 m') = [.ok (.id 2), .ok (.optId (some 1)), .ok (.optId none)] ∧
    (runOps m' fillOps (sessDisk300 m')).partitions = (runOps m fillOps (sessDisk m)).partitions := by
  obtain ⟨-, a, b, -⟩ := c136_run (sessDisk_session m) (sessDisk300_session m') rfl (by rw [dev100_length, dev300_length]; decide)
    (by rw [sessDisk_partitions, sessDisk300_partitions]) fillOps ⟨⟨by decide, fun _ h => nomatch h⟩, trivial, trivial, trivial⟩
    (by rw [fillOps_outcomes]; decide)
  exact ⟨a.trans (fillOps_outcomes m), b⟩

/-- The exception is needed: 32 blocks fit on the larger device only. -/
example (m : Mode) :
    ((Op.addPartition "b" 16384 (exPart 0 0).partType 0 none Uuid.nil Uuid.nil).step m (sessDisk m)).1 = .err .notEnoughSpace ∧
    ((Op.addPartition "b" 16384 (exPart 0 0).partType 0 none Uuid.nil Uuid.nil).step m (sessDisk300 m)).1 = .ok (.id 2) := by
  cases m <;> decide +kernel

end Gpt
