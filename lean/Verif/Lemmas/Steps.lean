import Verif.Lemmas.Init
import Verif.Lemmas.Sections
/-!
# Every outcome of the calls that change the table
-/

namespace Gpt

/-- Replace the value of `Ok`. -/
def Res.as {ε α β : Type} (b : β) : Res ε α → Res ε β
  | .ok _ => .ok b
  | .err e => .err e
  | .panic => .panic

@[simp] theorem Res.as_ok {ε α β : Type} (b : β) (a : α) : (Res.ok a : Res ε α).as b = .ok b := rfl
@[simp] theorem Res.as_err {ε α β : Type} (b : β) (e : ε) : (Res.err e : Res ε α).as b = .err e := rfl
@[simp] theorem Res.as_panic {ε α β : Type} (b : β) : (Res.panic : Res ε α).as b = .panic := rfl

theorem Res.as_eq_ok {ε α β : Type} {b c : β} {r : Res ε α} : r.as b = .ok c ↔ (∃ a, r = .ok a) ∧ c = b := by
  cases r <;> simp [eq_comm]

theorem Res.as_eq_err {ε α β : Type} {b : β} {e : ε} {r : Res ε α} : r.as b = .err e ↔ r = .err e := by
  cases r <;> simp

theorem Res.as_eq_panic {ε α β : Type} {b : β} {r : Res ε α} : r.as b = .panic ↔ r = .panic := by
  cases r <;> simp

namespace GptDisk

/-- The disk with other entries. -/
def withParts (s : GptDisk) (t : PMap) : GptDisk := { s with partitions := t }

/-- What can happen once the extent is chosen: nothing; the entry is inserted; the entry is inserted and the headers are
rebuilt, which may fail. -/
inductive Inserted (m : Mode) (id : UInt32) (p : Partition) (fresh2 : Uuid) (s : GptDisk) :
    Res GptError UInt32 → GptDisk → Prop where
  | panic : Inserted m id p fresh2 s .panic s
  | refused (h : Header) : s.tryHeader = .ok h → h.numPartsWouldChange id = true → s.config.changePartitionCount = false →
      Inserted m id p fresh2 s (.err .partitionCountWouldChange) s
  | plain (h : Header) : s.tryHeader = .ok h → h.numPartsWouldChange id = false →
      Inserted m id p fresh2 s (.ok id) (s.withParts (PMap.insert id p s.partitions))
  | rebuilt (h : Header) (r : Res GptError Unit) (s' : GptDisk) : s.tryHeader = .ok h → h.numPartsWouldChange id = true →
      s.config.changePartitionCount = true →
      initHeaders m fresh2 (s.withParts (PMap.insert id p s.partitions)) = (r, s') →
      Inserted m id p fresh2 s (r.as id) s'

theorem insertPartition_any (m : Mode) (name : String) (id : UInt32) (first length : UInt64) (ty : PType)
    (flags : UInt64) (fresh fresh2 : Uuid) (s : GptDisk) :
    Inserted m id ⟨ty, fresh, first, first + length - 1, flags, name⟩ fresh2 s
      (insertPartition m name id first length ty flags fresh fresh2 s).1
      (insertPartition m name id first length ty flags fresh fresh2 s).2 := by
  unfold insertPartition
  simp only [M.bind_apply, M.lift_apply, M.get_apply]
  cases h1 : (add64 m first length : Res GptError UInt64) with
  | err e => exact absurd h1 arith_ne_err
  | panic => exact .panic
  | ok e =>
    obtain rfl := add64_ok h1
    simp only
    cases h2 : (sub64 m (first + length) 1 : Res GptError UInt64) with
    | err e => exact absurd h2 arith_ne_err
    | panic => exact .panic
    | ok l =>
      obtain rfl := sub64_ok h2
      simp only
      cases h3 : (s.header : Res GptError Header) with
      | err e => unfold header at h3; split at h3 <;> simp at h3
      | panic => exact .panic
      | ok h =>
        have hh := header_ok_iff.mp h3
        simp only
        cases hc : h.numPartsWouldChange id with
        | false =>
          simp only [Bool.false_and, Bool.false_eq_true, if_false, M.bind_apply, M.modify_apply, M.pure_apply]
          exact .plain h hh hc
        | true =>
          cases hp : s.config.changePartitionCount with
          | false =>
            simp only [Bool.not_false, Bool.and_self, if_true, M.throw_apply]
            exact .refused h hh hc hp
          | true =>
            simp only [Bool.not_true, Bool.and_false, Bool.false_eq_true, if_false, if_true, M.bind_apply, M.modify_apply]
            rcases hi : initHeaders m fresh2 (s.withParts (PMap.insert id ⟨ty, fresh, first, first + length - 1, flags, name⟩ s.partitions)) with ⟨r, s'⟩
            have hi' := hi
            unfold withParts at hi'
            rw [hi']
            have := Inserted.rebuilt (m := m) (fresh2 := fresh2) h r s' hh hc hp hi
            cases r <;> exact this

theorem freeChunks_ne_err {ε : Type} (m : Mode) {e : ε} : ∀ l : List UInt64, freeChunks m l ≠ .err e
  | [] => by simp [freeChunks]
  | [_] => by simp [freeChunks]
  | a :: b :: rest => by
    unfold freeChunks
    intro h
    rw [Res.bind_eq_err] at h
    rcases h with h | ⟨st, _, h⟩
    · exact arith_ne_err h
    rw [Res.bind_eq_err] at h
    rcases h with h | ⟨en, _, h⟩
    · exact arith_ne_err h
    split at h
    · rw [Res.bind_eq_err] at h
      rcases h with h | ⟨_, _, h⟩
      · exact arith_ne_err h
      rw [Res.bind_eq_err] at h
      rcases h with h | ⟨_, _, h⟩
      · exact arith_ne_err h
      rw [Res.bind_eq_err] at h
      rcases h with h | ⟨_, _, h⟩
      · exact freeChunks_ne_err m rest h
      simp at h
    · exact freeChunks_ne_err m rest h

theorem header_ne_err {ε : Type} {s : GptDisk} {e : ε} : (s.header : Res ε Header) ≠ .err e := by
  unfold header; split <;> simp

theorem findFreeSectors_ne_err {ε : Type} {m : Mode} {s : GptDisk} {e : ε} :
    (s.findFreeSectors m : Res ε (List (UInt64 × UInt64))) ≠ .err e := by
  unfold findFreeSectors
  intro h
  rw [Res.bind_eq_err] at h
  rcases h with h | ⟨_, _, h⟩
  · exact header_ne_err h
  rw [Res.bind_eq_err] at h
  rcases h with h | ⟨_, _, h⟩
  · exact arith_ne_err h
  rw [Res.bind_eq_err] at h
  rcases h with h | ⟨_, _, h⟩
  · exact arith_ne_err h
  exact freeChunks_ne_err m _ h

/-- Every outcome of `add_partition`: nothing happened, or an entry with the chosen id was inserted. -/
theorem addPartition_any (m : Mode) (name : String) (size : UInt64) (ty : PType) (flags : UInt64)
    (align : Option UInt64) (fresh fresh2 : Uuid) (s : GptDisk) :
    ((addPartition m name size ty flags align fresh fresh2 s).2 = s ∧
      ((addPartition m name size ty flags align fresh fresh2 s).1 = .panic ∨
       (addPartition m name size ty flags align fresh fresh2 s).1 = .err .notEnoughSpace)) ∨
    ∃ id first last, PickId m s id ∧
      Inserted m id ⟨ty, fresh, first, last, flags, name⟩ fresh2 s
        (addPartition m name size ty flags align fresh fresh2 s).1
        (addPartition m name size ty flags align fresh fresh2 s).2 := by
  have hloop : ∀ n L, ((addPartitionLoop m name n ty flags align fresh fresh2 L s).2 = s ∧
      ((addPartitionLoop m name n ty flags align fresh fresh2 L s).1 = .panic ∨
       (addPartitionLoop m name n ty flags align fresh fresh2 L s).1 = .err .notEnoughSpace)) ∨
      ∃ id first last, PickId m s id ∧
        Inserted m id ⟨ty, fresh, first, last, flags, name⟩ fresh2 s
          (addPartitionLoop m name n ty flags align fresh fresh2 L s).1
          (addPartitionLoop m name n ty flags align fresh fresh2 L s).2 := by
    intro n L
    induction L with
    | nil => exact .inl ⟨rfl, .inr rfl⟩
    | cons sec rest ih =>
      obtain ⟨st, len⟩ := sec
      unfold addPartitionLoop
      simp only [M.bind_apply, M.lift_apply]
      cases h1 : (alignmentOffset m st align : Res GptError UInt64) with
      | panic => exact .inl ⟨rfl, .inl rfl⟩
      | err e =>
        exfalso
        cases align with
        | none => simp [alignmentOffset] at h1
        | some a =>
          unfold alignmentOffset rem64 at h1
          simp only at h1
          split at h1
          · simp at h1
          · simp only [Res.ok_bind] at h1
            rw [Res.bind_eq_err] at h1
            rcases h1 with h1 | ⟨_, _, h1⟩
            · exact arith_ne_err h1
            · simp at h1
      | ok off =>
        simp only
        cases h2 : (add64 m off n : Res GptError UInt64) with
        | panic => exact .inl ⟨rfl, .inl rfl⟩
        | err e => exact absurd h2 arith_ne_err
        | ok need =>
          simp only
          split
          · simp only [M.bind_apply, M.lift_apply, M.get_apply]
            cases h3 : (add64 m st off : Res GptError UInt64) with
            | panic => exact .inl ⟨rfl, .inl rfl⟩
            | err e => exact absurd h3 arith_ne_err
            | ok start =>
              simp only
              cases h4 : (s.findNextPartitionId : Res GptError (Option UInt32)) with
              | panic => exact .inl ⟨rfl, .inl rfl⟩
              | err e =>
                exfalso
                unfold findNextPartitionId at h4
                split at h4
                · simp at h4
                · unfold header at h4
                  split at h4 <;> simp at h4
              | ok id? =>
                cases id? with
                | some i =>
                  simp only [M.bind_apply, M.pure_apply]
                  exact .inr ⟨i, start, _, .inl h4, insertPartition_any m name i start n ty flags fresh fresh2 s⟩
                | none =>
                  simp only [M.bind_apply, M.lift_apply]
                  cases h5 : (s.header : Res GptError Header) with
                  | panic => exact .inl ⟨rfl, .inl rfl⟩
                  | err e => exfalso; unfold header at h5; split at h5 <;> simp at h5
                  | ok h =>
                    simp only
                    cases h6 : (add32 m h.numParts 1 : Res GptError UInt32) with
                    | panic => exact .inl ⟨rfl, .inl rfl⟩
                    | err e => exact absurd h6 arith_ne_err
                    | ok i =>
                      exact .inr ⟨i, start, _, .inr ⟨h4, h, header_ok_iff.mp h5, h6⟩,
                        insertPartition_any m name i start n ty flags fresh fresh2 s⟩
          · exact ih
  by_cases h0 : size = 0
  · subst h0
    rw [addPartition_zero]
    exact .inl ⟨rfl, .inl rfl⟩
  · obtain ⟨n, _, heq⟩ := addPartition_eq m name h0 ty flags align fresh fresh2 s
    cases hL : (s.findFreeSectors m : Res GptError (List (UInt64 × UInt64))) with
    | ok L =>
      rw [heq L hL]
      exact hloop n L
    | err e =>
      exfalso
      exact findFreeSectors_ne_err hL
    | panic =>
      unfold addPartition
      rw [if_neg h0]
      simp only [M.bind_apply, M.get_apply, M.lift_apply]
      cases h1 : (sub64 m size 1 : Res GptError UInt64) with
      | panic => exact .inl ⟨rfl, .inl rfl⟩
      | err e => exact absurd h1 arith_ne_err
      | ok a =>
        simp only
        cases h2 : (add64 m (a / s.config.lbSize.u64) 1 : Res GptError UInt64) with
        | panic => exact .inl ⟨rfl, .inl rfl⟩
        | err e => exact absurd h2 arith_ne_err
        | ok b =>
          simp only [hL]
          exact .inl ⟨trivial, .inl trivial⟩

/-- Every outcome of `add_partition_at`. -/
theorem addPartitionAt_any (m : Mode) (name : String) (id : UInt32) (first length : UInt64) (ty : PType) (flags : UInt64)
    (fresh fresh2 : Uuid) (s : GptDisk) :
    ((addPartitionAt m name id first length ty flags fresh fresh2 s).2 = s ∧
      ((addPartitionAt m name id first length ty flags fresh fresh2 s).1 = .panic ∨
       (addPartitionAt m name id first length ty flags fresh fresh2 s).1 = .err .notEnoughSpace ∨
       (addPartitionAt m name id first length ty flags fresh fresh2 s).1 = .err .partitionIdAlreadyUsed)) ∨
    (id ≠ 0 ∧ length ≠ 0 ∧ (PMap.get s.partitions id).any (·.isUsed) = false ∧
      (∃ L, (s.findFreeSectors m : Res GptError _) = .ok L ∧ ∃ sec ∈ L, sec.1.toNat ≤ first.toNat ∧ length.toNat ≤ sec.2.toNat) ∧
      Inserted m id ⟨ty, fresh, first, first + length - 1, flags, name⟩ fresh2 s
        (addPartitionAt m name id first length ty flags fresh fresh2 s).1
        (addPartitionAt m name id first length ty flags fresh fresh2 s).2) := by
  by_cases h0 : length = 0
  · unfold addPartitionAt
    rw [if_pos h0]
    exact .inl ⟨rfl, .inl rfl⟩
  by_cases hid : id = 0
  · unfold addPartitionAt
    rw [if_neg h0, if_pos hid]
    exact .inl ⟨rfl, .inl rfl⟩
  have heq : addPartitionAt m name id first length ty flags fresh fresh2 s =
      if (PMap.get s.partitions id).any (·.isUsed) then (.err .partitionIdAlreadyUsed, s)
      else (M.lift (s.findFreeSectors m) >>= addPartitionAtLoop m name id first length ty flags fresh fresh2) s := by
    unfold addPartitionAt
    rw [if_neg h0, if_neg hid]
    simp only [M.bind_apply, M.get_apply]
    split <;> rfl
  rw [heq]
  cases hu : (PMap.get s.partitions id).any (·.isUsed) with
  | true => simp only [if_true]; exact .inl ⟨trivial, .inr (.inr trivial)⟩
  | false =>
    simp only [Bool.false_eq_true, if_false, M.bind_apply, M.lift_apply]
    cases hL : (s.findFreeSectors m : Res GptError (List (UInt64 × UInt64))) with
    | err e => exact absurd hL findFreeSectors_ne_err
    | panic => exact .inl ⟨rfl, .inl rfl⟩
    | ok L =>
      simp only
      by_cases hx : ∃ sec ∈ L, sec.1.toNat ≤ first.toNat ∧ length.toNat ≤ sec.2.toNat
      · rw [addPartitionAtLoop_accepts hx]
        exact .inr ⟨hid, h0, trivial, ⟨L, rfl, hx⟩, insertPartition_any m name id first length ty flags fresh fresh2 s⟩
      · left
        have : ∀ L, (¬ ∃ sec ∈ L, sec.1.toNat ≤ first.toNat ∧ length.toNat ≤ sec.2.toNat) →
            addPartitionAtLoop m name id first length ty flags fresh fresh2 L s = (.err .notEnoughSpace, s) := by
          intro L
          induction L with
          | nil => intro _; rfl
          | cons sec rest ih =>
            intro hn
            unfold addPartitionAtLoop
            rw [if_neg]
            · exact ih (fun ⟨x, hx, hc⟩ => hn ⟨x, List.mem_cons_of_mem _ hx, hc⟩)
            · rw [ge_iff_le, UInt64.le_iff_toNat_le, UInt64.le_iff_toNat_le]
              exact fun hc => hn ⟨sec, List.mem_cons_self, hc⟩
        rw [this L hx]
        exact ⟨rfl, .inr (.inl rfl)⟩

/-- Every outcome of `update_partitions`. -/
theorem updatePartitions_any (m : Mode) (pp : PMap) (fresh : Uuid) (s : GptDisk) :
    ((updatePartitions m pp fresh s).2 = s ∧
      ((updatePartitions m pp fresh s).1 = .panic ∨
       ((updatePartitions m pp fresh s).1 = .err .partitionCountWouldChange ∧
        ∃ h, s.tryHeader = .ok h ∧ h.numPartsWouldChange (UInt32.ofNat pp.length) = true ∧ s.config.changePartitionCount = false))) ∨
    (PMap.get pp 0 = none ∧ ∃ h, s.tryHeader = .ok h ∧
      (h.numPartsWouldChange (UInt32.ofNat pp.length) = true → s.config.changePartitionCount = true) ∧
      updatePartitions m pp fresh s = initHeaders m fresh (s.withParts pp)) := by
  unfold updatePartitions
  split
  · exact .inl ⟨rfl, .inl rfl⟩
  rename_i h0
  simp only [M.bind_apply, M.get_apply, M.lift_apply]
  cases h3 : (s.header : Res GptError Header) with
  | err e => exact absurd h3 header_ne_err
  | panic => exact .inl ⟨rfl, .inl rfl⟩
  | ok h =>
    have hh := header_ok_iff.mp h3
    simp only
    split
    · rename_i hc
      simp only [Bool.and_eq_true, Bool.not_eq_true'] at hc
      exact .inl ⟨rfl, .inr ⟨rfl, h, hh, hc.1, hc.2⟩⟩
    · rename_i hc
      right
      refine ⟨by simpa using h0, h, hh, ?_, rfl⟩
      intro hw
      simpa [hw] using hc

end GptDisk

end Gpt
