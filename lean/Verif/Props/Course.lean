import Verif.Props.Canonical
/-!
# Saving and reopening at any places: C146
-/

namespace Gpt

open Spec GptDisk

/-- A program makes the ordinary calls `ops` on the disk `s`, in this order, gets the results `rs` and is left with `t`. In between it may write the
disk, and it may write, close and open it again where the new handle shows the same table and GUID (C144 says when). -/
inductive Spec.Course (m : Mode) : GptDisk → List Op → List (Res GptError OpVal) → GptDisk → Prop
  | done (s : GptDisk) : Course m s [] [] s
  | call {s t : GptDisk} {ops : List Op} {rs : List (Res GptError OpVal)} (op : Op) : Ordinary s op → op ≠ .writeInplace →
      Course m (op.step m s).2 ops rs t → Course m s (op :: ops) ((op.step m s).1 :: rs) t
  | write {s s1 t : GptDisk} {ops : List Op} {rs : List (Res GptError OpVal)} : writeInplace m s = (.ok (), s1) → Course m s1 ops rs t →
      Course m s ops rs t
  | reopen {s s1 s2 t : GptDisk} {d2 : Dev} {ops : List Op} {rs : List (Res GptError OpVal)} : writeInplace m s = (.ok (), s1) →
      openFromDevice m s.config s1.device = (.ok s2, d2) → s2.partitions = s1.partitions → s2.guid = s1.guid → Course m s2 ops rs t →
      Course m s ops rs t

section
variable {m : Mode} {cfg : GptConfig} {k B : Nat} {d : Dev} {h h' : Header} {s s' s1 s2 t t' : GptDisk} {ops : List Op}
  {rs rs' : List (Res GptError OpVal)}

theorem Lag.reopened (l : Lag False cfg k B d h h' s s') (hs : InSession m cfg k d s) (hB : d.data.length / cfg.lbSize.usize = B + 1)
    (h1 : writeInplace m s = (.ok (), s1)) {d2 : Dev} (h2 : openFromDevice m s.config s1.device = (.ok s2, d2))
    (hpart : s2.partitions = s1.partitions) (hguid : s2.guid = s1.guid) : ∃ g, Lag False cfg k B d g h' s2 s' := by
  obtain ⟨guid, fresh, fresh2, s0, d0, hcr, hse⟩ := hs.session
  have hs2 : InSession m cfg k d s2 :=
    ⟨hs.works, hs.small, hs.array, hs.writable, hs.count, hs.headers, guid, fresh, fresh2, s0, d0, hcr, .reopen hse h1 h2⟩
  obtain ⟨B2, g2, hB2, v2, p2⟩ := hs2.asBuilt
  obtain rfl : B = B2 := by omega
  obtain ⟨b, q, e'⟩ := Gpt.reopened hs hB l.left h1
  rw [h2] at e'
  cases e'
  obtain ⟨g1, l1⟩ := l.wrote (m := m) hs.writable hs.count hB
  have e1 : (Op.writeInplace.step m s).2 = s1 := by
    show (writeInplace m s).2 = s1
    rw [h1]
  rw [e1] at l1
  have w := write_ok l.left.sane h1
  obtain rfl := Except.ok.inj (l1.builtL.primary.symm.trans w.primary)
  obtain rfl := Except.ok.inj (p2.primary.symm.trans rfl)
  exact ⟨_, v2, l.right, p2, l.builtR, l1.like, hguid.trans l1.guid, hpart.trans l1.partitions,
    hs.sync.symm.trans l.sync, fun hro => ⟨False.elim, (l1.tail hro).2⟩⟩

theorem course_lag (hB : d.data.length / cfg.lbSize.usize = B + 1) (c : Course m s ops rs t) :
    ∀ {h h' : Header} {s' : GptDisk}, InSession m cfg k d s → Lag False cfg k B d h h' s s' →
      rs = outcomes m ops s' ∧ ∃ g g', Lag False cfg k B d g g' t (runOps m ops s') := by
  induction c with
  | done s => exact fun _ l => ⟨rfl, _, _, l⟩
  | call op ho hop c ih =>
    intro h h' s' hs l
    obtain ⟨e, g, g', l1⟩ := l.call (m := m) hs.writable hs.count hB ho hop
    obtain ⟨guid, fresh, fresh2, s0, d0, hcr, hse⟩ := hs.session
    obtain ⟨i1, i2⟩ := ih ⟨hs.works, hs.small, hs.array, hs.writable, hs.count, hs.headers, guid, fresh, fresh2, s0, d0, hcr, .call op hse ho⟩ l1
    refine ⟨?_, i2⟩
    show _ = (op.step m s').1 :: outcomes m _ (op.step m s').2
    rw [e, i1]
  | @write s s1 t ops rs h1 c ih =>
    intro h h' s' hs l
    obtain ⟨g, l1⟩ := l.wrote (m := m) hs.writable hs.count hB
    obtain ⟨guid, fresh, fresh2, s0, d0, hcr, hse⟩ := hs.session
    have e1 : (Op.writeInplace.step m s).2 = s1 := by
      show (writeInplace m s).2 = s1
      rw [h1]
    have hse1 := Session.call (m := m) .writeInplace hse trivial
    rw [e1] at l1 hse1
    exact ih ⟨hs.works, hs.small, hs.array, hs.writable, hs.count, hs.headers, guid, fresh, fresh2, s0, d0, hcr, hse1⟩ l1
  | reopen h1 h2 hp hg c ih =>
    intro h h' s' hs l
    obtain ⟨g, l1⟩ := l.reopened hs hB h1 h2 hp hg
    obtain ⟨guid, fresh, fresh2, s0, d0, hcr, hse⟩ := hs.session
    exact ih ⟨hs.works, hs.small, hs.array, hs.writable, hs.count, hs.headers, guid, fresh, fresh2, s0, d0, hcr, .reopen hse h1 h2⟩ l1

/-- **C146**: two programs make the same calls in a session, and write and reopen the disk wherever they like. They get the same results, have the
same table and GUID in the end, and once both have written the disk, the same bytes are on the device. -/
theorem c146_course (hs : InSession m cfg k d s) (c : Course m s ops rs t) (c' : Course m s ops rs' t') :
    rs = rs' ∧ t.partitions = t'.partitions ∧ t.guid = t'.guid ∧
      ∃ u u', writeInplace m t = (.ok (), u) ∧ writeInplace m t' = (.ok (), u') ∧ u.device.data = u'.device.data ∧
        u.primaryHeader = u'.primaryHeader := by
  obtain ⟨B, h, hB, v, p⟩ := hs.asBuilt
  have l : Lag False cfg k B d h h s s := ⟨v, v, p, p, HdrLike.refl h, rfl, rfl, rfl, fun _ => ⟨False.elim, fun _ _ => rfl⟩⟩
  obtain ⟨a, g, g', l1⟩ := course_lag hB c hs l
  obtain ⟨a', f, f', l2⟩ := course_lag hB c' hs l
  obtain ⟨u, x, e1, e2, b1, -, -, b2, -⟩ := l1.final (m := m) hs.writable
  obtain ⟨u', x', e1', e2', b1', -, -, b2', -⟩ := l2.final (m := m) hs.writable
  rw [e2] at e2'
  cases e2'
  exact ⟨a.trans a'.symm, l1.partitions.trans l2.partitions.symm, l1.guid.trans l2.guid.symm, u, u', e1, e1', b1.trans b1'.symm, b2.trans b2'.symm⟩

end

/-! ## The hypotheses are met -/

/-- On `sessDisk`: one program adds a partition, the other writes and reopens the disk before. -/
example (m : Mode) : ∃ rs t rs' t', Course m (sessDisk m) [.addPartition "b" 512 (exPart 0 0).partType 0 none Uuid.nil Uuid.nil] rs t ∧
    Course m (sessDisk m) [.addPartition "b" 512 (exPart 0 0).partType 0 none Uuid.nil Uuid.nil] rs' t' ∧
    ∃ s1 s2 d2, writeInplace m (sessDisk m) = (.ok (), s1) ∧ openFromDevice m (sessDisk m).config s1.device = (.ok s2, d2) ∧
      Course m s2 [.addPartition "b" 512 (exPart 0 0).partType 0 none Uuid.nil Uuid.nil] rs' t' := by
  obtain ⟨s1, s2, d2, e1, e2, hp, hg⟩ := sessDisk_reopens m
  have c : ∀ s, Course m s [.addPartition "b" 512 (exPart 0 0).partType 0 none Uuid.nil Uuid.nil] _ _ :=
    fun s => .call _ ⟨by decide, fun _ h => nomatch h⟩ nofun (.done _)
  exact ⟨_, _, _, _, c _, .reopen e1 e2 hp hg (c s2), s1, s2, d2, e1, e2, c s2⟩

end Gpt
