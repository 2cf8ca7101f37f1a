import Verif.Model.Logging
import Verif.Props.Builds
import Verif.Props.Panic
/-!
# The features `log` and `tracing`: C99
-/

namespace Gpt

open GptDisk Spec

/-- `y` does what `x` does, or `x` panics, in a debug build, where `y` refuses because the number of slots may not change. -/
def M.Milder {α : Type} (m : Mode) (x y : M GptDisk GptError α) : Prop := ∀ s, y s = x s ∨
  (m = .debug ∧ s.config.changePartitionCount = false ∧ x s = (.panic, s) ∧ y s = (.err .partitionCountWouldChange, s))

namespace M.Milder

variable {α β : Type} {m : Mode}

theorem refl (x : M GptDisk GptError α) : M.Milder m x x := fun _ => .inl rfl

theorem lift {f g : β → M GptDisk GptError α} {r : Res GptError β} (h : ∀ b, M.Milder m (f b) (g b)) :
    M.Milder m (M.lift r >>= f) (M.lift r >>= g) := by
  intro s
  cases r with
  | ok b => exact h b s
  | err e => exact .inl rfl
  | panic => exact .inl rfl

theorem get {f g : GptDisk → M GptDisk GptError α} (h : ∀ s, M.Milder m (f s) (g s)) :
    M.Milder m (M.get >>= f) (M.get >>= g) := fun s => h s s

theorem mapOk {x y : M GptDisk GptError α} (f : α → β) (h : M.Milder m x y) : M.Milder m (x.mapOk f) (y.mapOk f) := by
  intro s
  rcases h s with e | ⟨h1, h2, h3, h4⟩
  · left; unfold M.mapOk; rw [e]
  · right; refine ⟨h1, h2, ?_, ?_⟩
    · unfold M.mapOk; rw [h3]
    · unfold M.mapOk; rw [h4]

end M.Milder

theorem last_cases {ε : Type} (m : Mode) (first length : UInt64) :
    (∃ e l, (add64 m first length : Res ε _) = .ok e ∧ (sub64 m e 1 : Res ε _) = .ok l) ∨
    (m = .debug ∧ ((add64 m first length : Res ε _) = .panic ∨
      ∃ e, (add64 m first length : Res ε _) = .ok e ∧ (sub64 m e 1 : Res ε _) = .panic)) := by
  have h : ∀ (b : Bool) (a : UInt64), (arith m b a : Res ε _) = .ok a ∨ (m = .debug ∧ (arith m b a : Res ε _) = .panic) := by
    intro b a
    unfold arith
    cases b with
    | true => exact .inl rfl
    | false => cases m with
      | debug => exact .inr ⟨rfl, rfl⟩
      | release => exact .inl rfl
  unfold add64
  rcases h (decide (first.toNat + length.toNat < 2 ^ 64)) (first + length) with e1 | ⟨hm, e1⟩
  · unfold sub64
    rcases h (decide ((1 : UInt64).toNat ≤ (first + length).toNat)) (first + length - 1) with e2 | ⟨hm, e2⟩
    · exact .inl ⟨_, _, e1, e2⟩
    · exact .inr ⟨hm, .inr ⟨_, e1, e2⟩⟩
  · exact .inr ⟨hm, .inl e1⟩

theorem insertPartition_milder (m : Mode) (name : String) (id : UInt32) (first length : UInt64) (ty : PType) (flags : UInt64)
    (r r2 : Uuid) : M.Milder m (insertPartition m name id first length ty flags r r2)
      (insertPartitionOff m name id first length ty flags r r2) := by
  intro s
  unfold insertPartition insertPartitionOff GptDisk.header
  simp only [M.bind_apply, M.lift_apply, M.get_apply]
  rcases last_cases (ε := GptError) m first length with ⟨e, l, e1, e2⟩ | ⟨rfl, e1 | ⟨e, e1, e2⟩⟩
  · left
    simp only [e1, e2]
    cases hh : s.tryHeader with
    | error e => rfl
    | ok h =>
      dsimp only
      split
      · rfl
      · simp only [M.bind_apply, M.lift_apply, e2]
  all_goals
    cases hh : s.tryHeader with
    | error e => left; simp only [*]
    | ok h =>
      simp only [e1]
      by_cases hc : (h.numPartsWouldChange id && !s.config.changePartitionCount) = true
      · right
        refine ⟨by trivial, ?_, ?_, ?_⟩
        · cases hx : s.config.changePartitionCount with
          | false => rfl
          | true => rw [hx] at hc; simp at hc
        · simp only [*]
        · rw [if_pos hc]; rfl
      · left
        rw [if_neg hc]
        simp only [M.bind_apply, M.lift_apply, *]

theorem addPartitionLoop_milder (m : Mode) (name : String) (sz : UInt64) (ty : PType) (flags : UInt64) (a : Option UInt64) (r r2 : Uuid) :
    ∀ l, M.Milder m (addPartitionLoop m name sz ty flags a r r2 l) (addPartitionLoopOff m name sz ty flags a r r2 l)
  | [] => .refl _
  | (start, length) :: rest => by
    unfold addPartitionLoop addPartitionLoopOff
    refine .lift fun _ => .lift fun _ => ?_
    split
    · refine .lift fun _ => .get fun _ => .lift fun o => ?_
      cases o with
      | some i => exact insertPartition_milder _ _ _ _ _ _ _ _ _
      | none => exact .lift fun _ => .lift fun _ => insertPartition_milder _ _ _ _ _ _ _ _ _
    · exact addPartitionLoop_milder m name sz ty flags a r r2 rest

theorem addPartition_milder (m : Mode) (name : String) (sz : UInt64) (ty : PType) (flags : UInt64) (a : Option UInt64) (r r2 : Uuid) :
    M.Milder m (addPartition m name sz ty flags a r r2) (addPartitionOff m name sz ty flags a r r2) := by
  unfold addPartition addPartitionOff
  split
  · exact .refl _
  · exact .get fun _ => .lift fun _ => .lift fun _ => .lift fun _ => addPartitionLoop_milder _ _ _ _ _ _ _ _ _

theorem addPartitionAtLoop_milder (m : Mode) (name : String) (id : UInt32) (first length : UInt64) (ty : PType) (flags : UInt64)
    (r r2 : Uuid) : ∀ l, M.Milder m (addPartitionAtLoop m name id first length ty flags r r2 l)
      (addPartitionAtLoopOff m name id first length ty flags r r2 l)
  | [] => .refl _
  | (start, len) :: rest => by
    unfold addPartitionAtLoop addPartitionAtLoopOff
    split
    · exact insertPartition_milder _ _ _ _ _ _ _ _ _
    · exact addPartitionAtLoop_milder m name id first length ty flags r r2 rest

theorem addPartitionAt_milder (m : Mode) (name : String) (id : UInt32) (first length : UInt64) (ty : PType) (flags : UInt64)
    (r r2 : Uuid) : M.Milder m (addPartitionAt m name id first length ty flags r r2)
      (addPartitionAtOff m name id first length ty flags r r2) := by
  unfold addPartitionAt addPartitionAtOff
  split
  · exact .refl _
  split
  · exact .refl _
  refine .get fun s => ?_
  split
  · exact .refl _
  · exact .lift fun _ => addPartitionAtLoop_milder _ _ _ _ _ _ _ _ _ _

/-! ## C99 -/

/-- **C99** in full: a call does the same whether or not the arguments of the log macros are evaluated. -/
def C99 : Prop := ∀ (m : Mode) (s : GptDisk) (off : Bool) (op : Op), Reach m anyCall s →
  op.stepLog off m s = op.step m s

/-- **C99**, partial: the two builds do the same, except that where the one that evaluates the arguments panics, the other may
refuse with `PartitionCountWouldChange` instead; the disk is left alone either way. This takes a debug build and a disk whose number
of slots may not change. Missing: that exception, which occurs (`c99_fails`). -/
theorem c99_partial (off : Bool) (m : Mode) (op : Op) (s : GptDisk) : op.stepLog off m s = op.step m s ∨
    (m = .debug ∧ s.config.changePartitionCount = false ∧ op.step m s = (.panic, s) ∧
      op.stepLog off m s = (.err .partitionCountWouldChange, s)) := by
  cases off with
  | false => left; cases op <;> rfl
  | true =>
    cases op with
    | addPartition n sz t f a r r2 => exact (addPartition_milder m n sz t f a r r2).mapOk _ s
    | addPartitionAt n i fl l t f r r2 => exact (addPartitionAt_milder m n i fl l t f r r2).mapOk _ s
    | _ => exact .inl rfl

/-- **C99**, release builds: no exception. -/
theorem c99_release (off : Bool) (op : Op) (s : GptDisk) : op.stepLog off .release s = op.step .release s :=
  (c99_partial off .release op s).resolve_right fun h => (nomatch h.1)

/-- **C99**, histories, in which the level may change from call to call: if no call panics when the arguments are evaluated, the
state in the end is the same. -/
theorem c99_history (m : Mode) (ops : List (Bool × Op)) : ∀ s,
    (∀ pre op post, ops = pre ++ op :: post → (op.2.step m (runOps m (pre.map Prod.snd) s)).1 ≠ .panic) →
    runOpsLog m ops s = runOps m (ops.map Prod.snd) s := by
  induction ops with
  | nil => exact fun _ _ => rfl
  | cons op ops ih =>
    intro s h
    have h0 : op.2.stepLog op.1 m s = op.2.step m s := (c99_partial op.1 m op.2 s).resolve_right fun hc =>
      h [] op ops rfl (by show (op.2.step m s).1 = _; rw [hc.2.2.1])
    have := ih (op.2.step m s).2 fun pre op' post e => h (op :: pre) op' post (by rw [e]; rfl)
    show runOpsLog m ops (op.2.stepLog op.1 m s).2 = _
    rw [h0, this]
    rfl

/-- The exception, on a disk just created and given one partition: an id past the 128 slots, at the last 64-bit block number. -/
theorem c99_exception : ∃ s op, Reach .debug anyCall s ∧ Allowed op ∧ (op.step .debug s).1 = .panic ∧
    (op.stepLog true .debug s).1 = .err .partitionCountWouldChange := by
  have hr := made_reach .debug GptConfig.new (d := dev100) (pp := [(1, smallPart)]) rfl (by show 0 < 2 ^ 64; decide) (by rw [dev100_length]; decide)
    enough512 (by rw [dev100_length]; rfl) (List.pairwise_singleton _ _) (by decide) rfl anyCall trivial
  exact ⟨_, .addPartitionAt "x" 129 (0 - 1) 1 (exPart 0 0).partType 0 Uuid.nil Uuid.nil, hr, ⟨by decide, by decide⟩,
    by decide +kernel, by decide +kernel⟩

/-- **C99** as stated is false. -/
theorem c99_fails : ¬ C99 := by
  intro hC
  obtain ⟨s, op, hr, -, h1, h2⟩ := c99_exception
  have h := congrArg Prod.fst (hC .debug s true op hr)
  rw [h1, h2] at h
  cases h

/-- Adding a partition to the same disk in both builds, the messages not wanted in one. -/
example (m : Mode) : ∃ (s : GptDisk) (op : Op), Reach m anyCall s ∧ (op.stepLog true m s).1 = .ok (.id 2) ∧ (op.step m s).1 = .ok (.id 2) := by
  have hr := made_reach m GptConfig.new (d := dev100) (pp := [(1, smallPart)]) rfl (by show 0 < 2 ^ 64; decide) (by rw [dev100_length]; decide)
    enough512 (by rw [dev100_length]; rfl) (List.pairwise_singleton _ _) (by decide) rfl anyCall trivial
  refine ⟨_, .addPartition "x" 512 (exPart 0 0).partType 0 none Uuid.nil Uuid.nil, hr, ?_, ?_⟩ <;> cases m <;> decide +kernel

/-- A history to which `c99_history` applies. -/
example : ∃ (s : GptDisk) (ops : List (Bool × Op)), Reach .debug anyCall s ∧ ops.length = 1 ∧
    runOpsLog .debug ops s = runOps .debug (ops.map Prod.snd) s ∧ (runOpsLog .debug ops s).partitions.length = 2 := by
  have hr := made_reach .debug GptConfig.new (d := dev100) (pp := [(1, smallPart)]) rfl (by show 0 < 2 ^ 64; decide) (by rw [dev100_length]; decide)
    enough512 (by rw [dev100_length]; rfl) (List.pairwise_singleton _ _) (by decide) rfl anyCall trivial
  refine ⟨_, [(true, .addPartition "x" 512 (exPart 0 0).partType 0 none Uuid.nil Uuid.nil)], hr, rfl, ?_, ?_⟩
  · refine c99_history _ _ _ fun pre op post e => ?_
    cases pre with
    | nil => obtain ⟨rfl, -⟩ := List.cons.inj e; decide +kernel
    | cons a as => simp at e
  · decide +kernel

end Gpt
