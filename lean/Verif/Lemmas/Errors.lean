import Verif.Lemmas.Steps
import Verif.Lemmas.WriteMem
/-!
# Which errors a call can return
-/

namespace Gpt

namespace M

variable {σ τ ε ε' α β : Type}

/-- Every error `x` can return satisfies `P`. -/
def Errs (P : ε → Prop) (x : M σ ε α) : Prop := ∀ s e, (x s).1 = .err e → P e

theorem Errs.bind {P : ε → Prop} {x : M σ ε α} {f : α → M σ ε β} (hx : Errs P x) (hf : ∀ a, Errs P (f a)) : Errs P (x >>= f) := by
  intro s e h
  have h0 := hx s
  rw [bind_apply] at h
  rcases hxs : x s with ⟨r, s1⟩
  rw [hxs] at h h0
  cases r with
  | ok a => exact hf a s1 e h
  | err e' =>
    simp only [Res.err.injEq] at h
    exact h0 e (by rw [h])
  | panic => cases h

theorem Errs.pure {P : ε → Prop} (a : α) : Errs P (Pure.pure a : M σ ε α) := fun s e h => by cases h
theorem Errs.panic {P : ε → Prop} : Errs P (M.panic : M σ ε α) := fun s e h => by cases h
theorem Errs.throw {P : ε → Prop} {e : ε} (h : P e) : Errs P (M.throw e : M σ ε α) := fun s e' h' => by
  cases h'; exact h
theorem Errs.mapErr {P : ε' → Prop} {x : M σ ε α} {g : ε → ε'} (h : ∀ e, P (g e)) : Errs P (x.mapErr g) := fun s e he => by
  rw [mapErr_apply] at he
  simp only [Res.mapErr_eq_err] at he
  obtain ⟨e0, -, rfl⟩ := he
  exact h e0

end M

namespace GptDisk

theorem onDev_errs {ε ε' α : Type} {P : ε' → Prop} {g : ε → ε'} (x : M Dev ε α) (h : ∀ e, P (g e)) : M.Errs P (onDev g x) := by
  intro s e he
  unfold onDev at he
  rw [M.zoom_apply] at he
  exact M.Errs.mapErr h _ _ he

theorem onDev_id_errs {ε α : Type} {P : ε → Prop} {x : M Dev ε α} (h : M.Errs P x) : M.Errs P (onDev id x) := by
  intro s e he
  unfold onDev at he
  rw [M.zoom_apply, M.mapErr_apply] at he
  simp only [Res.mapErr_eq_err] at he
  obtain ⟨e0, h0, rfl⟩ := he
  exact h _ _ h0

/-- The errors of the writing part. -/
def WriteErr (full : Prop) : GptError → Prop
  | .io _ => True
  | .header _ => True
  | .overflowPartitionCount => full
  | _ => False

theorem writeEntries_errs (m : Mode) (lb : LbSize) (ph : Header) (bh : Option Header) : ∀ (ps : List Partition) (idx next : Nat),
    M.Errs (WriteErr (ph.numParts.toNat < idx + ps.length ∨ ∃ b, bh = some b ∧ b.numParts.toNat < idx + ps.length))
      (writeEntries m lb ph bh ps idx next)
  | [], _, _ => M.Errs.pure _
  | p :: ps, idx, next => by
    have ih := writeEntries_errs m lb ph bh ps (idx + 1) (idx + 1)
    have hl : idx + 1 + ps.length = idx + (p :: ps).length := by rw [List.length_cons]; omega
    rw [hl] at ih
    unfold writeEntries
    split
    · rename_i h
      exact M.Errs.throw (.inl (by rw [List.length_cons]; omega))
    · refine M.Errs.bind (M.Errs.mapErr fun _ => trivial) fun _ => ?_
      split
      · rename_i b
        split
        · rename_i h
          exact M.Errs.bind (M.Errs.throw (.inr ⟨b, rfl, by rw [List.length_cons]; omega⟩)) fun _ => ih
        · split
          · exact M.Errs.bind (M.Errs.mapErr fun _ => trivial) fun _ => ih
          · exact ih
      · exact ih

theorem writeZeros_errs (m : Mode) (lb : LbSize) (h : Header) (next : Nat) (full : Prop) :
    M.Errs (WriteErr full) (writeZeros m lb h next) := by
  unfold writeZeros
  split
  · exact M.Errs.bind (M.Errs.pure _) fun _ => M.Errs.mapErr fun _ => trivial
  · exact M.Errs.bind M.Errs.panic fun _ => M.Errs.mapErr fun _ => trivial

theorem writeRest_errs (m : Mode) (lb : LbSize) (ph : Header) (bh : Option Header) (parts : List Partition) (sync : Bool) :
    M.Errs (WriteErr (ph.numParts.toNat < parts.length ∨ ∃ b, bh = some b ∧ b.numParts.toNat < parts.length))
      (writeRest m lb ph bh parts sync) := by
  unfold writeRest
  have hw := writeEntries_errs m lb ph bh parts 0 0
  rw [Nat.zero_add] at hw
  refine M.Errs.bind (onDev_id_errs hw) fun next => ?_
  refine M.Errs.bind (onDev_id_errs (writeZeros_errs _ _ _ _ _)) fun _ => ?_
  have hfin : M.Errs (WriteErr (ph.numParts.toNat < parts.length ∨ ∃ b, bh = some b ∧ b.numParts.toNat < parts.length))
      (do
        onPrimary ph (Header.writePrimary lb)
        onDev .io Dev.flush
        if sync then onDev .io Dev.syncAll else pure ()) := by
    refine M.Errs.bind ?_ fun _ => M.Errs.bind (onDev_errs _ fun _ => trivial) fun _ => ?_
    · intro s e he
      unfold onPrimary at he
      simp only at he
      split at he <;> simp only [reduceCtorEq, Res.err.injEq] at he
      subst he; trivial
    · split
      · exact onDev_errs _ fun _ => trivial
      · exact M.Errs.pure _
  cases bh with
  | none => exact hfin
  | some b =>
    refine M.Errs.bind (onDev_id_errs (writeZeros_errs _ _ _ _ _)) fun _ => M.Errs.bind ?_ fun _ => hfin
    intro s e he
    unfold onBackup at he
    simp only at he
    split at he <;> simp only [reduceCtorEq, Res.err.injEq] at he
    subst he; trivial

/-- The errors of `write_inplace`. -/
theorem writeInplace_errs {m : Mode} {s : GptDisk} {e : GptError} (he : (writeInplace m s).1 = .err e) :
    (e = .readOnly ∧ s.config.writable = false) ∨
    (s.config.writable = true ∧ WriteErr (∃ h ph, s.tryHeader = .ok h ∧ primaryOf m h s.config.lbSize = .ok ph ∧
      (ph.numParts.toNat < (usedParts s.partitions).length ∨
       ∃ b, backupOf m ph s.config.lbSize = .ok b ∧ b.numParts.toNat < (usedParts s.partitions).length)) e) := by
  rw [writeInplace_eq] at he
  split at he
  · rename_i hw
    simp only [Res.err.injEq] at he
    exact .inl ⟨he.symm, hw⟩
  rename_i hw
  refine .inr ⟨by simpa using hw, ?_⟩
  split at he
  · simp only [Res.err.injEq] at he; subst he; trivial
  · cases he
  · split at he
    · cases he
    · rename_i h hh
      split at he
      · simp only [Res.err.injEq] at he; subst he; trivial
      · cases he
      · rename_i ph hph
        split at he
        · have := writeRest_errs _ _ _ _ _ _ _ _ he
          revert this
          unfold WriteErr
          split <;> try exact id
          rintro (hl | ⟨b, hb, -⟩)
          · exact ⟨h, ph, hh, hph, .inl hl⟩
          · cases hb
        · split at he
          · simp only [Res.err.injEq] at he; subst he; trivial
          · cases he
          · rename_i bh hbh
            have := writeRest_errs _ _ _ _ _ _ _ _ he
            revert this
            unfold WriteErr
            split <;> try exact id
            rintro (hl | ⟨b, hb, hl⟩)
            · exact ⟨h, ph, hh, hph, .inl hl⟩
            · cases hb; exact ⟨h, ph, hh, hph, .inr ⟨_, hbh, hl⟩⟩

end GptDisk

end Gpt
