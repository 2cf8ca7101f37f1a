import Verif.Props.Outcomes
import Verif.Props.Session
/-!
# Asking for less, or with more room, never hurts: C138
-/

namespace Gpt

open Spec GptDisk

/-- A disk `add_partition` is specified for (C77): a usable range, a table of disjoint partitions inside it. -/
structure Spec.Ready (h : Header) (s : GptDisk) : Prop where
  header : s.tryHeader = .ok h
  range : Range h
  table : Tidy h s.partitions
  count : h.numParts.toNat < 2 ^ 32 - 1

/-- `s'` has at least the free blocks of `s`, and blocks of the same size. -/
structure Spec.MoreRoom (h : Header) (s : GptDisk) (h' : Header) (s' : GptDisk) : Prop where
  size : s'.config.lbSize = s.config.lbSize
  free : ∀ x, Free h s.partitions x → Free h' s'.partitions x

/-- What `align` demands includes what `align'` demands: no alignment, or one that divides that of `align`. -/
def Spec.Coarser (align align' : Option UInt64) : Prop := ∀ a', align' = some a' → a' ≠ 0 ∧ ∃ a, align = some a ∧ a'.toNat ∣ a.toNat

section
variable {m m' : Mode} {s s' : GptDisk} {h h' : Header} {name name' : String} {size size' : UInt64} {ty ty' : PType} {flags flags' : UInt64}
  {align align' : Option UInt64} {fresh fresh2 fresh' fresh2' : Uuid}

theorem Spec.MoreRoom.extent (hm : MoreRoom h s h' s') {y n n' : Nat} (hn : n' ≤ n) (hf : FreeExtent h s.partitions y n) :
    FreeExtent h' s'.partitions y n' := fun x h1 h2 => hm.free x (hf x h1 (by omega))

theorem just_enough_mono {lb : LbSize} {a b j k : Nat} (hab : a ≤ b) (h1 : JustEnough lb a j) (h2 : JustEnough lb b k) : j ≤ k :=
  h1.minimal k (hab.trans h2.enough)

theorem Spec.Insert.spaceless {id : UInt32} {p : Partition} {r : Res GptError UInt32} {t : GptDisk} (hi : Insert m h s id p r t) :
    r ≠ .err .notEnoughSpace := by
  cases hi with
  | refused => exact fun e => by cases e
  | fits => exact fun e => by cases e
  | rebuilt => exact fun e => by cases e
  | failed _ _ _ _ _ _ _ _ _ _ _ _ e =>
    rcases e with ⟨e, -⟩ | ⟨x, e, -⟩ <;> (rw [e]; exact fun e => by cases e)

theorem Spec.Insert.placed {id : UInt32} {p : Partition} {r : Res GptError UInt32} {t : GptDisk} (hi : Insert m h s id p r t)
    {i : UInt32} (hr : r = .ok i) : i = id ∧ PMap.get t.partitions id = some p := by
  cases hi with
  | refused => cases hr
  | fits t _ hp =>
    cases hr
    exact ⟨rfl, PMap.get_of_mem hp.keys hp.new⟩
  | rebuilt t _ _ _ _ hp e =>
    cases hr
    exact ⟨rfl, by rw [e]; exact PMap.get_of_mem hp.keys hp.new⟩
  | failed _ _ _ _ _ _ _ _ _ _ _ _ e =>
    rcases e with ⟨e, -⟩ | ⟨x, e, -⟩ <;> (rw [e] at hr; cases hr)

/-- **C138**, room. If the smaller request fails for lack of space where there is more room, so does the larger one where there is less. -/
theorem c138_room (hs : Ready h s) (hs' : Ready h' s') (hm : MoreRoom h s h' s') (h0 : size' ≠ 0) (hle : size' ≤ size)
    (ha0 : align ≠ some 0) (hal : ∀ a, align = some a → a.toNat ≤ 2 ^ 63) (hco : Coarser align align')
    (hf : (addPartition m' name' size' ty' flags' align' fresh' fresh2' s').1 = .err .notEnoughSpace) :
    (addPartition m name size ty flags align fresh fresh2 s).1 = .err .notEnoughSpace := by
  have hle' : size'.toNat ≤ size.toNat := UInt64.le_iff_toNat_le.mp hle
  have hpos : size ≠ 0 := by
    rintro rfl
    exact h0 (UInt64.toNat_inj.mp (by have : (0 : UInt64).toNat = 0 := rfl; omega))
  have hal' : ∀ a, align' = some a → a.toNat ≤ 2 ^ 63 := by
    intro a' e
    obtain ⟨-, a, ea, hd⟩ := hco a' e
    refine (Nat.le_of_dvd ?_ hd).trans (hal a ea)
    rcases Nat.eq_zero_or_pos a.toNat with z | z
    · exact absurd (ea.trans (congrArg some (show a = 0 from UInt64.toNat_inj.mp z))) ha0
    · exact z
  have run := c77_add_partition m name size ty flags align fresh fresh2 s h hs.header hs.range hs.table hal hs.count
  have run' := c77_add_partition m' name' size' ty' flags' align' fresh' fresh2' s' h' hs'.header hs'.range hs'.table hal' hs'.count
  rw [hf] at run'
  generalize (addPartition m' name' size' ty' flags' align' fresh' fresh2' s').2 = t' at run'
  generalize addPartition m name size ty flags align fresh fresh2 s = xx at run
  rcases xx with ⟨r, t⟩
  simp only at run ⊢
  cases run with
  | zero e => exact absurd e hpos
  | zeroAlign _ _ e => exact absurd e ha0
  | noSpace => rfl
  | insert start n id _ _ _ _ hen hdiv hfree _ _ _ =>
    exfalso
    cases run' with
    | noSpace n' _ hen' hno =>
      rw [hm.size] at hen'
      refine hno start.toNat (fun a' e _ => ?_) (hm.extent (just_enough_mono hle' hen' hen) hfree)
      obtain ⟨-, a, ea, hd⟩ := hco a' e
      exact hd.trans (hdiv a ea)
    | insert _ _ _ _ _ _ _ _ _ _ _ _ hi => exact hi.spaceless rfl

/-- **C138**, place. If both succeed, the smaller request is placed no later. -/
theorem c138_place (hs : Ready h s) (hs' : Ready h' s') (hm : MoreRoom h s h' s') (hle : size' ≤ size)
    (hal : ∀ a, align = some a → a.toNat ≤ 2 ^ 63) (hco : Coarser align align') {id id' : UInt32} {t t' : GptDisk} {p p' : Partition}
    (hx : addPartition m name size ty flags align fresh fresh2 s = (.ok id, t)) (hp : PMap.get t.partitions id = some p)
    (hx' : addPartition m' name' size' ty' flags' align' fresh' fresh2' s' = (.ok id', t')) (hp' : PMap.get t'.partitions id' = some p') :
    p'.firstLba ≤ p.firstLba ∧ p'.lastLba ≤ p.lastLba := by
  have hle' : size'.toNat ≤ size.toNat := UInt64.le_iff_toNat_le.mp hle
  have run := c77_add_partition m name size ty flags align fresh fresh2 s h hs.header hs.range hs.table hal hs.count
  rw [hx] at run
  cases run with
  | insert start n _ _ _ hz ha0 hen hdiv hfree _ _ hi =>
    have hal' : ∀ a, align' = some a → a.toNat ≤ 2 ^ 63 := by
      intro a' e
      obtain ⟨-, a, ea, hd⟩ := hco a' e
      refine (Nat.le_of_dvd ?_ hd).trans (hal a ea)
      rcases Nat.eq_zero_or_pos a.toNat with z | z
      · exact absurd (ea.trans (congrArg some (show a = 0 from UInt64.toNat_inj.mp z))) ha0
      · exact z
    have run' := c77_add_partition m' name' size' ty' flags' align' fresh' fresh2' s' h' hs'.header hs'.range hs'.table hal' hs'.count
    rw [hx'] at run'
    cases run' with
    | insert start' n' _ _ _ hz' ha0' hen' hdiv' hfree' hmin' _ hi' =>
      obtain ⟨rfl, e⟩ := hi.placed rfl
      obtain ⟨rfl, e'⟩ := hi'.placed rfl
      rw [hp] at e
      rw [hp'] at e'
      cases e
      cases e'
      rw [hm.size] at hen'
      have hnn := just_enough_mono hle' hen' hen
      have hst : start'.toNat ≤ start.toNat := by
        refine hmin' start.toNat (fun a' ea' => ?_) (hm.extent hnn hfree)
        obtain ⟨-, a, ea, hd⟩ := hco a' ea'
        exact hd.trans (hdiv a ea)
      have pos : ∀ {lb : LbSize} {z k : UInt64}, z ≠ 0 → JustEnough lb z.toNat k.toNat → 0 < k.toNat := by
        intro lb z k hz he
        rcases Nat.eq_zero_or_pos k.toNat with e | e
        · have := he.enough
          rw [e, Nat.zero_mul] at this
          exact absurd (UInt64.toNat_inj.mp (by have : (0 : UInt64).toNat = 0 := rfl; omega)) hz
        · exact e
      have p1 := pos hz hen
      have p2 := pos hz' hen'
      have l1 := (hfree (start.toNat + n.toNat - 1) (by omega) (by omega)).2.1
      have l2 := (hfree' (start'.toNat + n'.toNat - 1) (by omega) (by omega)).2.1
      have b1 := hs.range.last
      have b2 := hs'.range.last
      refine ⟨UInt64.le_iff_toNat_le.mpr hst, UInt64.le_iff_toNat_le.mpr ?_⟩
      show (start' + n' - 1).toNat ≤ (start + n - 1).toNat
      have one : (1 : UInt64).toNat = 1 := rfl
      rw [UInt64.toNat_sub_of_le _ _ (UInt64.le_iff_toNat_le.mpr (by rw [u64_add_toNat (by omega)]; omega)),
        UInt64.toNat_sub_of_le _ _ (UInt64.le_iff_toNat_le.mpr (by rw [u64_add_toNat (by omega)]; omega)),
        u64_add_toNat (by omega), u64_add_toNat (by omega)]
      omega

/-- **C138**, same room. Where the same blocks are free, the same request fails for lack of space on both disks or on neither, and goes to the
same blocks, whatever ids and labels the partitions have. -/
theorem c138_same (hs : Ready h s) (hs' : Ready h' s') (hm : MoreRoom h s h' s') (hm' : MoreRoom h' s' h s) (h0 : size ≠ 0)
    (ha : ∀ a, align = some a → a ≠ 0 ∧ a.toNat ≤ 2 ^ 63) :
    ((addPartition m name size ty flags align fresh fresh2 s).1 = .err .notEnoughSpace ↔
      (addPartition m' name' size ty' flags' align fresh' fresh2' s').1 = .err .notEnoughSpace) ∧
    ∀ id id' t t' p p', addPartition m name size ty flags align fresh fresh2 s = (.ok id, t) → PMap.get t.partitions id = some p →
      addPartition m' name' size ty' flags' align fresh' fresh2' s' = (.ok id', t') → PMap.get t'.partitions id' = some p' →
      p'.firstLba = p.firstLba ∧ p'.lastLba = p.lastLba := by
  have hco : Coarser align align := fun a e => ⟨(ha a e).1, a, e, Nat.dvd_refl _⟩
  have hal : ∀ a, align = some a → a.toNat ≤ 2 ^ 63 := fun a e => (ha a e).2
  have ha0 : align ≠ some 0 := fun e => (ha 0 e).1 rfl
  refine ⟨⟨c138_room hs' hs hm' h0 (UInt64.le_refl _) ha0 hal hco, c138_room hs hs' hm h0 (UInt64.le_refl _) ha0 hal hco⟩, ?_⟩
  intro id id' t t' p p' hx hp hx' hp'
  obtain ⟨a, b⟩ := c138_place hs hs' hm (UInt64.le_refl _) hal hco hx hp hx' hp'
  obtain ⟨c, e⟩ := c138_place hs' hs hm' (UInt64.le_refl _) hal hco hx' hp' hx hp
  exact ⟨UInt64.le_antisymm a c, UInt64.le_antisymm b e⟩

/-- **C138**, at a given place. If `add_partition_at` of fewer blocks, further on, fails for lack of space where there is more room, then of more
blocks it does so where there is less, unless the id is taken there. -/
theorem c138_at {id id' : UInt32} {first first' length length' : UInt64} (hs : Ready h s) (hs' : Ready h' s') (hm : MoreRoom h s h' s')
    (hid : id ≠ 0) (h0 : length' ≠ 0) (hle : length' ≤ length) (hfi : first ≤ first')
    (hf : (addPartitionAt m' name' id' first' length' ty' flags' fresh' fresh2' s').1 = .err .notEnoughSpace) :
    (addPartitionAt m name id first length ty flags fresh fresh2 s).1 = .err .notEnoughSpace ∨
    (addPartitionAt m name id first length ty flags fresh fresh2 s).1 = .err .partitionIdAlreadyUsed := by
  have hle' := UInt64.le_iff_toNat_le.mp hle
  have hfi' := UInt64.le_iff_toNat_le.mp hfi
  have hpos : length ≠ 0 := by
    rintro rfl
    exact h0 (UInt64.toNat_inj.mp (by have : (0 : UInt64).toNat = 0 := rfl; omega))
  have run := c76_add_partition_at m name id first length ty flags fresh fresh2 s h hs.header hs.range hs.table
  have run' := c76_add_partition_at m' name' id' first' length' ty' flags' fresh' fresh2' s' h' hs'.header hs'.range hs'.table
  rw [hf] at run'
  generalize (addPartitionAt m' name' id' first' length' ty' flags' fresh' fresh2' s').2 = t' at run'
  generalize addPartitionAt m name id first length ty flags fresh fresh2 s = xx at run
  rcases xx with ⟨r, t⟩
  simp only at run ⊢
  have no : ∀ y, y ≤ first.toNat → ¬ FreeExtent h s.partitions y length.toNat := by
    intro y hy hfree
    cases run' with
    | noSpace _ _ _ hno => exact hno y (by omega) (hm.extent hle' hfree)
    | insert _ _ _ _ _ _ _ _ _ hi => exact hi.spaceless rfl
  cases run with
  | zero e => rcases e with e | e <;> contradiction
  | taken => exact .inr rfl
  | noSpace => exact .inl rfl
  | overflow y _ _ _ hy hfree => exact absurd hfree (no y hy)
  | insert y _ _ _ _ _ hy hfree => exact absurd hfree (no y hy)

/-- **C138**, removing makes room: after `remove_partition` the disk is still one `add_partition` is specified for, with at least the free
blocks it had. -/
theorem c138_remove (hs : Ready h s) (id : UInt32) :
    Ready h ((removePartition id : M GptDisk GptError _) s).2 ∧ MoreRoom h s h ((removePartition id : M GptDisk GptError _) s).2 := by
  unfold removePartition
  cases PMap.get s.partitions id with
  | none => exact ⟨hs, rfl, fun _ hx => hx⟩
  | some p =>
    have sub : ∀ i q, (i, q) ∈ PMap.remove s.partitions id → (i, q) ∈ s.partitions := fun i q hm => (List.mem_filter.mp hm).1
    have used : ∀ q, Used (PMap.remove s.partitions id) q → Used s.partitions q := fun q ⟨i, hi, hu⟩ => ⟨i, sub i q hi, hu⟩
    have ht := hs.table
    exact ⟨⟨hs.header, hs.range, ⟨ht.keys.filter _, fun p hp => ht.order p (used p hp), fun p hp => ht.inside p (used p hp),
      fun i j p q hi hj => ht.apart i j p q (sub i p hi) (sub j q hj)⟩, hs.count⟩, rfl, fun x ⟨a, b, c⟩ => ⟨a, b, fun p hp => c p (used p hp)⟩⟩

end

/-! ## The hypotheses are met -/

theorem sessDisk_ready (m : Mode) : ∃ h, Ready h (sessDisk m) := by
  obtain ⟨h, e1, e2, e3, e4, e5, -⟩ := c67_table (sessDisk_session m)
  have hN : dev100.data.length / (GptConfig.new.setWritable true).lbSize.usize = 100 := by rw [dev100_length]; rfl
  rw [hN] at e5
  exact ⟨h, e1, ⟨by omega, by omega, by omega⟩, e2, by rw [e3]; decide⟩

/-- Before `remove_partition(1)` 15873 bytes do not fit on `sessDisk`; `c138_place` compares 1024 bytes aligned to 8 before with 512 bytes
aligned to 4 after. -/
example (m : Mode) : ∃ t t' p p',
    addPartition m "b" 1024 (exPart 0 0).partType 0 (some 8) Uuid.nil Uuid.nil (sessDisk m) = (.ok 2, t) ∧ PMap.get t.partitions 2 = some p ∧
    addPartition m "b" 512 (exPart 0 0).partType 0 (some 4) Uuid.nil Uuid.nil ((removePartition 1 : M GptDisk GptError _) (sessDisk m)).2 = (.ok 1, t') ∧
    PMap.get t'.partitions 1 = some p' ∧ p.firstLba = 40 ∧ p'.firstLba = 36 ∧ p'.firstLba ≤ p.firstLba := by
  obtain ⟨h, hs⟩ := sessDisk_ready m
  obtain ⟨hs', hm⟩ := c138_remove hs 1
  have f1 : (addPartition m "b" 1024 (exPart 0 0).partType 0 (some 8) Uuid.nil Uuid.nil (sessDisk m)).1 = .ok 2 := by cases m <;> decide +kernel
  have f2 : (PMap.get (addPartition m "b" 1024 (exPart 0 0).partType 0 (some 8) Uuid.nil Uuid.nil (sessDisk m)).2.partitions 2) =
      some ⟨(exPart 0 0).partType, Uuid.nil, 40, 41, 0, "b"⟩ := by cases m <;> decide +kernel
  have f3 : (addPartition m "b" 512 (exPart 0 0).partType 0 (some 4) Uuid.nil Uuid.nil ((removePartition 1 : M GptDisk GptError _) (sessDisk m)).2).1 = .ok 1 := by
    cases m <;> decide +kernel
  have f4 : (PMap.get (addPartition m "b" 512 (exPart 0 0).partType 0 (some 4) Uuid.nil Uuid.nil
      ((removePartition 1 : M GptDisk GptError _) (sessDisk m)).2).2.partitions 1) = some ⟨(exPart 0 0).partType, Uuid.nil, 36, 36, 0, "b"⟩ := by
    cases m <;> decide +kernel
  exact ⟨_, _, _, _, Prod.ext f1 rfl, f2, Prod.ext f3 rfl, f4, rfl, rfl,
    (c138_place hs hs' hm (by decide) (fun a e => by cases e; decide) (fun a e => by cases e; exact ⟨by decide, 8, rfl, ⟨2, rfl⟩⟩)
      (Prod.ext f1 rfl) f2 (Prod.ext f3 rfl) f4).1⟩

/-- `c138_room`: 100000 bytes do not fit even after `remove_partition(1)`, so 200000 bytes do not fit before. -/
example (m : Mode) : (addPartition m "b" 200000 (exPart 0 0).partType 0 (some 8) Uuid.nil Uuid.nil (sessDisk m)).1 = .err .notEnoughSpace := by
  obtain ⟨h, hs⟩ := sessDisk_ready m
  obtain ⟨hs', hm⟩ := c138_remove hs 1
  exact c138_room (m' := m) (name' := "b") (ty' := (exPart 0 0).partType) (flags' := 0) (fresh' := Uuid.nil) (fresh2' := Uuid.nil) (size' := 100000)
    (align' := none) hs hs' hm (by decide) (by decide) (by decide) (fun a e => by cases e; decide) (fun a e => by cases e) (by cases m <;> decide +kernel)

end Gpt
