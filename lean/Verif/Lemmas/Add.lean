import Verif.Lemmas.Free
import Verif.Lemmas.HeaderIo
/-!
# `init_headers`, `add_partition` and `add_partition_at`
-/

namespace Gpt

namespace GptDisk

/-- Everything but the headers is as before, and the device content too. -/
structure SameTable (s s' : GptDisk) : Prop where
  config : s'.config = s.config
  guid : s'.guid = s.guid
  partitions : s'.partitions = s.partitions
  syncAll : s'.syncAll = s.syncAll
  device : Dev.Quiet s.device s'.device

theorem sameTable_chain : M.Chain SameTable where
  refl s := ⟨rfl, rfl, rfl, rfl, Dev.Quiet.refl _⟩
  trans _ _ _ h1 h2 := ⟨h2.config.trans h1.config, h2.guid.trans h1.guid, h2.partitions.trans h1.partitions,
    h2.syncAll.trans h1.syncAll, h1.device.trans h2.device⟩

theorem onDev_sameTable {ε ε' α : Type} (g : ε → ε') {x : M Dev ε α} (hx : M.Pres Dev.Quiet x) :
    M.Pres SameTable (onDev g x) := fun s => ⟨rfl, rfl, rfl, rfl, hx s.device⟩

/-- `init_headers` changes only the two in-memory headers, whatever happens. -/
theorem initHeaders_sameTable (m : Mode) (fresh : Uuid) : M.Pres SameTable (initHeaders m fresh) := by
  unfold initHeaders
  refine M.Pres.bind sameTable_chain (M.Pres.get sameTable_chain) fun s => ?_
  refine M.Pres.bind sameTable_chain (onDev_sameTable _ (findBackupLba_quiet _)) fun bak => ?_
  refine M.Pres.bind sameTable_chain (M.Pres.lift sameTable_chain _) fun h1 => ?_
  refine M.Pres.bind sameTable_chain (fun s => ⟨rfl, rfl, rfl, rfl, Dev.Quiet.refl _⟩) fun _ => ?_
  split
  · exact M.Pres.pure sameTable_chain _
  · refine M.Pres.bind sameTable_chain (M.Pres.lift sameTable_chain _) fun h2 => ?_
    exact fun s => ⟨rfl, rfl, rfl, rfl, Dev.Quiet.refl _⟩

theorem initHeaders_same {m : Mode} {fresh : Uuid} {s s' : GptDisk} {r : Res GptError Unit}
    (h : initHeaders m fresh s = (r, s')) : SameTable s s' := by
  have := initHeaders_sameTable m fresh s
  rw [h] at this
  exact this

/-- `init_headers` fails only with header errors. -/
theorem initHeaders_err {m : Mode} {fresh : Uuid} {s s' : GptDisk} {e : GptError}
    (h : initHeaders m fresh s = (.err e, s')) : ∃ e', e = .header e' := by
  unfold initHeaders at h
  simp only [M.bind_apply, M.get_apply] at h
  have hb : ∀ lb e0 s1 s2, (onDev GptError.header (findBackupLba lb) s1) = (.err e0, s2) → ∃ e', e0 = .header e' := by
    intro lb e0 s1 s2 hx
    unfold onDev at hx
    simp only [M.zoom_apply, M.mapErr_apply, Prod.mk.injEq, Res.mapErr_eq_err] at hx
    obtain ⟨⟨e1, _, h2⟩, _⟩ := hx
    exact ⟨e1, h2.symm⟩
  rcases hx : onDev GptError.header (findBackupLba s.config.lbSize) s with ⟨r, s1⟩
  rw [hx] at h
  cases r with
  | panic => simp at h
  | err e0 =>
    simp only [Prod.mk.injEq, Res.err.injEq] at h
    rw [← h.1]
    exact hb _ _ _ _ hx
  | ok bak =>
    simp only [M.lift_apply] at h
    split at h
    · simp only [M.modify_apply] at h
      split at h
      · simp at h
      · simp only [M.bind_apply, M.lift_apply] at h
        split at h
        · simp at h
        · rename_i heq
          simp only [Prod.mk.injEq, Res.err.injEq, Res.mapErr_eq_err] at h heq
          obtain ⟨⟨e1, _, h2⟩, _⟩ := heq
          exact ⟨e1, by rw [← h.1, ← h2]⟩
        · simp at h
    · rename_i heq
      simp only [Prod.mk.injEq, Res.err.injEq, Res.mapErr_eq_err] at h heq
      obtain ⟨⟨e1, _, h2⟩, _⟩ := heq
      exact ⟨e1, by rw [← h.1, ← h2]⟩
    · simp at h

/-! ## Inserting -/

theorem header_ok_iff {ε : Type} {s : GptDisk} {h : Header} : (s.header : Res ε Header) = .ok h ↔ s.tryHeader = .ok h := by
  unfold header
  split <;> simp_all

/-- What a successful `insertPartition` did. -/
theorem insertPartition_ok {m : Mode} {name : String} {id id' : UInt32} {first length : UInt64} {ty : PType}
    {flags : UInt64} {fresh fresh2 : Uuid} {s s' : GptDisk}
    (h : insertPartition m name id first length ty flags fresh fresh2 s = (.ok id', s')) :
    id' = id ∧
    s'.partitions = PMap.insert id ⟨ty, fresh, first, first + length - 1, flags, name⟩ s.partitions ∧
    s'.config = s.config ∧ s'.guid = s.guid ∧ s'.syncAll = s.syncAll ∧ Dev.Quiet s.device s'.device ∧
    (m = .debug → first.toNat + length.toNat < 2 ^ 64 ∧ 1 ≤ (first + length).toNat) := by
  unfold insertPartition at h
  simp only [M.bind_ok, M.lift_ok, M.get_ok] at h
  obtain ⟨e, _, ⟨he, rfl⟩, last, _, ⟨hl, rfl⟩, _, _, ⟨rfl, rfl⟩, hdr, _, ⟨hh, rfl⟩, h⟩ := h
  have he' := add64_ok he
  have hl' := sub64_ok hl
  have hdbg : m = .debug → first.toNat + length.toNat < 2 ^ 64 ∧ 1 ≤ (first + length).toNat := by
    rintro rfl
    unfold add64 at he
    unfold sub64 at hl
    rw [arith_debug_ok] at he hl
    rw [he'] at hl
    exact ⟨by simpa using he.1, by simpa using hl.1⟩
  subst he'; subst hl'
  split at h
  · simp [M.throw_ok] at h
  · simp only [M.bind_ok, M.modify_ok] at h
    obtain ⟨_, s1, rfl, h⟩ := h
    split at h
    · rw [M.bind_ok] at h
      obtain ⟨_, s2, hi, h⟩ := h
      rw [M.pure_ok] at h
      have hk := initHeaders_same hi
      obtain ⟨rfl, rfl⟩ := h
      exact ⟨rfl, hk.partitions, hk.config, hk.guid, hk.syncAll, hk.device, hdbg⟩
    · rw [M.pure_ok] at h
      obtain ⟨rfl, rfl⟩ := h
      exact ⟨rfl, rfl, rfl, rfl, rfl, Dev.Quiet.refl _, hdbg⟩

/-- The errors of `insertPartition`. -/
theorem insertPartition_err {m : Mode} {name : String} {id : UInt32} {first length : UInt64} {ty : PType}
    {flags : UInt64} {fresh fresh2 : Uuid} {s s' : GptDisk} {e : GptError}
    (h : insertPartition m name id first length ty flags fresh fresh2 s = (.err e, s')) :
    e = .partitionCountWouldChange ∨ ∃ e', e = .header e' := by
  unfold insertPartition at h
  simp only [M.bind_apply, M.lift_apply, M.get_apply] at h
  split at h
  · split at h
    · split at h
      · split at h
        · simp only [M.throw_apply, Prod.mk.injEq, Res.err.injEq] at h
          exact .inl h.1.symm
        · simp only [M.bind_apply, M.modify_apply] at h
          split at h
          · rw [M.bind_apply] at h
            split at h
            · simp at h
            · rename_i heq
              simp only [Prod.mk.injEq, Res.err.injEq] at h
              obtain ⟨rfl, rfl⟩ := h
              exact .inr (initHeaders_err heq)
            · simp at h
          · simp at h
      · rename_i heq
        simp only [Prod.mk.injEq] at heq
        unfold header at heq
        split at heq <;> simp at heq
      · simp at h
    · rename_i heq
      simp only [Prod.mk.injEq] at heq
      exact absurd heq.1 arith_ne_err
    · simp at h
  · rename_i heq
    simp only [Prod.mk.injEq] at heq
    exact absurd heq.1 arith_ne_err
  · simp at h

/-! ## Alignment -/

/-- Distance from `start` up to the next multiple. -/
def offNat (start : Nat) : Option UInt64 → Nat
  | some a => (a.toNat - start % a.toNat) % a.toNat
  | none => 0

/-- A multiple of the requested alignment. -/
def Aligned (align : Option UInt64) (x : Nat) : Prop := ∀ a, align = some a → a.toNat ∣ x

theorem alignmentOffset_eq {ε : Type} (m : Mode) (start : UInt64) {align : Option UInt64}
    (ha : ∀ a, align = some a → a ≠ 0) :
    (alignmentOffset m start align : Res ε _) = .ok (UInt64.ofNat (offNat start.toNat align)) := by
  cases align with
  | none => rfl
  | some a =>
    have ha0 := ha a rfl
    have hpos : 0 < a.toNat := by
      rcases Nat.eq_zero_or_pos a.toNat with h | h
      · exact absurd (UInt64.toNat_inj.mp h) ha0
      · exact h
    have hlt := Nat.mod_lt start.toNat hpos
    have hr : (start % a).toNat = start.toNat % a.toNat := UInt64.toNat_mod _ _
    unfold alignmentOffset rem64
    simp only
    rw [if_neg ha0, Res.ok_bind, sub64_eq m (by rw [hr]; omega), Res.ok_bind, if_neg ha0]
    congr 1
    apply UInt64.toNat_inj.mp
    rw [UInt64.toNat_mod, u64_sub_toNat (by rw [hr]; omega), hr]
    rw [UInt64.toNat_ofNat', Nat.mod_eq_of_lt (b := 2 ^ 64)]
    · rfl
    unfold offNat
    exact Nat.lt_trans (Nat.mod_lt _ hpos) a.toNat_lt

theorem alignmentOffset_ok {ε : Type} {m : Mode} {start off : UInt64} {align : Option UInt64}
    (h : (alignmentOffset m start align : Res ε _) = .ok off) :
    (∀ a, align = some a → a ≠ 0) ∧ off.toNat = offNat start.toNat align := by
  have ha : ∀ a, align = some a → a ≠ 0 := by
    rintro a rfl rfl
    simp [alignmentOffset, rem64] at h
  refine ⟨ha, ?_⟩
  rw [alignmentOffset_eq m start ha, Res.ok.injEq] at h
  rw [← h, UInt64.toNat_ofNat', Nat.mod_eq_of_lt]
  cases align with
  | none => simp [offNat]
  | some a =>
    have hpos : 0 < a.toNat := by
      rcases Nat.eq_zero_or_pos a.toNat with h | h
      · exact absurd (UInt64.toNat_inj.mp h) (ha a rfl)
      · exact h
    exact Nat.lt_trans (Nat.mod_lt _ hpos) a.toNat_lt

/-- `start + offNat` is the lowest aligned block from `start` on. -/
theorem offNat_spec (start : Nat) {align : Option UInt64} (ha : ∀ a, align = some a → a ≠ 0) :
    Aligned align (start + offNat start align) ∧
    ∀ y, start ≤ y → Aligned align y → start + offNat start align ≤ y := by
  cases align with
  | none => exact ⟨by intro a h; simp at h, fun y hy _ => by simpa [offNat] using hy⟩
  | some a =>
    have hpos : 0 < a.toNat := by
      rcases Nat.eq_zero_or_pos a.toNat with h | h
      · exact absurd (UInt64.toNat_inj.mp h) (ha a rfl)
      · exact h
    unfold offNat
    simp only
    have hal : ∀ x, Aligned (some a) x ↔ a.toNat ∣ x := by
      intro x; exact ⟨fun h => h a rfl, fun h b hb => by rw [← Option.some.inj hb]; exact h⟩
    simp only [hal]
    generalize a.toNat = n at *
    have hd := Nat.div_add_mod start n
    have hlt := Nat.mod_lt start hpos
    by_cases h0 : start % n = 0
    · rw [h0, Nat.sub_zero, Nat.mod_self, Nat.add_zero]
      exact ⟨Nat.dvd_of_mod_eq_zero h0, fun y hy _ => hy⟩
    · rw [Nat.mod_eq_of_lt (by omega)]
      have he : start + (n - start % n) = n * (start / n + 1) := by rw [Nat.mul_add, Nat.mul_one]; omega
      rw [he]
      refine ⟨Nat.dvd_mul_right _ _, ?_⟩
      rintro y hy ⟨k, rfl⟩
      refine Nat.mul_le_mul_left n ?_
      by_contra hk
      have : n * k ≤ n * (start / n) := Nat.mul_le_mul_left n (by omega)
      omega

/-! ## The loops -/

/-- The aligned extent of `n` blocks fits the section. -/
def Fits (align : Option UInt64) (n : UInt64) (sec : UInt64 × UInt64) : Prop :=
  offNat sec.1.toNat align + n.toNat ≤ sec.2.toNat

/-- The id `add_partition` takes. -/
def PickId (m : Mode) (s : GptDisk) (id : UInt32) : Prop :=
  (s.findNextPartitionId : Res GptError _) = .ok (some id) ∨
  ((s.findNextPartitionId : Res GptError _) = .ok none ∧
    ∃ h, s.tryHeader = .ok h ∧ (add32 m h.numParts 1 : Res GptError _) = .ok id)

theorem offNat_lt {start : Nat} {a : UInt64} (ha : a ≠ 0) : offNat start (some a) < a.toNat := by
  refine Nat.mod_lt _ ?_
  rcases Nat.eq_zero_or_pos a.toNat with h | h
  · exact absurd (UInt64.toNat_inj.mp h) ha
  · exact h

/-- No 64-bit wrap-around in `alignment_offset_lba + size_lba`: overflow checks are on, or the alignment is small. -/
def NoWrap (m : Mode) (align : Option UInt64) (n : UInt64) : Prop :=
  m = .debug ∨ ∀ a, align = some a → a.toNat + n.toNat ≤ 2 ^ 64

theorem need_ok {ε : Type} {m : Mode} {align : Option UInt64} {n : UInt64} (hm : NoWrap m align n) {start off need : UInt64}
    (ho : (alignmentOffset m start align : Res ε _) = .ok off) (hn : (add64 m off n : Res ε _) = .ok need) :
    need.toNat = offNat start.toNat align + n.toNat := by
  obtain ⟨ha, hoff⟩ := alignmentOffset_ok ho
  have hr := add64_ok hn
  have hlt : off.toNat + n.toNat < 2 ^ 64 := by
    rcases hm with rfl | hm
    · unfold add64 at hn
      rw [arith_debug_ok] at hn
      simpa using hn.1
    · cases align with
      | none =>
        rw [hoff]
        have := n.toNat_lt
        simp only [offNat]
        omega
      | some a =>
        have h1 := hm a rfl
        have h2 := offNat_lt (start := start.toNat) (ha a rfl)
        omega
  rw [hr, u64_add_toNat hlt, hoff]

theorem addPartitionLoop_ok {m : Mode} {name : String} {n : UInt64} {ty : PType} {flags : UInt64}
    {align : Option UInt64} {fresh fresh2 : Uuid} {L : List (UInt64 × UInt64)} {s s' : GptDisk} {id : UInt32}
    (hm : NoWrap m align n)
    (h : addPartitionLoop m name n ty flags align fresh fresh2 L s = (.ok id, s')) :
    (∀ a, align = some a → a ≠ 0) ∧
    ∃ pre sec post, L = pre ++ sec :: post ∧ (∀ x ∈ pre, ¬ Fits align n x) ∧ Fits align n sec ∧ PickId m s id ∧
      ∃ start, (add64 m sec.1 (UInt64.ofNat (offNat sec.1.toNat align)) : Res GptError _) = .ok start ∧
        insertPartition m name id start n ty flags fresh fresh2 s = (.ok id, s') := by
  induction L with
  | nil => simp [addPartitionLoop, M.throw_ok] at h
  | cons sec rest ih =>
    obtain ⟨st, len⟩ := sec
    unfold addPartitionLoop at h
    simp only [M.bind_ok, M.lift_ok] at h
    obtain ⟨off, s1, ⟨ho, rfl⟩, need, s2, ⟨hn, rfl⟩, h⟩ := h
    have hneed := need_ok hm ho hn
    split at h
    · rename_i hge
      simp only [M.bind_ok, M.lift_ok, M.get_ok] at h
      obtain ⟨start, s3, ⟨hs, rfl⟩, s4, s5, ⟨h4, h5⟩, id?, s6, ⟨hid, h6⟩, h⟩ := h
      subst h4 h5 h6
      have hoff := alignmentOffset_ok ho
      rw [alignmentOffset_eq m st hoff.1, Res.ok.injEq] at ho
      have hfit : Fits align n (st, len) := by
        unfold Fits
        simp only
        rw [ge_iff_le, UInt64.le_iff_toNat_le] at hge
        omega
      have key : PickId m s6 id ∧ insertPartition m name id start n ty flags fresh fresh2 s6 = (.ok id, s') := by
        cases id? with
        | some i =>
          simp only [M.bind_ok, M.pure_ok] at h
          obtain ⟨i', s7, ⟨rfl, rfl⟩, h⟩ := h
          obtain rfl := (insertPartition_ok h).1
          exact ⟨.inl hid, h⟩
        | none =>
          simp only [M.bind_ok, M.lift_ok] at h
          obtain ⟨hd, s8, ⟨h1, rfl⟩, i', s9, ⟨h3, rfl⟩, h⟩ := h
          obtain rfl := (insertPartition_ok h).1
          exact ⟨.inr ⟨hid, hd, header_ok_iff.mp h1, h3⟩, h⟩
      exact ⟨hoff.1, [], (st, len), rest, rfl, by simp, hfit, key.1, start, by rw [ho]; exact hs, key.2⟩
    · rename_i hlt
      obtain ⟨ha, pre, sec, post, h1, h2, h3⟩ := ih h
      refine ⟨ha, (st, len) :: pre, sec, post, by rw [h1]; rfl, ?_, h3⟩
      intro x hx
      rcases List.mem_cons.mp hx with rfl | hx
      · unfold Fits
        simp only
        rw [ge_iff_le, UInt64.le_iff_toNat_le] at hlt
        omega
      · exact h2 x hx

/-- The rest of the loop body once a section was chosen never reports `NotEnoughSpace`. -/
theorem addPartitionLoop_notEnough {m : Mode} {name : String} {n : UInt64} {ty : PType} {flags : UInt64}
    {align : Option UInt64} {fresh fresh2 : Uuid} {L : List (UInt64 × UInt64)} {s s' : GptDisk}
    (h : addPartitionLoop m name n ty flags align fresh fresh2 L s = (.err .notEnoughSpace, s')) :
    s' = s ∧ ∀ x ∈ L, (∀ a, align = some a → a ≠ 0) ∧ ¬ Fits align n x := by
  induction L with
  | nil =>
    simp only [addPartitionLoop, M.throw_apply, Prod.mk.injEq] at h
    exact ⟨h.2.symm, by simp⟩
  | cons sec rest ih =>
    obtain ⟨st, len⟩ := sec
    unfold addPartitionLoop at h
    simp only [M.bind_apply, M.lift_apply, M.get_apply] at h
    cases ho : (alignmentOffset m st align : Res GptError UInt64) with
    | panic => rw [ho] at h; simp at h
    | err e =>
      exfalso
      cases align with
      | none => simp [alignmentOffset] at ho
      | some a =>
        by_cases ha : a = 0
        · simp [alignmentOffset, rem64, ha] at ho
        · rw [alignmentOffset_eq m st (by intro b hb; rw [← Option.some.inj hb]; exact ha)] at ho
          simp at ho
    | ok off =>
      rw [ho] at h
      simp only at h
      cases hn : (add64 m off n : Res GptError UInt64) with
      | panic => rw [hn] at h; simp at h
      | err e => exact absurd hn arith_ne_err
      | ok need =>
        rw [hn] at h
        simp only at h
        obtain ⟨ha, hoff⟩ := alignmentOffset_ok ho
        have hneed : need.toNat ≤ offNat st.toNat align + n.toNat := by
          rw [add64_ok hn, UInt64.toNat_add, hoff]
          exact Nat.mod_le _ _
        split at h
        · exfalso
          simp only [M.bind_apply, M.lift_apply, M.get_apply] at h
          split at h
          · split at h
            · split at h
              · simp only [M.bind_apply, M.pure_apply] at h
                rcases insertPartition_err h with h | ⟨e', h⟩ <;> simp at h
              · simp only [M.bind_apply, M.lift_apply] at h
                split at h
                · split at h
                  · rcases insertPartition_err h with h | ⟨e', h⟩ <;> simp at h
                  · rename_i heq
                    simp only [Prod.mk.injEq] at heq
                    exact arith_ne_err heq.1
                  · simp at h
                · rename_i heq
                  simp only [Prod.mk.injEq] at heq
                  unfold header at heq
                  split at heq <;> simp at heq
                · simp at h
            · rename_i heq
              simp only [Prod.mk.injEq] at heq
              unfold findNextPartitionId at heq
              split at heq
              · simp at heq
              · unfold header at heq
                split at heq <;> simp at heq
            · simp at h
          · rename_i heq
            simp only [Prod.mk.injEq] at heq
            exact arith_ne_err heq.1
          · simp at h
        · rename_i hlt
          obtain ⟨h1, h2⟩ := ih h
          refine ⟨h1, ?_⟩
          intro x hx
          rcases List.mem_cons.mp hx with rfl | hx
          · refine ⟨ha, ?_⟩
            unfold Fits
            simp only
            rw [ge_iff_le, UInt64.le_iff_toNat_le] at hlt
            omega
          · exact h2 x hx

/-- When nothing fits, the loop reports `NotEnoughSpace` and changes nothing. -/
theorem addPartitionLoop_none {m : Mode} {name : String} {n : UInt64} {ty : PType} {flags : UInt64}
    {align : Option UInt64} {fresh fresh2 : Uuid} {L : List (UInt64 × UInt64)} {s : GptDisk}
    (ha : ∀ a, align = some a → a ≠ 0 ∧ a.toNat + n.toNat ≤ 2 ^ 64) (hL : ∀ x ∈ L, ¬ Fits align n x) :
    addPartitionLoop m name n ty flags align fresh fresh2 L s = (.err .notEnoughSpace, s) := by
  induction L with
  | nil => rfl
  | cons sec rest ih =>
    obtain ⟨st, len⟩ := sec
    have hf := hL _ List.mem_cons_self
    have hoff : (UInt64.ofNat (offNat st.toNat align)).toNat = offNat st.toNat align ∧
        offNat st.toNat align + n.toNat < 2 ^ 64 := by
      cases align with
      | none => simp only [offNat]; exact ⟨rfl, by have := n.toNat_lt; omega⟩
      | some a =>
        have h1 := offNat_lt (start := st.toNat) (ha a rfl).1
        have h2 := (ha a rfl).2
        have h3 := a.toNat_lt
        exact ⟨u64_ofNat_toNat (by omega), by omega⟩
    unfold addPartitionLoop
    simp only [M.bind_apply, M.lift_apply, M.get_apply]
    rw [alignmentOffset_eq m st (fun a h => (ha a h).1)]
    simp only
    rw [add64_eq m (by omega)]
    simp only
    rw [if_neg]
    · exact ih (fun x hx => hL x (List.mem_cons_of_mem _ hx))
    · rw [ge_iff_le, UInt64.le_iff_toNat_le, u64_add_toNat (by omega), hoff.1]
      exact hf

/-- What a successful `add_partition_at` loop found. -/
theorem addPartitionAtLoop_ok {m : Mode} {name : String} {id id' : UInt32} {first n : UInt64} {ty : PType} {flags : UInt64}
    {fresh fresh2 : Uuid} {L : List (UInt64 × UInt64)} {s s' : GptDisk}
    (h : addPartitionAtLoop m name id first n ty flags fresh fresh2 L s = (.ok id', s')) :
    (∃ sec ∈ L, sec.1.toNat ≤ first.toNat ∧ n.toNat ≤ sec.2.toNat) ∧
      insertPartition m name id first n ty flags fresh fresh2 s = (.ok id', s') := by
  induction L with
  | nil => simp [addPartitionAtLoop, M.throw_ok] at h
  | cons sec rest ih =>
    unfold addPartitionAtLoop at h
    split at h
    · rename_i hc
      rw [ge_iff_le, UInt64.le_iff_toNat_le, UInt64.le_iff_toNat_le] at hc
      exact ⟨⟨sec, List.mem_cons_self, hc⟩, h⟩
    · obtain ⟨⟨x, hx, hc⟩, h2⟩ := ih h
      exact ⟨⟨x, List.mem_cons_of_mem _ hx, hc⟩, h2⟩

theorem addPartitionAtLoop_accepts {m : Mode} {name : String} {id : UInt32} {first n : UInt64} {ty : PType} {flags : UInt64}
    {fresh fresh2 : Uuid} {L : List (UInt64 × UInt64)} {s : GptDisk}
    (h : ∃ sec ∈ L, sec.1.toNat ≤ first.toNat ∧ n.toNat ≤ sec.2.toNat) :
    addPartitionAtLoop m name id first n ty flags fresh fresh2 L s =
      insertPartition m name id first n ty flags fresh fresh2 s := by
  induction L with
  | nil => obtain ⟨_, h, _⟩ := h; simp at h
  | cons sec rest ih =>
    unfold addPartitionAtLoop
    split
    · rfl
    · rename_i hc
      rw [ge_iff_le, UInt64.le_iff_toNat_le, UInt64.le_iff_toNat_le] at hc
      obtain ⟨x, hx, hcx⟩ := h
      rcases List.mem_cons.mp hx with rfl | hx
      · exact absurd hcx hc
      · exact ih ⟨x, hx, hcx⟩

end GptDisk

end Gpt
