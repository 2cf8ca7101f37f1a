import Verif.Props.Table
import Verif.Props.Alloc
import Verif.Props.Build
/-!
# Every outcome of `add_partition` and `add_partition_at`: C76, C77

Each case of the two inductive specifications carries the full condition under which it happens, and the conditions exclude each
other.
-/

namespace Gpt

open GptDisk

namespace Spec

/-- `t'` is `t` with the entry `id` set to `p`. -/
structure Put (t t' : PMap) (id : UInt32) (p : Partition) : Prop where
  keys : t'.Pairwise (fun a b => a.1 < b.1)
  new : (id, p) ∈ t'
  others : ∀ j q, j ≠ id → ((j, q) ∈ t' ↔ (j, q) ∈ t)

/-- The coming calls to the device succeed; positions and lengths are numbers of 64 bits. -/
structure Responds (d : Dev) : Prop where
  faults : d.faults = []
  pos : d.pos < 2 ^ 64
  length : d.data.length < 2 ^ 64

/-- Putting an entry whose extent has been accepted. On a device that works the new headers are those of C87. -/
inductive Insert (m : Mode) (h : Header) (s : GptDisk) (id : UInt32) (p : Partition) : Res GptError UInt32 → GptDisk → Prop where
  /-- the slots do not suffice and may not be changed -/
  | refused : h.numParts.toNat < max id.toNat 128 → s.config.changePartitionCount = false →
      Insert m h s id p (.err .partitionCountWouldChange) s
  /-- the slots suffice -/
  | fits (t : PMap) : max id.toNat 128 ≤ h.numParts.toNat → Put s.partitions t id p →
      Insert m h s id p (.ok id) { s with partitions := t }
  /-- the slots do not suffice; the headers are rebuilt for the number of entries in the table -/
  | rebuilt (t : PMap) (s' : GptDisk) (h' : Header) : h.numParts.toNat < max id.toNat 128 → s.config.changePartitionCount = true →
      Put s.partitions t id p → s'.partitions = t → s'.config = s.config → s'.guid = s.guid → s'.syncAll = s.syncAll →
      s'.device.data = s.device.data → s'.tryHeader = .ok h' → (t.length < 2 ^ 32 → h'.numParts.toNat = max t.length 128) →
      (Responds s.device → Rebuilt m { s with partitions := t } h (.ok ()) s') →
      Insert m h s id p (.ok id) s'
  /-- ... unless that fails -/
  | failed (t : PMap) (s' : GptDisk) (r : Res GptError UInt32) (r0 : Res GptError Unit) : h.numParts.toNat < max id.toNat 128 →
      s.config.changePartitionCount = true → Put s.partitions t id p → s'.partitions = t → s'.config = s.config →
      s'.guid = s.guid → s'.syncAll = s.syncAll → s'.device.data = s.device.data → (r = .panic ∧ r0 = .panic ∨ ∃ e, r = .err (.header e) ∧ r0 = .err (.header e)) →
      (Responds s.device → Rebuilt m { s with partitions := t } h r0 s') →
      Insert m h s id p r s'

/-- `add_partition_at`. -/
inductive AddAt (m : Mode) (h : Header) (s : GptDisk) (name : String) (id : UInt32) (first length : UInt64) (ty : PType)
    (flags : UInt64) (guid : Uuid) : Res GptError UInt32 → GptDisk → Prop where
  | zero : length = 0 ∨ id = 0 → AddAt m h s name id first length ty flags guid .panic s
  | taken : length ≠ 0 → id ≠ 0 → Taken s.partitions id.toNat →
      AddAt m h s name id first length ty flags guid (.err .partitionIdAlreadyUsed) s
  | noSpace : length ≠ 0 → id ≠ 0 → ¬ Taken s.partitions id.toNat →
      (∀ y, y ≤ first.toNat → ¬ FreeExtent h s.partitions y length.toNat) →
      AddAt m h s name id first length ty flags guid (.err .notEnoughSpace) s
  | overflow (y : Nat) : length ≠ 0 → id ≠ 0 → ¬ Taken s.partitions id.toNat → y ≤ first.toNat →
      FreeExtent h s.partitions y length.toNat → m = .debug → 2 ^ 64 ≤ first.toNat + length.toNat →
      AddAt m h s name id first length ty flags guid .panic s
  | insert (y : Nat) (r : Res GptError UInt32) (s' : GptDisk) : length ≠ 0 → id ≠ 0 → ¬ Taken s.partitions id.toNat →
      y ≤ first.toNat → FreeExtent h s.partitions y length.toNat → (m = .debug → first.toNat + length.toNat < 2 ^ 64) →
      Insert m h s id ⟨ty, guid, first, first + length - 1, flags, name⟩ r s' →
      AddAt m h s name id first length ty flags guid r s'

/-- The id `add_partition` takes: the smallest free one among the slots, or the one after them. -/
def NextId (h : Header) (t : PMap) (i : Nat) : Prop :=
  1 ≤ i ∧ i ≤ h.numParts.toNat + 1 ∧ (i ≤ h.numParts.toNat → ¬ Taken t i) ∧ ∀ j, 1 ≤ j → j < i → Taken t j

/-- `add_partition`. -/
inductive Add (m : Mode) (h : Header) (s : GptDisk) (name : String) (size : UInt64) (ty : PType) (flags : UInt64) (align : Option UInt64)
    (guid : Uuid) : Res GptError UInt32 → GptDisk → Prop where
  | zero : size = 0 → Add m h s name size ty flags align guid .panic s
  | zeroAlign (x : Nat) : size ≠ 0 → align = some 0 → Free h s.partitions x → Add m h s name size ty flags align guid .panic s
  | noSpace (n : Nat) : size ≠ 0 → JustEnough s.config.lbSize size.toNat n →
      (∀ y, (∀ a, align = some a → a ≠ 0 → a.toNat ∣ y) → ¬ FreeExtent h s.partitions y n) →
      (align = some 0 → ∀ x, ¬ Free h s.partitions x) →
      Add m h s name size ty flags align guid (.err .notEnoughSpace) s
  | insert (start n : UInt64) (id : UInt32) (r : Res GptError UInt32) (s' : GptDisk) : size ≠ 0 → align ≠ some 0 →
      JustEnough s.config.lbSize size.toNat n.toNat → (∀ a, align = some a → a.toNat ∣ start.toNat) →
      FreeExtent h s.partitions start.toNat n.toNat →
      (∀ y, (∀ a, align = some a → a.toNat ∣ y) → FreeExtent h s.partitions y n.toNat → start.toNat ≤ y) →
      NextId h s.partitions id.toNat →
      Insert m h s id ⟨ty, guid, start, start + n - 1, flags, name⟩ r s' →
      Add m h s name size ty flags align guid r s'

end Spec

theorem put_insert {t : PMap} (ht : PMap.Sorted t) (id : UInt32) (p : Partition) : Spec.Put t (PMap.insert id p t) id p := by
  have hs := PMap.insert_sorted ht id p
  refine ⟨hs, ?_, fun j q hj => ?_⟩
  · rw [PMap.mem_iff_get hs, PMap.get_insert, if_pos rfl]
  · rw [PMap.mem_iff_get hs, PMap.mem_iff_get ht, PMap.get_insert, if_neg hj]

/-- `insertPartition` without overflow. -/
theorem insertPartition_spec {m : Mode} {name : String} {id : UInt32} {first length : UInt64} {ty : PType} {flags : UInt64}
    {fresh fresh2 : Uuid} {s : GptDisk} {h : Header} (hh : s.tryHeader = .ok h) (ht : PMap.Sorted s.partitions) (h0 : length ≠ 0)
    (hov : m = .debug → first.toNat + length.toNat < 2 ^ 64) :
    Spec.Insert m h s id ⟨ty, fresh, first, first + length - 1, flags, name⟩
      (insertPartition m name id first length ty flags fresh fresh2 s).1
      (insertPartition m name id first length ty flags fresh fresh2 s).2 := by
  have he1 : (add64 m first length : Res GptError _) = .ok (first + length) := by
    cases m with
    | debug => exact add64_eq .debug (hov rfl)
    | release => exact add64_release _ _
  have he2 : (sub64 m (first + length) 1 : Res GptError _) = .ok (first + length - 1) := by
    cases m with
    | debug =>
      refine sub64_eq .debug ?_
      rw [u64_add_toNat (hov rfl)]
      have h1 : (1 : UInt64).toNat = 1 := rfl
      rcases Nat.eq_zero_or_pos length.toNat with e | e
      · exact absurd (UInt64.toNat_inj.mp e) h0
      · omega
    | release => exact sub64_release _ _
  have hput := put_insert ht id ⟨ty, fresh, first, first + length - 1, flags, name⟩
  unfold insertPartition
  simp only [M.bind_apply, M.lift_apply, M.get_apply, he1, he2]
  rw [header_ok_iff.mpr hh]
  simp only
  cases hc : h.numPartsWouldChange id with
  | false =>
    simp only [Bool.false_and, Bool.false_eq_true, if_false, M.bind_apply, M.modify_apply, M.pure_apply]
    exact .fits _ ((wouldChange_false h id).mp hc) hput
  | true =>
    have hlt := (wouldChange_iff h id).mp hc
    cases hp : s.config.changePartitionCount with
    | false =>
      simp only [Bool.not_false, Bool.and_self, if_true, M.throw_apply]
      exact .refused hlt hp
    | true =>
      simp only [Bool.not_true, Bool.and_false, Bool.false_eq_true, if_false, if_true, M.bind_apply, M.modify_apply]
      rcases hi : initHeaders m fresh2 { s with partitions := PMap.insert id ⟨ty, fresh, first, first + length - 1, flags, name⟩ s.partitions } with ⟨r, s'⟩
      have hs := initHeaders_same hi
      have hre : Spec.Responds s.device → Spec.Rebuilt m { s with partitions := PMap.insert id ⟨ty, fresh, first, first + length - 1, flags, name⟩ s.partitions } h r s' := by
        intro hd
        have := rebuilt_run (m := m) (s := { s with partitions := PMap.insert id ⟨ty, fresh, first, first + length - 1, flags, name⟩ s.partitions }) fresh2
          hh hd.faults hd.pos hd.length
        rw [hi] at this
        exact this
      cases r with
      | err e =>
        obtain ⟨e', rfl⟩ := initHeaders_err hi
        exact .failed _ s' _ _ hlt hp hput hs.partitions hs.config hs.guid hs.syncAll hs.device.data (.inr ⟨e', rfl, rfl⟩) hre
      | panic => exact .failed _ s' _ _ hlt hp hput hs.partitions hs.config hs.guid hs.syncAll hs.device.data (.inl ⟨rfl, rfl⟩) hre
      | ok u =>
        rcases initHeaders_any hi with ⟨_, _, hne⟩ | ⟨bak, h1, _, hb, hprim, _⟩
        · exact absurd rfl hne
        · refine .rebuilt _ s' h1 hlt hp hput hs.partitions hs.config hs.guid hs.syncAll hs.device.data ?_ ?_ hre
          · unfold GptDisk.tryHeader
            rw [hprim]
          · intro hl
            rw [(build_numParts hb).1]
            show (max32 (UInt32.ofNat _) minNumParts).toNat = _
            rw [max32_toNat, u32_ofNat_toNat hl]
            rfl

/-- **C76**. -/
theorem c76_add_partition_at (m : Mode) (name : String) (id : UInt32) (first length : UInt64) (ty : PType) (flags : UInt64)
    (fresh fresh2 : Uuid) (s : GptDisk) (h : Header) (hh : s.tryHeader = .ok h) (hr : Spec.Range h)
    (ht : Spec.Tidy h s.partitions) :
    Spec.AddAt m h s name id first length ty flags fresh
      (addPartitionAt m name id first length ty flags fresh fresh2 s).1
      (addPartitionAt m name id first length ty flags fresh fresh2 s).2 := by
  by_cases h0 : length = 0
  · unfold addPartitionAt
    rw [if_pos h0]
    exact .zero (.inl h0)
  by_cases hid : id = 0
  · unfold addPartitionAt
    rw [if_neg h0, if_pos hid]
    exact .zero (.inr hid)
  have hpos : 1 ≤ length.toNat := by
    rcases Nat.eq_zero_or_pos length.toNat with e | e
    · exact absurd (UInt64.toNat_inj.mp e) h0
    · exact e
  obtain ⟨L, hL, hsec⟩ := findFreeSectors_sections (ε := GptError) m s hh hr ht
  rw [addPartitionAt_eq h0 hid hL]
  by_cases htk : Spec.Taken s.partitions id.toNat
  · rw [if_pos ((any_used_iff ht.keys id).mpr htk)]
    exact .taken h0 hid htk
  rw [if_neg (fun e => htk ((any_used_iff ht.keys id).mp e))]
  by_cases hex : ∃ sec ∈ L, sec.1.toNat ≤ first.toNat ∧ length.toNat ≤ sec.2.toNat
  · rw [addPartitionAtLoop_accepts hex]
    obtain ⟨sec, hs, h1, h2⟩ := hex
    have hfree : Spec.FreeExtent h s.partitions sec.1.toNat length.toNat := hsec.inside hs (Nat.le_refl _) (by omega)
    by_cases hov : m = .debug ∧ 2 ^ 64 ≤ first.toNat + length.toNat
    · obtain ⟨rfl, hov⟩ := hov
      have : insertPartition .debug name id first length ty flags fresh fresh2 s = (.panic, s) := by
        unfold insertPartition
        have hp : (add64 .debug first length : Res GptError _) = .panic := arith_panic.mpr ⟨rfl, decide_eq_false (by omega)⟩
        simp only [M.bind_apply, M.lift_apply, hp]
      rw [this]
      exact .overflow _ h0 hid htk h1 hfree rfl hov
    · exact .insert _ _ _ h0 hid htk h1 hfree (fun e => by by_contra hc; exact hov ⟨e, by omega⟩)
        (insertPartition_spec hh ht.keys h0 (fun e => by by_contra hc; exact hov ⟨e, by omega⟩))
  · have hnone : addPartitionAtLoop m name id first length ty flags fresh fresh2 L s = (.err .notEnoughSpace, s) := by
      clear hL hsec
      induction L with
      | nil => rfl
      | cons sec rest ih =>
        unfold addPartitionAtLoop
        rw [if_neg]
        · exact ih (fun ⟨x, hx, e⟩ => hex ⟨x, List.mem_cons_of_mem _ hx, e⟩)
        · rintro ⟨e1, e2⟩
          exact hex ⟨sec, List.mem_cons_self, e1, e2⟩
    rw [hnone]
    refine .noSpace h0 hid htk fun y hy hf => hex ?_
    obtain ⟨sec, hs, e1, e2⟩ := hsec.extent hpos hf
    exact ⟨sec, hs, by omega, by omega⟩

/-- The id is determined. -/
theorem pickId_next (m : Mode) {s : GptDisk} {h : Header} (hh : s.tryHeader = .ok h) (hk : PMap.Sorted s.partitions)
    (hn : h.numParts.toNat < 2 ^ 32 - 1) : ∃ id, PickId m s id ∧ Spec.NextId h s.partitions id.toNat := by
  have h1 : (1 : UInt32).toNat = 1 := rfl
  by_cases hne : s.partitions = []
  · refine ⟨1, .inl ?_, ?_⟩
    · unfold findNextPartitionId
      rw [if_pos hne]
    · rw [hne, h1]
      refine ⟨Nat.le_refl _, by omega, fun _ => ?_, fun j hj1 hj2 => by omega⟩
      rintro ⟨_, _, hm, _⟩
      simp at hm
  · obtain ⟨r, h2, h3, h4⟩ := c24_next_id s hh hk (.inl hne)
    cases r with
    | some i =>
      obtain ⟨a, b, c, d⟩ := h3 i rfl
      exact ⟨i, .inl h2, a, by omega, fun _ => c, d⟩
    | none =>
      have hadd : (h.numParts + 1).toNat = h.numParts.toNat + 1 := by
        rw [UInt32.toNat_add, h1, Nat.mod_eq_of_lt (by omega)]
      refine ⟨h.numParts + 1, .inr ⟨h2, h, hh, ?_⟩, ?_⟩
      · exact add32_eq m (by rw [h1]; omega)
      · rw [hadd]
        exact ⟨by omega, Nat.le_refl _, fun hc => by omega, fun j hj1 hj2 => (h4.mp rfl) j hj1 (by omega)⟩

/-- The loop stops at the first section that fits. -/
theorem addPartitionLoop_first {m : Mode} {name : String} {n : UInt64} {ty : PType} {flags : UInt64}
    {align : Option UInt64} {fresh fresh2 : Uuid} {pre post : List (UInt64 × UInt64)} {sec : UInt64 × UInt64} {s : GptDisk}
    {id : UInt32} (ha : ∀ a, align = some a → a ≠ 0 ∧ a.toNat + n.toNat ≤ 2 ^ 64) (hpre : ∀ x ∈ pre, ¬ Fits align n x)
    (hf : Fits align n sec) (hb : sec.1.toNat + sec.2.toNat < 2 ^ 64) (hid : PickId m s id) :
    addPartitionLoop m name n ty flags align fresh fresh2 (pre ++ sec :: post) s =
      insertPartition m name id (UInt64.ofNat (sec.1.toNat + offNat sec.1.toNat align)) n ty flags fresh fresh2 s := by
  have hoff : ∀ st : UInt64, (UInt64.ofNat (offNat st.toNat align)).toNat = offNat st.toNat align ∧
      offNat st.toNat align + n.toNat < 2 ^ 64 := by
    intro st
    cases align with
    | none => simp only [offNat]; exact ⟨rfl, by have := n.toNat_lt; omega⟩
    | some a =>
      have h1 := offNat_lt (start := st.toNat) (ha a rfl).1
      have h2 := (ha a rfl).2
      have h3 := a.toNat_lt
      exact ⟨u64_ofNat_toNat (by omega), by omega⟩
  induction pre with
  | nil =>
    obtain ⟨st, len⟩ := sec
    obtain ⟨o1, o2⟩ := hoff st
    unfold Fits at hf
    simp only at hf hb
    have hstart : st + UInt64.ofNat (offNat st.toNat align) = UInt64.ofNat (st.toNat + offNat st.toNat align) := by
      apply UInt64.toNat_inj.mp
      rw [u64_add_toNat (by rw [o1]; omega), o1, u64_ofNat_toNat (by omega)]
    rw [List.nil_append]
    unfold addPartitionLoop
    simp only [M.bind_apply, M.lift_apply]
    rw [alignmentOffset_eq m st (fun a h => (ha a h).1)]
    simp only
    rw [add64_eq m (by omega)]
    simp only
    rw [if_pos (by rw [ge_iff_le, UInt64.le_iff_toNat_le, u64_add_toNat (by omega), o1]; exact hf)]
    simp only [M.bind_apply, M.lift_apply, M.get_apply]
    rw [add64_eq m (by rw [o1]; omega), hstart]
    simp only
    rcases hid with hid | ⟨hid, h, hh, hadd⟩
    · rw [hid]
      rfl
    · rw [hid]
      simp only [M.bind_apply, M.lift_apply]
      rw [header_ok_iff.mpr hh]
      simp only
      rw [hadd]
  | cons x pre ih =>
    obtain ⟨st, len⟩ := x
    obtain ⟨o1, o2⟩ := hoff st
    have hx := hpre _ List.mem_cons_self
    rw [List.cons_append]
    conv_lhs => unfold addPartitionLoop
    simp only [M.bind_apply, M.lift_apply]
    rw [alignmentOffset_eq m st (fun a h => (ha a h).1)]
    simp only
    rw [add64_eq m (by omega)]
    simp only
    rw [if_neg]
    · exact ih (fun y hy => hpre y (List.mem_cons_of_mem _ hy))
    · rw [ge_iff_le, UInt64.le_iff_toNat_le, u64_add_toNat (by omega), o1]
      exact hx

/-- A list has a first element with a property, or none. -/
theorem first_or_none {α : Type} (p : α → Prop) (L : List α) :
    (∀ x ∈ L, ¬ p x) ∨ ∃ pre x post, L = pre ++ x :: post ∧ (∀ y ∈ pre, ¬ p y) ∧ p x := by
  induction L with
  | nil => exact .inl (by simp)
  | cons a L ih =>
    by_cases ha : p a
    · exact .inr ⟨[], a, L, rfl, by simp, ha⟩
    · rcases ih with ih | ⟨pre, x, post, h1, h2, h3⟩
      · exact .inl (by rintro x hx; rcases List.mem_cons.mp hx with rfl | hx <;> [exact ha; exact ih x hx])
      · exact .inr ⟨a :: pre, x, post, by rw [h1]; rfl,
          by rintro x hx; rcases List.mem_cons.mp hx with rfl | hx <;> [exact ha; exact h2 x hx], h3⟩

/-- **C77**. -/
theorem c77_add_partition (m : Mode) (name : String) (size : UInt64) (ty : PType) (flags : UInt64) (align : Option UInt64)
    (fresh fresh2 : Uuid) (s : GptDisk) (h : Header) (hh : s.tryHeader = .ok h) (hr : Spec.Range h)
    (ht : Spec.Tidy h s.partitions) (hal : ∀ a, align = some a → a.toNat ≤ 2 ^ 63) (hn : h.numParts.toNat < 2 ^ 32 - 1) :
    Spec.Add m h s name size ty flags align fresh
      (addPartition m name size ty flags align fresh fresh2 s).1
      (addPartition m name size ty flags align fresh fresh2 s).2 := by
  by_cases h0 : size = 0
  · subst h0
    rw [addPartition_zero]
    exact .zero rfl
  obtain ⟨L, hL, hsec⟩ := findFreeSectors_sections (ε := GptError) m s hh hr ht
  obtain ⟨n, hnn, heq⟩ := addPartition_eq m name h0 ty flags align fresh fresh2 s
  obtain ⟨hje, hb⟩ := sizeLba_spec (lb := s.config.lbSize) h0
  rw [← hnn] at hje hb
  have hn1 : 1 ≤ n.toNat := by rw [hnn]; exact Nat.le_add_left 1 _
  rw [heq L hL]
  by_cases ha0 : align = some 0
  · subst ha0
    cases L with
    | nil =>
      have hno : ∀ x, ¬ Spec.Free h s.partitions x := fun x hx => by
        obtain ⟨_, hm, _⟩ := (hsec.covers x).mpr hx
        simp at hm
      exact .noSpace n.toNat h0 hje (fun y _ hf => hno y (hf y (Nat.le_refl _) (by omega))) (fun _ => hno)
    | cons sec rest =>
      have hx : Spec.Free h s.partitions sec.1.toNat :=
        (hsec.covers _).mp ⟨sec, List.mem_cons_self, by
          have := hsec.nonempty sec List.mem_cons_self
          unfold InSect
          omega⟩
      have hp : addPartitionLoop m name n ty flags (some 0) fresh fresh2 (sec :: rest) s = (.panic, s) := by
        obtain ⟨st, len⟩ := sec
        unfold addPartitionLoop
        simp [M.bind_apply, M.lift_apply, alignmentOffset, rem64]
      rw [hp]
      exact .zeroAlign _ h0 rfl hx
  have hne : ∀ a, align = some a → a ≠ 0 := by rintro a rfl rfl; exact ha0 rfl
  have ha : ∀ a, align = some a → a ≠ 0 ∧ a.toNat + n.toNat ≤ 2 ^ 64 := fun a e => ⟨hne a e, by have := hal a e; omega⟩
  have hAl : ∀ y, (∀ a, align = some a → a.toNat ∣ y) → Aligned align y := fun _ hy => hy
  rcases first_or_none (Fits align n) L with hnone | ⟨pre, sec, post, h1, h2, h3⟩
  · rw [addPartitionLoop_none ha hnone]
    refine .noSpace n.toNat h0 hje (fun y hy hf => ?_) (fun e => absurd e ha0)
    obtain ⟨sy, hsy, hy1, hy2⟩ := hsec.extent hn1 hf
    apply hnone sy hsy
    have := (offNat_spec sy.1.toNat hne).2 y hy1 (hAl y (fun a e => hy a e (hne a e)))
    unfold Fits
    omega
  · obtain ⟨id, hid, hnext⟩ := pickId_next m hh ht.keys hn
    have hmem : sec ∈ L := by rw [h1]; simp
    have hbd := hsec.bound sec hmem
    have hlast := hr.last
    have hsp := offNat_spec sec.1.toNat hne
    have h3' := h3
    unfold Fits at h3'
    have hstart : (UInt64.ofNat (sec.1.toNat + offNat sec.1.toNat align)).toNat = sec.1.toNat + offNat sec.1.toNat align :=
      u64_ofNat_toNat (by omega)
    rw [h1, addPartitionLoop_first ha h2 h3 (by omega) hid]
    refine .insert _ n id _ _ h0 ha0 hje ?_ ?_ ?_ hnext (insertPartition_spec hh ht.keys ?_ (fun _ => by rw [hstart]; omega))
    · rw [hstart]
      exact hsp.1
    · rw [hstart]
      exact hsec.inside hmem (by omega) (by omega)
    · intro y hy hfree
      obtain ⟨sy, hsy, hy1, hy2⟩ := hsec.extent hn1 hfree
      rw [hstart]
      rw [h1] at hsy
      rcases List.mem_append.mp hsy with hsy | hsy
      · exfalso
        apply h2 sy hsy
        have := (offNat_spec sy.1.toNat hne).2 y hy1 (hAl y hy)
        unfold Fits
        omega
      · rcases List.mem_cons.mp hsy with rfl | hsy
        · exact hsp.2 y hy1 (hAl y hy)
        · have hpw := hsec.apart
          rw [h1, List.pairwise_append] at hpw
          obtain ⟨p, _, hp⟩ := (List.pairwise_cons.mp hpw.2.1).1 sy hsy
          omega
    · rintro rfl
      exact absurd hn1 (by decide)

/-! ## The outcome is determined

Each specification admits exactly one result and one state, if the device works or no header is rebuilt. -/

theorem put_unique {t t1 t2 : PMap} {id : UInt32} {p : Partition} (h1 : Spec.Put t t1 id p) (h2 : Spec.Put t t2 id p) : t1 = t2 := by
  refine PMap.ext h1.keys h2.keys fun k => ?_
  by_cases hk : k = id
  · subst hk
    rw [PMap.get_of_mem h1.keys h1.new, PMap.get_of_mem h2.keys h2.new]
  · refine Option.ext fun q => ?_
    rw [← PMap.mem_iff_get h1.keys, ← PMap.mem_iff_get h2.keys, h1.others k q hk, h2.others k q hk]

/-- No header is rebuilt, or the device works. -/
def Spec.Settled (h : Header) (s : GptDisk) (id : UInt32) : Prop :=
  max id.toNat 128 ≤ h.numParts.toNat ∨ s.config.changePartitionCount = false ∨ Responds s.device

theorem insert_unique {m : Mode} {h : Header} {s : GptDisk} {id : UInt32} {p : Partition} {r r' : Res GptError UInt32} {t t' : GptDisk}
    (hs : Spec.Settled h s id) (h1 : Spec.Insert m h s id p r t) (h2 : Spec.Insert m h s id p r' t') : r = r' ∧ t = t' := by
  have hd : h.numParts.toNat < max id.toNat 128 → s.config.changePartitionCount = true → Spec.Responds s.device := by
    intro a b
    rcases hs with hs | hs | hs
    · omega
    · rw [b] at hs; cases hs
    · exact hs
  cases h1 with
  | refused a b =>
    cases h2 with
    | refused => exact ⟨rfl, rfl⟩
    | fits _ c => omega
    | rebuilt _ _ _ c d => rw [b] at d; cases d
    | failed _ _ _ _ c d => rw [b] at d; cases d
  | fits t a b =>
    cases h2 with
    | refused c => omega
    | fits t' c d => rw [put_unique b d]; exact ⟨rfl, rfl⟩
    | rebuilt _ _ _ c d => omega
    | failed _ _ _ _ c d => omega
  | rebuilt t1 _ _ a1 a2 a3 _ _ _ _ _ _ _ a4 =>
    have a4 := a4 (hd a1 a2)
    cases h2 with
    | refused _ b => rw [a2] at b; cases b
    | fits _ b => omega
    | rebuilt t2 _ _ b1 b2 b3 _ _ _ _ _ _ _ b4 =>
      obtain rfl := put_unique a3 b3
      exact ⟨rfl, (rebuilt_unique a4 (b4 (hd a1 a2))).2⟩
    | failed t2 _ _ r0 b1 b2 b3 _ _ _ _ _ b5 b4 =>
      obtain rfl := put_unique a3 b3
      have := (rebuilt_unique a4 (b4 (hd a1 a2))).1
      subst this
      rcases b5 with ⟨-, e⟩ | ⟨e, -, e'⟩ <;> contradiction
  | failed t1 _ _ r0 a1 a2 a3 _ _ _ _ _ a5 a4 =>
    have a4 := a4 (hd a1 a2)
    cases h2 with
    | refused _ b => rw [a2] at b; cases b
    | fits _ b => omega
    | rebuilt t2 _ _ b1 b2 b3 _ _ _ _ _ _ _ b4 =>
      obtain rfl := put_unique a3 b3
      have := (rebuilt_unique a4 (b4 (hd a1 a2))).1
      subst this
      rcases a5 with ⟨-, e⟩ | ⟨e, -, e'⟩ <;> contradiction
    | failed t2 _ _ r1 b1 b2 b3 _ _ _ _ _ b5 b4 =>
      obtain rfl := put_unique a3 b3
      obtain ⟨rfl, e⟩ := rebuilt_unique a4 (b4 (hd a1 a2))
      refine ⟨?_, e⟩
      rcases a5 with ⟨rfl, rfl⟩ | ⟨e, rfl, rfl⟩ <;> rcases b5 with ⟨rfl, q⟩ | ⟨e', rfl, q⟩
      · rfl
      · cases q
      · cases q
      · cases q; rfl

/-- **C76**, the table of outcomes leaves no choice. -/
theorem c76_determined {m : Mode} {h : Header} {s : GptDisk} {name : String} {id : UInt32} {first length : UInt64} {ty : PType}
    {flags : UInt64} {guid : Uuid} {r r' : Res GptError UInt32} {t t' : GptDisk} (hs : Spec.Settled h s id)
    (h1 : Spec.AddAt m h s name id first length ty flags guid r t) (h2 : Spec.AddAt m h s name id first length ty flags guid r' t') :
    r = r' ∧ t = t' := by
  cases h1 with
  | zero a =>
    cases h2 with
    | zero => exact ⟨rfl, rfl⟩
    | taken b c => rcases a with a | a <;> contradiction
    | noSpace b c => rcases a with a | a <;> contradiction
    | overflow _ b c => rcases a with a | a <;> contradiction
    | insert _ _ _ b c => rcases a with a | a <;> contradiction
  | taken a b c =>
    cases h2 with
    | zero d => rcases d with d | d <;> contradiction
    | taken => exact ⟨rfl, rfl⟩
    | noSpace _ _ d => contradiction
    | overflow _ _ _ d => contradiction
    | insert _ _ _ _ _ d => contradiction
  | noSpace a b c d =>
    cases h2 with
    | zero e => rcases e with e | e <;> contradiction
    | taken _ _ e => contradiction
    | noSpace => exact ⟨rfl, rfl⟩
    | overflow y _ _ _ e f => exact absurd f (d y e)
    | insert y _ _ _ _ _ e f => exact absurd f (d y e)
  | overflow y a b c d e f g =>
    cases h2 with
    | zero k => rcases k with k | k <;> contradiction
    | taken _ _ k => contradiction
    | noSpace _ _ _ k => exact absurd e (k y d)
    | overflow => exact ⟨rfl, rfl⟩
    | insert _ _ _ _ _ _ _ _ k => have := k f; omega
  | insert y _ _ a b c d e f g =>
    cases h2 with
    | zero k => rcases k with k | k <;> contradiction
    | taken _ _ k => contradiction
    | noSpace _ _ _ k => exact absurd e (k y d)
    | overflow _ _ _ _ _ _ k l => have := f k; omega
    | insert _ _ _ _ _ _ _ _ _ k => exact insert_unique hs g k

theorem nextId_unique {h : Header} {t : PMap} {i j : Nat} (h1 : Spec.NextId h t i) (h2 : Spec.NextId h t j) : i = j := by
  obtain ⟨a1, a2, a3, a4⟩ := h1
  obtain ⟨b1, b2, b3, b4⟩ := h2
  rcases Nat.lt_trichotomy i j with hlt | rfl | hlt
  · exact absurd (b4 i a1 hlt) (a3 (by omega))
  · rfl
  · exact absurd (a4 j b1 hlt) (b3 (by omega))

/-- **C77**, the table of outcomes leaves no choice. -/
theorem c77_determined {m : Mode} {h : Header} {s : GptDisk} {name : String} {size : UInt64} {ty : PType} {flags : UInt64}
    {align : Option UInt64} {guid : Uuid} {r r' : Res GptError UInt32} {t t' : GptDisk}
    (hs : ∀ id : UInt32, Spec.NextId h s.partitions id.toNat → Spec.Settled h s id)
    (h1 : Spec.Add m h s name size ty flags align guid r t) (h2 : Spec.Add m h s name size ty flags align guid r' t') :
    r = r' ∧ t = t' := by
  cases h1 with
  | zero a =>
    cases h2 with
    | zero => exact ⟨rfl, rfl⟩
    | zeroAlign => exact ⟨rfl, rfl⟩
    | noSpace _ b => contradiction
    | insert _ _ _ _ _ b => contradiction
  | zeroAlign x a b c =>
    cases h2 with
    | zero => exact ⟨rfl, rfl⟩
    | zeroAlign => exact ⟨rfl, rfl⟩
    | noSpace _ _ _ _ d => exact absurd c (d b x)
    | insert _ _ _ _ _ _ d => contradiction
  | noSpace n a b c d =>
    cases h2 with
    | zero e => contradiction
    | zeroAlign x _ e f => exact absurd f (d e x)
    | noSpace => exact ⟨rfl, rfl⟩
    | insert start k _ _ _ _ e f g i =>
      rw [justEnough_unique f b] at i
      exact absurd i (c _ (fun a ha _ => g a ha))
  | insert start n id _ _ a b c d e f g i =>
    cases h2 with
    | zero k => contradiction
    | zeroAlign _ _ k => contradiction
    | noSpace k _ l o =>
      rw [justEnough_unique c l] at e
      exact absurd e (o _ (fun a ha _ => d a ha))
    | insert start' n' id' _ _ _ _ c' d' e' f' g' i' =>
      obtain rfl : n = n' := UInt64.toNat_inj.mp (justEnough_unique c c')
      obtain rfl : start = start' := UInt64.toNat_inj.mp (Nat.le_antisymm (f _ d' e') (f' _ d e))
      obtain rfl : id = id' := UInt32.toNat_inj.mp (nextId_unique g g')
      exact insert_unique (hs _ g) i i'

/-- **C76**, both together: on a device that works, result and state are those of the table, and no others. -/
theorem c76_exact (m : Mode) (name : String) (id : UInt32) (first length : UInt64) (ty : PType) (flags : UInt64)
    (fresh fresh2 : Uuid) (s s' : GptDisk) (h : Header) (r : Res GptError UInt32) (hh : s.tryHeader = .ok h) (hr : Spec.Range h)
    (ht : Spec.Tidy h s.partitions) (hd : Spec.Responds s.device) :
    addPartitionAt m name id first length ty flags fresh fresh2 s = (r, s') ↔ Spec.AddAt m h s name id first length ty flags fresh r s' := by
  have run := c76_add_partition_at m name id first length ty flags fresh fresh2 s h hh hr ht
  constructor
  · intro e
    rw [e] at run
    exact run
  · intro e
    obtain ⟨e1, e2⟩ := c76_determined (.inr (.inr hd)) run e
    exact Prod.ext e1 e2

/-- **C77**, both together. -/
theorem c77_exact (m : Mode) (name : String) (size : UInt64) (ty : PType) (flags : UInt64) (align : Option UInt64)
    (fresh fresh2 : Uuid) (s s' : GptDisk) (h : Header) (r : Res GptError UInt32) (hh : s.tryHeader = .ok h) (hr : Spec.Range h)
    (ht : Spec.Tidy h s.partitions) (hal : ∀ a, align = some a → a.toNat ≤ 2 ^ 63) (hn : h.numParts.toNat < 2 ^ 32 - 1)
    (hd : Spec.Responds s.device) :
    addPartition m name size ty flags align fresh fresh2 s = (r, s') ↔ Spec.Add m h s name size ty flags align fresh r s' := by
  have run := c77_add_partition m name size ty flags align fresh fresh2 s h hh hr ht hal hn
  constructor
  · intro e
    rw [e] at run
    exact run
  · intro e
    obtain ⟨e1, e2⟩ := c77_determined (fun _ _ => .inr (.inr hd)) run e
    exact Prod.ext e1 e2

/-- The hypotheses hold for the disk of the examples; its slots suffice for the ids up to 128. -/
example : exDisk.tryHeader = .ok exHeader ∧ Spec.Range exHeader ∧ Spec.Tidy exHeader exDisk.partitions ∧
    exHeader.numParts.toNat < 2 ^ 32 - 1 ∧ Spec.Settled exHeader exDisk 128 :=
  ⟨rfl, exHeader_range, exTable_tidy, by decide, .inl (by decide)⟩

/-- Cases of C76: placed, taken, no space, both panics. -/
example : (addPartitionAt .debug "n" 3 50 10 (exPart 0 0).partType 0 ⟨0, 0, 0, 8⟩ Uuid.nil exDisk).1 = .ok 3 ∧
    (addPartitionAt .debug "n" 2 50 10 (exPart 0 0).partType 0 ⟨0, 0, 0, 8⟩ Uuid.nil exDisk).1 = .err .partitionIdAlreadyUsed ∧
    (addPartitionAt .debug "n" 3 50 60 (exPart 0 0).partType 0 ⟨0, 0, 0, 8⟩ Uuid.nil exDisk).1 = .err .notEnoughSpace ∧
    (addPartitionAt .debug "n" 3 50 0 (exPart 0 0).partType 0 ⟨0, 0, 0, 8⟩ Uuid.nil exDisk).1 = .panic ∧
    (addPartitionAt .debug "n" 3 0xFFFFFFFFFFFFFFFF 1 (exPart 0 0).partType 0 ⟨0, 0, 0, 8⟩ Uuid.nil exDisk).1 = .panic ∧
    (addPartitionAt .debug "n" 200 50 10 (exPart 0 0).partType 0 ⟨0, 0, 0, 8⟩ Uuid.nil exDisk).1 =
      .err .partitionCountWouldChange := by
  refine ⟨?_, ?_, ?_, ?_, ?_, ?_⟩ <;> decide +kernel

/-- Cases of C77. -/
example : (addPartition .debug "n" 5000 (exPart 0 0).partType 0 (some 8) ⟨0, 0, 0, 8⟩ Uuid.nil exDisk).1 = .ok 3 ∧
    (addPartition .debug "n" 50000 (exPart 0 0).partType 0 none ⟨0, 0, 0, 8⟩ Uuid.nil exDisk).1 = .err .notEnoughSpace ∧
    (addPartition .debug "n" 5000 (exPart 0 0).partType 0 (some 0) ⟨0, 0, 0, 8⟩ Uuid.nil exDisk).1 = .panic := by
  refine ⟨?_, ?_, ?_⟩ <;> decide +kernel

/-- A case of `c76_exact` in which the headers are to be rebuilt: there is no device for them, the entry is in the table nonetheless. -/
example : Spec.Responds exDisk.device ∧
    (addPartitionAt .debug "n" 200 50 10 (exPart 0 0).partType 0 ⟨0, 0, 0, 8⟩ Uuid.nil
      { exDisk with config := { exDisk.config with changePartitionCount := true } }).1 = .err (.header .toSmallForBackup) ∧
    (addPartitionAt .debug "n" 200 50 10 (exPart 0 0).partType 0 ⟨0, 0, 0, 8⟩ Uuid.nil
      { exDisk with config := { exDisk.config with changePartitionCount := true } }).2.partitions.length = exTable.length + 1 :=
  ⟨⟨rfl, by decide, by decide⟩, by decide +kernel, by decide +kernel⟩

end Gpt
