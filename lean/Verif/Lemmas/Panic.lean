import Verif.Lemmas.WritePlan
import Verif.Lemmas.Errors
import Verif.Lemmas.Sections
import Verif.Lemmas.Init
import Verif.Props.Table
/-!
# When calls do not panic

In a release build arithmetic wraps, so only the explicit `assert!`s, `unwrap`s and remainders by zero are left. In a debug build
every `+`, `-` and `*` has to stay in range as well.
-/

namespace Gpt

theorem M.np_bind {σ ε α β : Type} {x : M σ ε α} {f : α → M σ ε β} {s : σ} (h : (x s).1 ≠ .panic)
    (hf : ∀ a s', x s = (.ok a, s') → (f a s').1 ≠ .panic) : ((x >>= f) s).1 ≠ .panic := by
  rw [M.bind_apply]
  rcases hx : x s with ⟨r, s1⟩
  rw [hx] at h
  cases r with
  | ok a => exact hf a s1 hx
  | err e => simp
  | panic => exact absurd rfl h

theorem add64_or {ε : Type} {m : Mode} {a b : UInt64} (h : m = .release ∨ a.toNat + b.toNat < 2 ^ 64) :
    (add64 m a b : Res ε UInt64) = .ok (a + b) := by
  rcases h with rfl | h
  · exact add64_release a b
  · exact add64_eq m h

theorem sub64_or {ε : Type} {m : Mode} {a b : UInt64} (h : m = .release ∨ b.toNat ≤ a.toNat) :
    (sub64 m a b : Res ε UInt64) = .ok (a - b) := by
  rcases h with rfl | h
  · exact sub64_release a b
  · exact sub64_eq m h

theorem add32_or {ε : Type} {m : Mode} {a b : UInt32} (h : m = .release ∨ a.toNat + b.toNat < 2 ^ 32) :
    (add32 m a b : Res ε UInt32) = .ok (a + b) := by
  rcases h with rfl | h
  · exact add32_release a b
  · exact add32_eq m h

/-! ## `build` -/

theorem HeaderBuilder.build_release {b : HeaderBuilder} {lb : LbSize} : b.build .release lb ≠ .panic := by
  unfold HeaderBuilder.build HeaderBuilder.divCeil
  simp only [mul32_release, sub64_release, add64_release, Res.ok_bind, Res.pure_eq]
  split
  · simp
  · cases checkedSub64 b.backupLba _ with
    | none => simp [Res.ofOption]
    | some v =>
      simp only [Res.ofOption_some, Res.ok_bind]
      split
      · simp
      · split <;> simp

theorem HeaderBuilder.build_or {m : Mode} {b : HeaderBuilder} {lb : LbSize}
    (h : m = .release ∨ b.numParts.toNat * b.partSize.toNat < 2 ^ 32 ∧ b.outStart lb < 2 ^ 64) : b.build m lb ≠ .panic := by
  rcases h with rfl | h
  · exact build_release
  · exact build_noPanic h.1 h.2

theorem HeaderBuilder.build_sig {m : Mode} {b : HeaderBuilder} {lb : LbSize} {h : Header} (hb : b.build m lb = .ok h) :
    h.signature = efiPart := by
  unfold HeaderBuilder.build at hb
  split at hb
  · simp at hb
  · simp only [Res.bind_eq_ok] at hb
    obtain ⟨_, _, _, _, _, _, _, _, _, _, hb⟩ := hb
    split at hb
    · simp at hb
    · split at hb
      all_goals
        rw [Res.bind_eq_ok] at hb
        obtain ⟨_, _, hb⟩ := hb
        simp only [Res.pure_eq, Res.ok.injEq] at hb
        rw [← hb]

namespace GptDisk

/-! ## `find_free_sectors` -/

theorem mem_insertSorted {x y : UInt64} : ∀ {l : List UInt64}, y ∈ insertSorted x l → y = x ∨ y ∈ l
  | [], h => by simpa [insertSorted] using h
  | z :: zs, h => by
    unfold insertSorted at h
    split at h
    · simpa using h
    · rcases List.mem_cons.mp h with rfl | h
      · exact .inr (List.mem_cons_self ..)
      · rcases mem_insertSorted h with rfl | h
        · exact .inl rfl
        · exact .inr (List.mem_cons_of_mem _ h)

theorem mem_sort64 {y : UInt64} : ∀ {l : List UInt64}, y ∈ sort64 l → y ∈ l
  | [], h => h
  | z :: zs, h => by
    rcases mem_insertSorted h with rfl | h
    · exact List.mem_cons_self ..
    · exact List.mem_cons_of_mem _ (mem_sort64 h)

theorem freeChunks_or {ε : Type} {m : Mode} : ∀ {l : List UInt64}, (m = .release ∨ ∀ x ∈ l, 1 ≤ x.toNat ∧ x.toNat + 1 < 2 ^ 64) →
    ∃ L, (freeChunks m l : Res ε _) = .ok L ∧ (m = .release ∨ ∀ sec ∈ L, sec.1.toNat + sec.2.toNat < 2 ^ 64)
  | [], _ => ⟨[], rfl, .inr (by simp)⟩
  | [_], _ => ⟨[], rfl, .inr (by simp)⟩
  | a :: b :: rest, h => by
    have h1 : (1 : UInt64).toNat = 1 := rfl
    obtain ⟨L, hL, hs⟩ := freeChunks_or (ε := ε) (l := rest) (h.imp id fun h x hx => h x (List.mem_cons_of_mem _ (List.mem_cons_of_mem _ hx)))
    have ha := h.imp id fun h => h a (List.mem_cons_self ..)
    have hb := h.imp id fun h => h b (List.mem_cons_of_mem _ (List.mem_cons_self ..))
    unfold freeChunks
    rw [add64_or (ha.imp id fun h => by rw [h1]; exact h.2), Res.ok_bind, sub64_or (hb.imp id fun h => by rw [h1]; exact h.1), Res.ok_bind]
    split
    · rename_i hle
      rw [UInt64.le_iff_toNat_le] at hle
      rw [sub64_or (.inr hle), Res.ok_bind]
      have key : m = .release ∨ (b - 1 - (a + 1)).toNat + 1 + (a + 1).toNat = b.toNat := by
        rcases ha with rfl | ha
        · exact .inl rfl
        rcases hb with rfl | hb
        · exact .inl rfl
        right
        have e1 := u64_sub_toNat (a := b) (b := 1) hb.1
        rw [u64_sub_toNat hle]
        omega
      rw [add64_or (key.imp id fun k => by rw [h1]; have := b.toNat_lt; omega), Res.ok_bind, hL, Res.ok_bind]
      refine ⟨_, rfl, ?_⟩
      rcases hs with rfl | hs
      · exact .inl rfl
      rcases key with rfl | key
      · exact .inl rfl
      right
      intro sec hsec
      rcases List.mem_cons.mp hsec with rfl | hsec
      · have hbt := b.toNat_lt
        show (a + 1).toNat + (b - 1 - (a + 1) + 1).toNat < _
        rw [u64_add_toNat (a := b - 1 - (a + 1)) (by rw [h1]; omega), h1]
        omega
      · exact hs sec hsec
    · exact ⟨L, hL, hs⟩

end GptDisk

/-- Headers and tables on which no computation leaves the 64-bit range: block numbers below `2^51`, at most `2^25 - 2` entries of
128 bytes, and no position at either end of the range of block numbers. -/
structure Spec.Modest (h : Header) (t : PMap) : Prop where
  first : 2 ≤ h.firstUsable.toNat
  last : h.lastUsable.toNat < 2 ^ 51
  current : h.currentLba.toNat < 2 ^ 51
  backup : h.backupLba.toNat < 2 ^ 51
  count : h.numParts.toNat < 2 ^ 25 - 1
  size : h.partSize = 128
  entries : t.length < 2 ^ 25 - 1
  used : ∀ p, Spec.Used t p → 1 ≤ p.firstLba.toNat ∧ p.firstLba.toNat + 1 < 2 ^ 64 ∧ 1 ≤ p.lastLba.toNat ∧ p.lastLba.toNat + 1 < 2 ^ 64

namespace GptDisk

theorem findFreeSectors_or {ε : Type} {m : Mode} {s : GptDisk} {h : Header} (hh : s.tryHeader = .ok h)
    (hm : m = .release ∨ Spec.Modest h s.partitions) :
    ∃ L, (s.findFreeSectors m : Res ε _) = .ok L ∧ (m = .release ∨ ∀ sec ∈ L, sec.1.toNat + sec.2.toNat < 2 ^ 64) := by
  have h1 : (1 : UInt64).toNat = 1 := rfl
  unfold findFreeSectors
  rw [header_ok_iff.mpr hh, Res.ok_bind, sub64_or (hm.imp id fun k => by rw [h1]; have := k.first; omega), Res.ok_bind,
    add64_or (hm.imp id fun k => by rw [h1]; have := k.last; omega), Res.ok_bind]
  refine freeChunks_or (hm.imp id fun hm x hx => ?_)
  have := hm.first
  have := hm.last
  have := h.firstUsable.toNat_lt
  have hx := mem_sort64 hx
  unfold diskPositions at hx
  rw [List.mem_append, List.mem_append, List.mem_singleton, List.mem_singleton, List.mem_flatMap] at hx
  rcases hx with (rfl | ⟨p, hp, hx⟩) | rfl
  · rw [u64_sub_toNat (by omega)]
    omega
  · have hu := hm.used p (mem_usedParts.mp hp)
    rcases List.mem_cons.mp hx with rfl | hx
    · exact ⟨hu.1, hu.2.1⟩
    · rw [List.mem_singleton] at hx
      subst hx
      exact hu.2.2
  · rw [u64_add_toNat (by omega)]
    omega

/-! ## `init_headers` -/

theorem findBackupLba_small {lb : LbSize} {d d' : Dev} {b : UInt64} (h : findBackupLba lb d = (.ok b, d')) : b.toNat < 2 ^ 55 := by
  unfold findBackupLba at h
  simp only [M.bind_ok, M.mapErr_ok] at h
  obtain ⟨p, d1, h1, l, d2, h2, q, d3, h3, h4⟩ := h
  split at h4
  · simp at h4
  · rename_i hc
    simp only [M.pure_ok] at h4
    rw [← h4.1, UInt64.toNat_div, lb_u64_toNat]
    have := (l - lb.u64).toNat_lt
    have h5 : (l - lb.u64).toNat / lb.usize ≤ (l - lb.u64).toNat / 512 := Nat.div_le_div_left (lb_le lb) (by omega)
    omega

theorem fromHeader_small {h : Header} {N : Nat} (h1 : h.currentLba.toNat < N) (h2 : h.backupLba.toNat < N) :
    (HeaderBuilder.fromHeader h).primaryLba.toNat < N ∧ (HeaderBuilder.fromHeader h).backupLba.toNat < N := by
  unfold HeaderBuilder.fromHeader
  simp only
  split <;> exact ⟨by assumption, by assumption⟩

theorem initHeaders_or {m : Mode} {fresh : Uuid} {s : GptDisk} {h : Header} (hh : s.tryHeader = .ok h)
    (hm : m = .release ∨ h.lastUsable.toNat < 2 ^ 51 ∧ h.currentLba.toNat < 2 ^ 51 ∧ h.backupLba.toNat < 2 ^ 51 ∧ h.partSize = 128 ∧
      s.partitions.length < 2 ^ 25) : (initHeaders m fresh s).1 ≠ .panic := by
  have e128 : (128 : UInt32).toNat = 128 := rfl
  unfold initHeaders
  refine M.np_bind (by simp) fun s2 s1 hs => ?_
  rw [M.get_ok] at hs
  obtain ⟨rfl, rfl⟩ := hs
  refine M.np_bind ?_ fun bak s2 hf => ?_
  · unfold onDev
    rw [M.zoom_apply]
    exact M.NoPanic.mapErr _ (findBackupLba_noPanic _) _
  have hbak : bak.toNat < 2 ^ 55 := by
    unfold onDev at hf
    rw [M.zoom_ok] at hf
    obtain ⟨t, hf, -⟩ := hf
    rw [M.mapErr_ok] at hf
    exact findBackupLba_small hf
  have hb1 : m = .release ∨ ((s1.initBuilder bak fresh).numParts.toNat * (s1.initBuilder bak fresh).partSize.toNat < 2 ^ 32 ∧
      (s1.initBuilder bak fresh).outStart s1.config.lbSize < 2 ^ 64) ∧ (s1.initBuilder bak fresh).partSize = 128 ∧
      (s1.initBuilder bak fresh).lastUsable.toNat < 2 ^ 51 ∧ (s1.initBuilder bak fresh).primaryLba.toNat < 2 ^ 51 ∧
      (s1.initBuilder bak fresh).backupLba = bak := by
    refine hm.imp id fun ⟨k1, k2, k3, k4, k5⟩ => ?_
    unfold initBuilder
    rw [hh]
    have ksm := fromHeader_small k2 k3
    refine ⟨⟨?_, ?_⟩, k4, k1, ksm.1, rfl⟩
    · show (max32 (UInt32.ofNat s1.partitions.length) minNumParts).toNat * h.partSize.toNat < 2 ^ 32
      rw [k4, e128, max32_toNat, UInt32.toNat_ofNat', Nat.mod_eq_of_lt (by omega)]
      show max _ 128 * 128 < _
      omega
    · show (HeaderBuilder.fromHeader h).primaryLba.toNat + 1 < 2 ^ 64
      omega
  refine M.np_bind ?_ fun h1 s3 hb => ?_
  · rw [M.lift_apply]
    simp only [ne_eq, Res.mapErr_eq_panic]
    exact HeaderBuilder.build_or (hb1.imp id fun k => k.1)
  rw [M.lift_ok] at hb
  obtain ⟨hb, rfl⟩ := hb
  have hb : (s1.initBuilder bak fresh).build m s1.config.lbSize = .ok h1 := by
    unfold initBuilder
    simpa using hb
  refine M.np_bind (by simp) fun _ s4 _ => ?_
  split
  · simp
  · refine M.np_bind ?_ fun _ _ _ => by simp
    rw [M.lift_apply]
    simp only [ne_eq, Res.mapErr_eq_panic]
    refine HeaderBuilder.build_or (hb1.imp id fun ⟨⟨k1, k2⟩, k3, k4, k5, k6⟩ => ?_)
    obtain ⟨rfl, -⟩ := HeaderBuilder.build_ok k1 hb
    refine ⟨k1, ?_⟩
    have e1 := HeaderBuilder.out_last (s1.initBuilder bak fresh) s1.config.lbSize
    have e2 : (s1.initBuilder bak fresh).outLast s1.config.lbSize < 2 ^ 56 := by
      unfold HeaderBuilder.outLast
      rw [k6]
      omega
    have e4 : (s1.initBuilder bak fresh).backupLba.toNat < 2 ^ 55 := by rw [k6]; exact hbak
    have e3 := fromHeader_small (h := (s1.initBuilder bak fresh).out s1.config.lbSize) (N := 2 ^ 56)
      (by show UInt64.toNat (if _ then _ else _) < _; split <;> omega) (by show UInt64.toNat (if _ then _ else _) < _; split <;> omega)
    show max ((s1.initBuilder bak fresh).out s1.config.lbSize).lastUsable.toNat ((HeaderBuilder.fromHeader _).backupLba.toNat - _) + 1 < 2 ^ 64
    omega

/-! ## `add_partition` and `add_partition_at` -/

theorem withParts_try (s : GptDisk) (t : PMap) : (s.withParts t).tryHeader = s.tryHeader := rfl

theorem insertPartition_or {m : Mode} {name : String} {id : UInt32} {first length : UInt64} {ty : PType} {flags : UInt64}
    {fresh fresh2 : Uuid} {s : GptDisk} {h : Header} (hh : s.tryHeader = .ok h) (hl : 1 ≤ length.toNat)
    (h1 : m = .release ∨ first.toNat + length.toNat < 2 ^ 64) (hm : m = .release ∨ Spec.Modest h s.partitions) :
    (insertPartition m name id first length ty flags fresh fresh2 s).1 ≠ .panic := by
  have e1 : (1 : UInt64).toNat = 1 := rfl
  unfold insertPartition
  simp only [M.bind_apply, M.lift_apply, M.get_apply]
  rw [add64_or h1]
  simp only
  rw [sub64_or (h1.imp _root_.id fun k => by rw [e1, u64_add_toNat k]; omega)]
  simp only [header_ok_iff.mpr hh]
  split
  · simp
  · simp only [M.bind_apply, M.modify_apply]
    split
    · rename_i hc
      have := initHeaders_or (m := m) (fresh := fresh2)
        (s := s.withParts (PMap.insert id ⟨ty, fresh, first, first + length - 1, flags, name⟩ s.partitions)) (h := h) hh
        (hm.imp _root_.id fun k => ⟨k.last, k.current, k.backup, k.size, by
          have := PMap.insert_length (t := s.partitions) id (⟨ty, fresh, first, first + length - 1, flags, name⟩ : Partition)
          have := k.entries
          show (PMap.insert _ _ _).length < _
          omega⟩)
      exact M.np_bind (x := initHeaders m fresh2) (f := fun _ => Pure.pure id) this fun _ _ _ => by simp
    · simp

/-- What `add_partition` asks of the alignment. -/
def _root_.Gpt.Spec.AlignOk (m : Mode) (align : Option UInt64) : Prop :=
  ∀ a, align = some a → a ≠ 0 ∧ (m = .release ∨ a.toNat ≤ 2 ^ 63)

theorem addPartitionLoop_or {m : Mode} {name : String} {w : UInt64} {ty : PType} {flags : UInt64} {align : Option UInt64}
    {fresh fresh2 : Uuid} {s : GptDisk} {h : Header} (hh : s.tryHeader = .ok h) (hm : m = .release ∨ Spec.Modest h s.partitions)
    (ha : Spec.AlignOk m align) (hw1 : 1 ≤ w.toNat) (hw2 : w.toNat ≤ 2 ^ 55) : ∀ {L : List (UInt64 × UInt64)},
    (m = .release ∨ ∀ sec ∈ L, sec.1.toNat + sec.2.toNat < 2 ^ 64) →
    (addPartitionLoop m name w ty flags align fresh fresh2 L s).1 ≠ .panic
  | [], _ => by simp [addPartitionLoop]
  | (start, len) :: rest, hL => by
    have ih := addPartitionLoop_or (name := name) (ty := ty) (flags := flags) (fresh := fresh) (fresh2 := fresh2) hh hm ha hw1 hw2
      (L := rest) (hL.imp id fun h x hx => h x (List.mem_cons_of_mem _ hx))
    have hs : m = .release ∨ start.toNat + len.toNat < 2 ^ 64 := hL.imp id fun h => h _ (List.mem_cons_self ..)
    obtain ⟨off, ho⟩ : ∃ off, UInt64.ofNat (offNat start.toNat align) = off := ⟨_, rfl⟩
    have hoff : m = .release ∨ off.toNat ≤ 2 ^ 63 := by
      rw [← ho]
      cases align with
      | none => exact .inr (by show (UInt64.ofNat 0).toNat ≤ _; decide)
      | some a =>
        obtain ⟨a0, ha⟩ := ha a rfl
        refine ha.imp id fun ha => ?_
        have := offNat_lt (start := start.toNat) a0
        rw [UInt64.toNat_ofNat', Nat.mod_eq_of_lt (by omega)]
        omega
    unfold addPartitionLoop
    simp only [M.bind_apply, M.lift_apply]
    rw [alignmentOffset_eq m start (fun a e => (ha a e).1), ho]
    simp only
    rw [add64_or (hoff.imp id fun k => by omega)]
    simp only
    split
    · rename_i hge
      rw [ge_iff_le, UInt64.le_iff_toNat_le] at hge
      have hsum : m = .release ∨ start.toNat + off.toNat + w.toNat < 2 ^ 64 := by
        rcases hs with rfl | hs
        · exact .inl rfl
        rcases hoff with rfl | hoff
        · exact .inl rfl
        rw [u64_add_toNat (by omega)] at hge
        right
        omega
      simp only [M.bind_apply, M.lift_apply, M.get_apply]
      rw [add64_or (hsum.imp id fun k => by omega)]
      simp only
      have hins : ∀ id, (insertPartition m name id (start + off) w ty flags fresh fresh2 s).1 ≠ .panic := fun id =>
        insertPartition_or hh hw1 (hsum.imp _root_.id fun k => by rw [u64_add_toNat (by omega)]; exact k) hm
      have hn : ∃ r, (s.findNextPartitionId : Res GptError _) = .ok r := by
        unfold findNextPartitionId
        split
        · exact ⟨_, rfl⟩
        · rw [header_ok_iff.mpr hh]
          exact ⟨_, rfl⟩
      obtain ⟨r, hn⟩ := hn
      rw [hn]
      simp only
      cases r with
      | some i =>
        simp only [M.pure_apply]
        exact hins _
      | none =>
        simp only [M.bind_apply, M.lift_apply, header_ok_iff.mpr hh]
        rw [add32_or (hm.imp id fun k => by show _ + 1 < _; have := k.count; omega)]
        exact hins _
    · exact ih

theorem addPartition_or {m : Mode} {name : String} {size : UInt64} {ty : PType} {flags : UInt64} {align : Option UInt64}
    {fresh fresh2 : Uuid} {s : GptDisk} {h : Header} (hh : s.tryHeader = .ok h) (hm : m = .release ∨ Spec.Modest h s.partitions)
    (h0 : size ≠ 0) (ha : Spec.AlignOk m align) : (addPartition m name size ty flags align fresh fresh2 s).1 ≠ .panic := by
  obtain ⟨n, hn, e⟩ := addPartition_eq m name h0 ty flags align fresh fresh2 s
  obtain ⟨L, hL, hs⟩ := findFreeSectors_or (ε := GptError) hh hm
  have := (sizeLba_spec (lb := s.config.lbSize) h0).2
  rw [e L hL]
  exact addPartitionLoop_or hh hm ha (by rw [hn]; exact Nat.le_add_left 1 _) (by rw [hn]; exact this) hs

theorem addPartitionAt_or {m : Mode} {name : String} {id : UInt32} {first length : UInt64} {ty : PType} {flags : UInt64}
    {fresh fresh2 : Uuid} {s : GptDisk} {h : Header} (hh : s.tryHeader = .ok h) (hm : m = .release ∨ Spec.Modest h s.partitions)
    (h0 : length ≠ 0) (hid : id ≠ 0) (hs : m = .release ∨ first.toNat + length.toNat < 2 ^ 64) :
    (addPartitionAt m name id first length ty flags fresh fresh2 s).1 ≠ .panic := by
  have hl : 1 ≤ length.toNat := by
    rcases Nat.eq_zero_or_pos length.toNat with h | h
    · exact absurd (UInt64.toNat_inj.mp h) h0
    · exact h
  obtain ⟨L, hL, -⟩ := findFreeSectors_or (ε := GptError) hh hm
  have loop : ∀ L, (addPartitionAtLoop m name id first length ty flags fresh fresh2 L s).1 ≠ .panic := by
    intro L
    induction L with
    | nil => simp [addPartitionAtLoop]
    | cons a rest ih =>
      obtain ⟨a, b⟩ := a
      unfold addPartitionAtLoop
      split
      · exact insertPartition_or hh hl hs hm
      · exact ih
  unfold addPartitionAt
  rw [if_neg h0, if_neg hid]
  simp only [M.bind_apply, M.get_apply]
  split
  · simp
  · simp only [M.bind_apply, M.lift_apply, hL]
    exact loop L

theorem updatePartitions_or {m : Mode} {pp : PMap} {fresh : Uuid} {s : GptDisk} {h : Header} (hh : s.tryHeader = .ok h)
    (hm : m = .release ∨ h.lastUsable.toNat < 2 ^ 51 ∧ h.currentLba.toNat < 2 ^ 51 ∧ h.backupLba.toNat < 2 ^ 51 ∧ h.partSize = 128 ∧
      pp.length < 2 ^ 25) (h0 : PMap.get pp 0 = none) : (updatePartitions m pp fresh s).1 ≠ .panic := by
  unfold updatePartitions
  rw [h0]
  simp only [Option.isSome_none, Bool.false_eq_true, if_false, M.bind_apply, M.get_apply, M.lift_apply, header_ok_iff.mpr hh]
  split
  · simp
  · simp only [M.bind_apply, M.modify_apply]
    exact initHeaders_or (s := s.withParts pp) hh hm

/-! ## `write_inplace` -/

theorem writeToDevice_or {m : Mode} {p : Partition} {idx : Nat} {h : Header} {lb : LbSize} (hi : idx ≤ h.numParts.toNat)
    (hn : m = .release ∨ h.NoWrap lb) : M.NoPanic (Partition.writeToDevice m p (UInt64.ofNat idx) h.partStart lb h.partSize) := by
  unfold Partition.writeToDevice
  intro d
  refine M.np_bind (by simp) fun st _ hst => M.np_bind (by simp) fun off _ hof => ?_
  rw [M.lift_ok, Res.ofOption_eq_ok, checkedMul64_some] at hst hof
  have := h.numParts.toNat_lt
  have e1 : (UInt64.ofNat idx).toNat = idx := by rw [UInt64.toNat_ofNat', Nat.mod_eq_of_lt (by omega)]
  rw [add64_or (hn.imp id fun hn => by
    unfold Header.NoWrap Header.arrayStart Header.arrayLen at hn
    have h1 := hst.1.2
    have h2 := hof.1.2
    rw [lb_u64_toNat] at h1
    rw [e1, UInt32.toNat_toUInt64] at h2
    have : idx * h.partSize.toNat ≤ h.numParts.toNat * h.partSize.toNat := Nat.mul_le_mul_right _ hi
    omega)]
  exact M.NoPanic.bind (M.NoPanic.lift (by simp)) (fun _ => M.NoPanic.bind (Dev.seekStart_noPanic _) fun _ => Dev.writeAll_noPanic _) _

theorem arrayLen_small {h : Header} (hz : h.partSize = 128) : h.arrayLen < 2 ^ 63 := by
  have := h.numParts.toNat_lt
  have e : h.arrayLen = h.numParts.toNat * 128 := by unfold Header.arrayLen; rw [hz]; rfl
  omega

theorem writeZeros_or {m : Mode} {next : Nat} {h : Header} {lb : LbSize} (hi : next ≤ h.numParts.toNat)
    (hz : h.partSize = 128) (hn : m = .release ∨ h.NoWrap lb) : M.NoPanic (writeZeros m lb h next) := by
  have := h.numParts.toNat_lt
  have e1 : (UInt64.ofNat next).toNat = next := by rw [UInt64.toNat_ofNat', Nat.mod_eq_of_lt (by omega)]
  unfold writeZeros
  have hs : checkedSub64 h.numParts.toUInt64 (UInt64.ofNat next) ≠ none := by
    rw [ne_eq, checkedSub64_none, e1, UInt32.toNat_toUInt64]
    omega
  split
  · rename_i n hc
    rw [checkedSub64_some, e1, UInt32.toNat_toUInt64] at hc
    refine M.NoPanic.mapErr _ ?_
    unfold Partition.writeZeroEntries
    intro d
    refine M.np_bind (by simp) fun st _ hst => M.np_bind (by simp) fun off _ hof => ?_
    rw [M.lift_ok, Res.ofOption_eq_ok, checkedMul64_some] at hst hof
    rw [add64_or (hn.imp id fun hn => by
      unfold Header.NoWrap Header.arrayStart Header.arrayLen at hn
      have h1 := hst.1.2
      have h2 := hof.1.2
      rw [lb_u64_toNat] at h1
      rw [e1, UInt32.toNat_toUInt64] at h2
      have : next * h.partSize.toNat ≤ h.numParts.toNat * h.partSize.toNat := Nat.mul_le_mul_right _ hi
      omega)]
    refine M.NoPanic.bind (M.NoPanic.lift (by simp)) (fun _ => M.NoPanic.bind (Dev.seekStart_noPanic _) fun _ =>
      M.NoPanic.bind_lift (by simp) fun k hk => ?_) _
    rw [Res.ofOption_eq_ok, checkedMul64_some, UInt32.toNat_toUInt64, hz] at hk
    have e128 : (128 : UInt32).toNat = 128 := rfl
    rw [e128] at hk
    exact M.NoPanic.bind (M.NoPanic.lift (by rw [vecOf_pos (by omega)]; simp)) fun _ => Dev.writeAll_noPanic _
  · rename_i hc
    exact absurd hc hs

theorem writeEntries_or {m : Mode} {lb : LbSize} {ph : Header} {bh : Option Header} (hp : m = .release ∨ ph.NoWrap lb)
    (hb : ∀ b, bh = some b → m = .release ∨ b.NoWrap lb) : ∀ (ps : List Partition) (idx next : Nat),
    M.NoPanic (writeEntries m lb ph bh ps idx next)
  | [], _, _ => M.NoPanic.pure _
  | p :: ps, idx, _ => by
    have ih := writeEntries_or hp hb ps (idx + 1) (idx + 1)
    unfold writeEntries
    split
    · exact M.NoPanic.throw _
    · rename_i h1
      refine M.NoPanic.bind (M.NoPanic.mapErr _ (writeToDevice_or (by omega) hp)) fun _ => ?_
      split
      · rename_i b
        split
        · exact M.NoPanic.bind (M.NoPanic.throw _) fun _ => ih
        · rename_i h2
          split
          · exact M.NoPanic.bind (M.NoPanic.mapErr _ (writeToDevice_or (by omega) (hb b rfl))) fun _ => ih
          · exact ih
      · exact ih

theorem onDev_noPanic {ε ε' α : Type} {g : ε → ε'} {x : M Dev ε α} (hx : M.NoPanic x) : M.NoPanic (onDev g x) := fun s => by
  unfold onDev
  rw [M.zoom_apply]
  exact M.NoPanic.mapErr _ hx _

theorem writeHeaders_noPanic {lb : LbSize} {h : Header} (hs : h.signature.length = 8) (hz : h.partSize = 128) (d : Dev) :
    (Header.writePrimary lb (h, d)).1 ≠ .panic ∧ (Header.writeBackup lb (h, d)).1 ≠ .panic := by
  unfold Header.writePrimary Header.writeBackup
  simp only [M.bind_apply, M.get_apply]
  constructor
  · split
    · simp
    · exact Header.fileWriteHeader_noPanic (by exact hs) (arrayLen_small hz)
  · split
    · simp
    · exact Header.fileWriteHeader_noPanic (by exact hs) (arrayLen_small hz)

theorem onPrimary_noPanic {lb : LbSize} {h : Header} (hs : h.signature.length = 8) (hz : h.partSize = 128) :
    M.NoPanic (onPrimary h (Header.writePrimary lb)) := by
  intro s
  have := (writeHeaders_noPanic (lb := lb) hs hz s.device).1
  unfold onPrimary
  simp only
  cases hx : (Header.writePrimary lb (h, s.device)).1 with
  | ok _ => simp
  | err _ => simp
  | panic => exact absurd hx this

theorem onBackup_noPanic {lb : LbSize} {h : Header} (hs : h.signature.length = 8) (hz : h.partSize = 128) :
    M.NoPanic (onBackup h (Header.writeBackup lb)) := by
  intro s
  have := (writeHeaders_noPanic (lb := lb) hs hz s.device).2
  unfold onBackup
  simp only
  cases hx : (Header.writeBackup lb (h, s.device)).1 with
  | ok _ => simp
  | err _ => simp
  | panic => exact absurd hx this

theorem writeRest_or {m : Mode} {lb : LbSize} {ph : Header} {bh : Option Header} (hp : m = .release ∨ ph.NoWrap lb)
    (hs : ph.signature.length = 8) (hz : ph.partSize = 128)
    (hb : ∀ b, bh = some b → (m = .release ∨ b.NoWrap lb) ∧ b.signature.length = 8 ∧ b.numParts = ph.numParts ∧ b.partSize = 128)
    (parts : List Partition) (sync : Bool) : M.NoPanic (writeRest m lb ph bh parts sync) := by
  intro s
  unfold writeRest
  refine M.np_bind (onDev_noPanic (writeEntries_or hp (fun b e => (hb b e).1) parts 0 0) s) fun next s1 hw => ?_
  have hnext : next ≤ ph.numParts.toNat := by
    unfold onDev at hw
    rw [M.zoom_ok] at hw
    obtain ⟨t, hw, -⟩ := hw
    rw [M.mapErr_ok] at hw
    obtain ⟨e, h1, -⟩ := writeEntries_ok parts hw
    split at e
    · omega
    · rename_i hne
      rcases h1 with h1 | h1
      · exact absurd h1 hne
      · omega
  have hfin : M.NoPanic (do
        onPrimary ph (Header.writePrimary lb)
        onDev .io Dev.flush
        if sync then onDev .io Dev.syncAll else pure () : M GptDisk GptError Unit) := by
    refine M.NoPanic.bind (onPrimary_noPanic hs hz) fun _ => M.NoPanic.bind (onDev_noPanic Dev.flush_noPanic) fun _ => ?_
    split
    · exact onDev_noPanic Dev.syncAll_noPanic
    · exact M.NoPanic.pure _
  refine M.NoPanic.bind (onDev_noPanic (writeZeros_or hnext hz hp)) (fun _ => ?_) s1
  cases bh with
  | none => exact hfin
  | some b =>
    obtain ⟨b1, b2, b3, b4⟩ := hb b rfl
    exact M.NoPanic.bind (onDev_noPanic (writeZeros_or (by rw [b3]; exact hnext) b4 b1)) fun _ =>
      M.NoPanic.bind (onBackup_noPanic b2 b4) fun _ => hfin

theorem writeInplace_or {m : Mode} {s : GptDisk} {h : Header} (hh : s.tryHeader = .ok h)
    (hz : h.partSize = 128) (hm : m = .release ∨ Spec.Modest h s.partitions) : (writeInplace m s).1 ≠ .panic := by
  have e128 : (128 : UInt32).toNat = 128 := rfl
  have hl := lb_le s.config.lbSize
  have hg := lb_ge s.config.lbSize
  -- the builders stay in range
  have hq : ∀ (b : HeaderBuilder) (h' : Header), (b.numParts.toNat < 2 ^ 25 - 1 ∧ b.partSize = 128 ∧ b.primaryLba.toNat < 2 ^ 51 ∧
      b.backupLba.toNat < 2 ^ 51 ∧ b.lastUsable.toNat < 2 ^ 51) → b.build m s.config.lbSize = .ok h' →
      h'.NoWrap s.config.lbSize ∧ h'.lastUsable.toNat < 2 ^ 51 ∧ h'.currentLba.toNat < 2 ^ 51 ∧ h'.backupLba.toNat < 2 ^ 51 ∧
        h'.numParts = b.numParts ∧ h'.partSize = b.partSize := by
    intro b h' ⟨k1, k2, k3, k4, k5⟩ hb
    have hns : b.numParts.toNat * b.partSize.toNat < 2 ^ 32 := by rw [k2, e128]; omega
    obtain ⟨rfl, -⟩ := HeaderBuilder.build_ok hns hb
    have e1 := HeaderBuilder.out_last b s.config.lbSize
    have e2 : b.outLast s.config.lbSize < 2 ^ 51 := by unfold HeaderBuilder.outLast; omega
    have e3 : b.outStart s.config.lbSize ≤ 2 ^ 51 := by unfold HeaderBuilder.outStart; split <;> omega
    refine ⟨?_, by omega, ?_, ?_, rfl, rfl⟩
    · have e4 := HeaderBuilder.out_start (b := b) (lb := s.config.lbSize) (by omega)
      unfold Header.NoWrap Header.arrayStart Header.arrayLen
      rw [e4]
      have : b.outStart s.config.lbSize * s.config.lbSize.usize ≤ 2 ^ 51 * 4096 := Nat.mul_le_mul e3 hg
      show _ + b.numParts.toNat * b.partSize.toNat < _
      omega
    · show UInt64.toNat (if _ then _ else _) < _
      split <;> assumption
    · show UInt64.toNat (if _ then _ else _) < _
      split <;> assumption
  have hnp : ∀ b : HeaderBuilder, m = .release ∨ (b.numParts.toNat < 2 ^ 25 - 1 ∧ b.partSize = 128 ∧ b.primaryLba.toNat < 2 ^ 51 ∧
      b.backupLba.toNat < 2 ^ 51 ∧ b.lastUsable.toNat < 2 ^ 51) → b.build m s.config.lbSize ≠ .panic := by
    intro b hb
    refine HeaderBuilder.build_or (hb.imp id fun ⟨k1, k2, k3, k4, k5⟩ => ⟨by rw [k2, e128]; omega, ?_⟩)
    have e2 : b.outLast s.config.lbSize < 2 ^ 51 := by unfold HeaderBuilder.outLast; omega
    unfold HeaderBuilder.outStart
    split <;> omega
  have hb1 : m = .release ∨ (((HeaderBuilder.fromHeader h).setPrimary true).numParts.toNat < 2 ^ 25 - 1 ∧
      ((HeaderBuilder.fromHeader h).setPrimary true).partSize = 128 ∧ ((HeaderBuilder.fromHeader h).setPrimary true).primaryLba.toNat < 2 ^ 51 ∧
      ((HeaderBuilder.fromHeader h).setPrimary true).backupLba.toNat < 2 ^ 51 ∧
      ((HeaderBuilder.fromHeader h).setPrimary true).lastUsable.toNat < 2 ^ 51) := by
    refine hm.imp id fun k => ?_
    have := fromHeader_small k.current k.backup
    exact ⟨k.count, k.size, this.1, this.2, k.last⟩
  rw [writeInplace_eq]
  split
  · simp
  have hf := findBackupLba_noPanic s.config.lbSize s.device
  rcases hx : findBackupLba s.config.lbSize s.device with ⟨r, d1⟩
  rw [hx] at hf
  cases r with
  | err e => simp
  | panic => exact absurd rfl hf
  | ok bak =>
    simp only [hh]
    have hp0 := hnp _ hb1
    cases hp : primaryOf m h s.config.lbSize with
    | err e => simp
    | panic => exact absurd hp hp0
    | ok ph =>
      have hsig : ph.signature.length = 8 := by rw [HeaderBuilder.build_sig hp]; rfl
      have hz1 : ph.partSize = 128 := (build_numParts hp).2.trans hz
      have hq1 := hb1.imp id fun k => hq _ _ k hp
      have hpn := hq1.imp id fun k => k.1
      simp only
      split
      · exact writeRest_or hpn hsig hz1 (fun b e => by cases e) _ _ _
      · have hb2 : m = .release ∨ (((HeaderBuilder.fromHeader ph).setPrimary false).numParts.toNat < 2 ^ 25 - 1 ∧
            ((HeaderBuilder.fromHeader ph).setPrimary false).partSize = 128 ∧
            ((HeaderBuilder.fromHeader ph).setPrimary false).primaryLba.toNat < 2 ^ 51 ∧
            ((HeaderBuilder.fromHeader ph).setPrimary false).backupLba.toNat < 2 ^ 51 ∧
            ((HeaderBuilder.fromHeader ph).setPrimary false).lastUsable.toNat < 2 ^ 51) := by
          rcases hb1 with rfl | k
          · exact .inl rfl
          rcases hq1 with rfl | ⟨k1, k2, k3, k4, k5, k6⟩
          · exact .inl rfl
          have := fromHeader_small k3 k4
          exact .inr ⟨by show ph.numParts.toNat < _; rw [k5]; exact k.1, k6.trans k.2.1, this.1, this.2, k2⟩
        have hp2 := hnp _ hb2
        cases hb : backupOf m ph s.config.lbSize with
        | err e => simp
        | panic => exact absurd hb hp2
        | ok bh =>
          refine writeRest_or hpn hsig hz1 (fun b e => ?_) _ _ _
          obtain rfl := Option.some.inj e
          exact ⟨hb2.imp id fun k => (hq _ _ k hb).1, by rw [HeaderBuilder.build_sig hb]; rfl, (build_numParts hb).1,
            (build_numParts hb).2.trans hz1⟩

end GptDisk

end Gpt
