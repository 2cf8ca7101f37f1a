import Verif.Props.Reach
/-!
# Disjoint partitions over histories: C23
-/

namespace Gpt

open Spec GptDisk HeaderBuilder

/-- The states reached from `s0` by calls that satisfy `ok`. -/
inductive Spec.From (m : Mode) (ok : GptDisk → Op → Prop) (s0 : GptDisk) : GptDisk → Prop
  | start : From m ok s0 s0
  | step {s : GptDisk} (op : Op) : From m ok s0 s → op.Wf → ok s op → From m ok s0 (op.step m s).2
  | cloned {s : GptDisk} : From m ok s0 s → From m ok s0 s.clone
  | moved {s : GptDisk} (d : Dev) (w : Bool) : From m ok s0 s → From m ok s0 (s.withDiskDevice d w)

/-- **C23**, the claim. -/
def C23 : Prop := ∀ (m : Mode) (cfg : GptConfig) (guid : Option Uuid) (fresh fresh2 : Uuid) (d d' : Dev) (s0 s : GptDisk),
  createFromDevice m cfg guid fresh fresh2 d = (.ok s0, d') → From m anyCall s0 s → ∃ h, s.tryHeader = .ok h ∧ Tidy h s.partitions

/-- The calls of the restricted claim: alignments that do not wrap, extents that are free, tables that are tidy, no failure while
rebuilding headers, and no increase of the number of entries. -/
structure Spec.SafeCall (m : Mode) (s : GptDisk) (op : Op) : Prop where
  clean : op ≠ .writeInplace → (op.step m s).1 ≠ .panic ∧ ∀ e, (op.step m s).1 ≠ .err (.header e)
  align : ∀ name size ty flags align fresh fresh2, op = .addPartition name size ty flags align fresh fresh2 →
    m = .debug ∨ ∀ a, align = some a → a.toNat ≤ 2 ^ 63
  at_free : ∀ name id first length ty flags fresh fresh2, op = .addPartitionAt name id first length ty flags fresh fresh2 →
    ∀ h, s.tryHeader = .ok h → FreeExtent h s.partitions first.toNat length.toNat
  table : ∀ pp fresh, op = .updatePartitions pp fresh → ∀ h, s.tryHeader = .ok h → Tidy h pp
  count : ∀ h h', s.tryHeader = .ok h → (op.step m s).2.tryHeader = .ok h' → h'.numParts.toNat ≤ h.numParts.toNat

theorem tidy_insert {h : Header} {t : PMap} {k : UInt32} {p : Partition} {a n : Nat} (ht : Tidy h t) (hf : FreeExtent h t a n) (hn : 1 ≤ n)
    (h1 : p.firstLba.toNat = a) (h2 : p.lastLba.toNat + 1 = a + n) : Tidy h (PMap.insert k p t) where
  keys := PMap.insert_sorted ht.keys k p
  order q hq := by
    rcases (used_insert ht.keys).mp hq with ⟨rfl, -⟩ | ⟨i, -, hm, hu⟩
    · omega
    · exact ht.order q ⟨i, hm, hu⟩
  inside q hq := by
    rcases (used_insert ht.keys).mp hq with ⟨rfl, -⟩ | ⟨i, -, hm, hu⟩
    · have f1 := hf a (Nat.le_refl _) (by omega)
      have f2 := hf (a + n - 1) (by omega) (by omega)
      exact ⟨by rw [h1]; exact f1.1, by have := f2.2.1; omega⟩
    · exact ht.inside q ⟨i, hm, hu⟩
  apart i j q r hi hj hij hq hr x hx := by
    have hs := PMap.insert_sorted ht.keys k p
    rw [PMap.mem_iff_get hs, PMap.get_insert] at hi hj
    have key : ∀ r' : Partition, Used t r' → Covers p x → Covers r' x → False := by
      intro r' hu hc hc'
      exact (hf x (by unfold Covers at hc; omega) (by unfold Covers at hc; omega)).2.2 r' hu hc'
    split at hi
    · rename_i hik
      split at hj
      · rename_i hjk
        exact hij (hik.trans hjk.symm)
      · obtain rfl := Option.some.inj hi
        exact key r ⟨j, PMap.mem_of_get hj, hr⟩ hx.1 hx.2
    · split at hj
      · obtain rfl := Option.some.inj hj
        exact key q ⟨i, PMap.mem_of_get hi, hq⟩ hx.2 hx.1
      · exact ht.apart i j q r (PMap.mem_of_get hi) (PMap.mem_of_get hj) hij hq hr x hx

theorem tidy_nil (h : Header) : Tidy h [] where
  keys := List.Pairwise.nil
  order p hp := by obtain ⟨_, hm, _⟩ := hp; simp at hm
  inside p hp := by obtain ⟨_, hm, _⟩ := hp; simp at hm
  apart i j p q hm := by simp at hm

/-- A wider range. -/
theorem tidy_wider {h h' : Header} {t : PMap} (ht : Tidy h t) (h1 : h'.firstUsable.toNat ≤ h.firstUsable.toNat)
    (h2 : h.lastUsable.toNat ≤ h'.lastUsable.toNat) : Tidy h' t where
  keys := ht.keys
  order := ht.order
  inside p hp := by have := ht.inside p hp; omega
  apart := ht.apart

/-- The invariant on the header. -/
structure NeatHeader (lb : LbSize) (h : Header) : Prop where
  size : h.partSize = 128
  small : h.numParts.toNat * 128 < 2 ^ 32
  first : 2 + blocksFor (h.numParts.toNat * 128) lb ≤ h.firstUsable.toNat
  order : h.firstUsable.toNat ≤ h.lastUsable.toNat
  last : h.lastUsable.toNat + 1 < 2 ^ 64

theorem NeatHeader.range {lb : LbSize} {h : Header} (hn : NeatHeader lb h) : Range h :=
  ⟨by have := hn.first; omega, by have := hn.order; omega, hn.last⟩

theorem blocksFor_mono {a b : Nat} (lb : LbSize) (h : a ≤ b) : blocksFor a lb ≤ blocksFor b lb := by
  unfold blocksFor
  exact Nat.div_le_div_right (by omega)

/-- Any header `build` makes with 128-byte entries and a range as small as allowed. -/
theorem build_neat {m : Mode} {b : HeaderBuilder} {lb : LbSize} {h : Header} (hb : b.build m lb = .ok h) (hs : b.partSize = 128)
    (hn : b.numParts.toNat * 128 < 2 ^ 32) (hl : b.lastUsable.toNat + 1 < 2 ^ 64) : NeatHeader lb h ∧
      h.firstUsable.toNat = max b.firstUsable.toNat (2 + blocksFor (b.numParts.toNat * 128) lb) ∧ b.lastUsable.toNat ≤ h.lastUsable.toNat := by
  have e128 : (128 : UInt32).toNat = 128 := rfl
  have hns : b.numParts.toNat * b.partSize.toNat < 2 ^ 32 := by rw [hs, e128]; exact hn
  obtain ⟨rfl, h1, h2, h3, -⟩ := build_ok hns hb
  have e1 := out_first (lb := lb) hns
  have e2 := out_last b lb
  have e3 : b.lbs lb = blocksFor (b.numParts.toNat * 128) lb := by unfold lbs; rw [hs, e128]
  have hbl := b.backupLba.toNat_lt
  have hof : b.outFirst lb = max b.firstUsable.toNat (2 + blocksFor (b.numParts.toNat * 128) lb) := by unfold outFirst; rw [e3]
  have hol : b.outLast lb = max b.lastUsable.toNat (b.backupLba.toNat - (b.lbs lb + 1)) := rfl
  refine ⟨⟨hs, hn, ?_, by omega, by omega⟩, by omega, by omega⟩
  show 2 + blocksFor (b.numParts.toNat * 128) lb ≤ _
  omega

/-- Rebuilding a header with the same or a smaller number of entries widens its range. -/
theorem rebuild_neat {m : Mode} {b : HeaderBuilder} {lb : LbSize} {h h' : Header} (hn : NeatHeader lb h) (hb : b.build m lb = .ok h')
    (h1 : b.firstUsable = h.firstUsable) (h2 : b.lastUsable = h.lastUsable) (h3 : b.partSize = h.partSize)
    (h4 : h'.numParts.toNat ≤ h.numParts.toNat) :
    NeatHeader lb h' ∧ h'.firstUsable.toNat ≤ h.firstUsable.toNat ∧ h.lastUsable.toNat ≤ h'.lastUsable.toNat := by
  have hnum := (build_numParts hb).1
  rw [hnum] at h4
  have hm : b.numParts.toNat * 128 ≤ h.numParts.toNat * 128 := Nat.mul_le_mul_right _ h4
  obtain ⟨n1, n2, n3⟩ := build_neat hb (h3.trans hn.size) (by have := hn.small; omega) (by rw [h2]; exact hn.last)
  have := blocksFor_mono lb hm
  have := hn.first
  rw [h1] at n2
  rw [h2] at n3
  exact ⟨n1, by omega, n3⟩

/-- The invariant. -/
def Neat (s : GptDisk) : Prop := ∃ h, s.tryHeader = .ok h ∧ NeatHeader s.config.lbSize h ∧ Tidy h s.partitions

theorem created_neat {m : Mode} {cfg : GptConfig} {guid : Option Uuid} {fresh fresh2 : Uuid} {d d' : Dev} {s : GptDisk}
    (h : createFromDevice m cfg guid fresh fresh2 d = (.ok s, d')) : Neat s := by
  have ht := created_table h
  unfold createFromDevice at h
  rcases hx : initHeaders m fresh2 (blankDisk cfg d (guid.getD fresh)) with ⟨r, s1⟩
  rw [hx] at h
  cases r with
  | err e => simp at h
  | panic => simp at h
  | ok u =>
    simp only [Prod.mk.injEq, Res.ok.injEq] at h
    obtain ⟨rfl, -⟩ := h
    have hcfg : s1.config = cfg := (initHeaders_same hx).config
    rcases initHeaders_any hx with ⟨-, -, hc⟩ | ⟨bak, h1, -, hb, hp, -⟩
    · exact absurd rfl hc
    · obtain ⟨hn, -, -⟩ := build_neat hb rfl (by show 128 * 128 < 2 ^ 32; decide) (by show 0 + 1 < 2 ^ 64; decide)
      refine ⟨h1, tryHeader_of_primary hp, by rw [hcfg]; exact hn, ?_⟩
      rw [ht]
      exact tidy_nil h1

/-- `init_headers` on a neat disk with another tidy table. -/
theorem init_neat {m : Mode} {fresh : Uuid} {s s' : GptDisk} {h : Header} {t : PMap} {u : Unit} (hh : s.tryHeader = .ok h)
    (hn : NeatHeader s.config.lbSize h) (ht : Tidy h t) (hx : initHeaders m fresh (s.withParts t) = (.ok u, s'))
    (hcount : ∀ h', s'.tryHeader = .ok h' → h'.numParts.toNat ≤ h.numParts.toNat) : Neat s' := by
  have hcfg : s'.config = s.config := (initHeaders_same hx).config
  have hpp : s'.partitions = t := (initHeaders_same hx).partitions
  rcases initHeaders_any hx with ⟨-, -, hc⟩ | ⟨bak, h1, -, hb, hp, -⟩
  · exact absurd rfl hc
  · have hth := tryHeader_of_primary hp
    have hb' : (s.withParts t).initBuilder bak fresh = ((((fromHeader h).setNumParts (UInt32.ofNat t.length)).setBackupLba
        bak).setDiskGuid s.guid).setPrimary true := by
      unfold initBuilder
      rw [show (s.withParts t).tryHeader = .ok h from hh]
      rfl
    have hf : ((s.withParts t).initBuilder bak fresh).firstUsable = h.firstUsable := by rw [hb']; rfl
    have hl : ((s.withParts t).initBuilder bak fresh).lastUsable = h.lastUsable := by rw [hb']; rfl
    have hps : ((s.withParts t).initBuilder bak fresh).partSize = h.partSize := by rw [hb']; rfl
    obtain ⟨n1, n2, n3⟩ := rebuild_neat hn hb hf hl hps (hcount h1 hth)
    exact ⟨h1, hth, by rw [hcfg]; exact n1, by rw [hpp]; exact tidy_wider ht n2 n3⟩

theorem inserted_neat {m : Mode} {id id' : UInt32} {p : Partition} {fresh2 : Uuid} {s s' : GptDisk} {h : Header}
    {r : Res GptError UInt32} (hi : Inserted m id p fresh2 s r s') (hr : r = .ok id') (hh : s.tryHeader = .ok h)
    (hn : NeatHeader s.config.lbSize h) (ht : Tidy h (PMap.insert id p s.partitions))
    (hcount : ∀ h', s'.tryHeader = .ok h' → h'.numParts.toNat ≤ h.numParts.toNat) : Neat s' := by
  cases hi with
  | panic => cases hr
  | refused => cases hr
  | plain => exact ⟨h, hh, hn, ht⟩
  | rebuilt h1 r s' hh1 hw hc hx =>
    obtain ⟨⟨u, rfl⟩, -⟩ := Res.as_eq_ok.mp hr
    exact init_neat hh hn ht hx hcount

theorem step_neat {m : Mode} {op : Op} {s : GptDisk} (hs : Neat s) (ho : SafeCall m s op) : Neat (op.step m s).2 := by
  obtain ⟨h, hh, hn, ht⟩ := hs
  have hsame : Neat s := ⟨h, hh, hn, ht⟩
  have hcount := fun h' => ho.count h h' hh
  -- a call that is not `write` and not `Ok` changes nothing
  have hbad : op ≠ .writeInplace → (∀ v, (op.step m s).1 ≠ .ok v) → Neat (op.step m s).2 := by
    intro hw hv
    obtain ⟨c1, c2⟩ := ho.clean hw
    cases hr : (op.step m s).1 with
    | ok v => exact absurd hr (hv v)
    | panic => exact absurd hr c1
    | err e => rw [c29_partial m op s e hw (fun e' he => c2 e' (by rw [hr, he])) hr]; exact hsame
  have hrem : ∀ k, Neat (s.withParts (PMap.remove s.partitions k)) := fun k => ⟨h, hh, hn, tidy_remove ht k⟩
  have h1 : (1 : UInt64).toNat = 1 := rfl
  have hlast := hn.last
  cases op with
  | addPartition name size ty flags align fresh fresh2 =>
    by_cases hv : ∀ v, ((Op.addPartition name size ty flags align fresh fresh2).step m s).1 ≠ .ok v
    · exact hbad (by simp) hv
    · obtain ⟨v, hv⟩ := Classical.not_forall.mp hv
      have hv : ((addPartition m name size ty flags align fresh fresh2).mapOk OpVal.id s).1 = .ok v := Classical.not_not.mp hv
      obtain ⟨id, hv, -⟩ := M.mapOk_ok.mp hv
      show Neat (addPartition m name size ty flags align fresh fresh2 s).2
      rcases hx : addPartition m name size ty flags align fresh fresh2 s with ⟨r, s'⟩
      rw [hx] at hv
      simp only at hv
      subst hv
      obtain ⟨-, -, -, start, n, hn1, hfree, -, -, hend, hins⟩ :=
        addPartition_ok hh hn.range ht (ho.align _ _ _ _ _ _ _ rfl) hx
      have hia := insertPartition_any m name id start n ty flags fresh fresh2 s
      rw [hins] at hia
      have hpos : 1 ≤ n.toNat := by rw [hn1]; exact Nat.le_add_left 1 _
      have hsum : (start + n).toNat = start.toNat + n.toNat := u64_add_toNat (by omega)
      refine inserted_neat hia rfl hh hn (tidy_insert ht hfree hpos rfl ?_) (fun h' hh' => hcount h' ?_)
      · show (start + n - 1).toNat + 1 = start.toNat + n.toNat
        rw [u64_sub_toNat (by omega), hsum, h1]
        omega
      · show (addPartition m name size ty flags align fresh fresh2 s).2.tryHeader = _
        rw [hx]; exact hh'
  | addPartitionAt name id first length ty flags fresh fresh2 =>
    by_cases hv : ∀ v, ((Op.addPartitionAt name id first length ty flags fresh fresh2).step m s).1 ≠ .ok v
    · exact hbad (by simp) hv
    · obtain ⟨v, hv⟩ := Classical.not_forall.mp hv
      have hv : ((addPartitionAt m name id first length ty flags fresh fresh2).mapOk OpVal.id s).1 = .ok v := Classical.not_not.mp hv
      obtain ⟨id', hv, -⟩ := M.mapOk_ok.mp hv
      have hfree := ho.at_free _ _ _ _ _ _ _ _ rfl h hh
      show Neat (addPartitionAt m name id first length ty flags fresh fresh2 s).2
      rcases addPartitionAt_any m name id first length ty flags fresh fresh2 s with ⟨e, -⟩ | ⟨-, h0, -, -, hi⟩
      · rw [e]; exact hsame
      · have hpos : 1 ≤ length.toNat := by
          rcases Nat.eq_zero_or_pos length.toNat with e | e
          · exact absurd (UInt64.toNat_inj.mp e) h0
          · exact e
        have hend := (hfree (first.toNat + length.toNat - 1) (by omega) (by omega)).2.1
        have hsum : (first + length).toNat = first.toNat + length.toNat := u64_add_toNat (by omega)
        refine inserted_neat hi hv hh hn (tidy_insert ht hfree hpos rfl ?_) hcount
        show (first + length - 1).toNat + 1 = first.toNat + length.toNat
        rw [u64_sub_toNat (by omega), hsum, h1]
        omega
  | removePartition id =>
    show Neat (removePartition (ε := GptError) id s).2
    unfold removePartition
    split
    · exact hrem _
    · exact hsame
  | removePartitionByGuid g =>
    show Neat (removePartitionByGuid (ε := GptError) g s).2
    unfold removePartitionByGuid
    split
    · exact hrem _
    · exact hsame
  | takePartitions =>
    exact ⟨h, hh, hn, tidy_nil h⟩
  | updateGuid u r => exact ⟨h, hh, hn, ht⟩
  | updateDiskDevice d w => exact ⟨h, hh, hn, ht⟩
  | deviceMut d => exact ⟨h, hh, hn, ht⟩
  | updatePartitions pp r =>
    have hcl := ho.clean (by simp)
    rcases updatePartitions_any m pp r s with ⟨e, -⟩ | ⟨h0, h1, -, -, e⟩
    · rw [step_updatePartitions, e]; exact hsame
    · rcases hx : initHeaders m r (s.withParts pp) with ⟨q, s'⟩
      have hq : q = .ok () := by
        have e1 : (updatePartitions m pp r s).1 = q := by rw [e, hx]
        cases q with
        | ok u => rfl
        | err er =>
          obtain ⟨e', rfl⟩ := initHeaders_err hx
          exact absurd (M.mapOk_err.mpr e1) (hcl.2 e')
        | panic => exact absurd (M.mapOk_panic.mpr e1) hcl.1
      subst hq
      have hst : ((Op.updatePartitions pp r).step m s).2 = s' := by rw [step_updatePartitions, e, hx]
      rw [hst] at hcount ⊢
      exact init_neat hh hn (ho.table _ _ rfl h hh) hx hcount
  | writeInplace =>
    have hm := writeInplace_mem m s
    show Neat (writeInplace m s).2
    rcases hm.headers with ⟨h1, h2⟩ | ⟨h0, ph, ph', hh0, hp, hsb, hpr, _⟩
    · exact ⟨h, (tryHeader_congr h1 h2).trans hh, by rw [hm.config]; exact hn, by rw [hm.partitions]; exact ht⟩
    · obtain rfl := Except.ok.inj (hh.symm.trans hh0)
      have hp : ((HeaderBuilder.fromHeader h).setPrimary true).build m s.config.lbSize = .ok ph := hp
      obtain ⟨n1, n2, n3⟩ := rebuild_neat hn hp rfl rfl rfl (by rw [(build_numParts hp).1]; exact Nat.le_refl _)
      obtain ⟨f1, f2, f3, f4, -⟩ := sameBut_fields hsb
      refine ⟨ph', tryHeader_of_primary hpr, ?_, ?_⟩
      · rw [hm.config]
        exact ⟨by rw [f2]; exact n1.size, by rw [f1]; exact n1.small, by rw [f1, f3]; exact n1.first, by rw [f3, f4]; exact n1.order,
          by rw [f4]; exact n1.last⟩
      · rw [hm.partitions]
        exact tidy_wider ht (by rw [f3]; exact n2) (by rw [f4]; exact n3)

theorem from_neat {m : Mode} {s0 s : GptDisk} (h0 : Neat s0) (h : From m (SafeCall m) s0 s) : Neat s := by
  induction h with
  | start => exact h0
  | step op _ _ ho ih => exact step_neat ih ho
  | cloned _ ih =>
    obtain ⟨h, hh, hn, ht⟩ := ih
    exact ⟨h, (tryHeader_lossy rfl rfl).trans hh, hn, ht⟩
  | moved d w _ ih =>
    obtain ⟨h, hh, hn, ht⟩ := ih
    exact ⟨h, (tryHeader_lossy rfl rfl).trans hh, hn, ht⟩

/-- **C23**, partial. Missing: calls outside `SafeCall`, for which it is false (`c23_fails`, `c23_fails_growth`). -/
theorem c23_partial {m : Mode} {cfg : GptConfig} {guid : Option Uuid} {fresh fresh2 : Uuid} {d d' : Dev} {s0 s : GptDisk}
    (hc : createFromDevice m cfg guid fresh fresh2 d = (.ok s0, d')) (hs : From m (SafeCall m) s0 s) :
    ∃ h, s.tryHeader = .ok h ∧ Tidy h s.partitions := by
  obtain ⟨h, hh, -, ht⟩ := from_neat (created_neat hc) hs
  exact ⟨h, hh, ht⟩

theorem made_created (m : Mode) (cfg : GptConfig) {d : Dev} {B : Nat} (hf : d.faults = []) (hpos : d.pos < 2 ^ 64)
    (hlen : d.data.length < 2 ^ 64) (hk : JustEnough cfg.lbSize (128 * 128) 32) (hz : d.data.length / cfg.lbSize.usize = B + 1)
    (hB : 2 * 32 + 3 ≤ B) :
    createFromDevice m cfg (some Uuid.nil) Uuid.nil Uuid.nil d = (.ok (madeDisk cfg d 32 B Uuid.nil), d) := by
  have hc := createFromDevice_nil m cfg (some Uuid.nil) Uuid.nil Uuid.nil hf hpos hlen hk hz
  rw [if_pos hB] at hc
  exact hc

/-- The claim is false: `add_partition_at` accepts an extent that ends behind `last_usable`. -/
theorem c23_fails : ¬ C23 := by
  intro hC
  have hc := made_created .debug GptConfig.new (d := dev100) (B := 99) rfl (by show 0 < 2 ^ 64; decide) (by rw [dev100_length]; decide)
    enough512 (by rw [dev100_length]; rfl) (by decide)
  obtain ⟨op, hop⟩ : ∃ op : Op, op = .addPartitionAt "x" 1 60 20 (exPart 0 0).partType 0 Uuid.nil Uuid.nil := ⟨_, rfl⟩
  obtain ⟨h, hh, ht⟩ := hC _ _ _ _ _ _ _ _ _ hc (.step op .start (by rw [hop]; trivial) trivial)
  have hp : (op.step .debug (madeDisk GptConfig.new dev100 32 99 Uuid.nil)).2.partitions =
      [(1, ⟨(exPart 0 0).partType, Uuid.nil, 60, 79, 0, "x"⟩)] := by rw [hop]; decide +kernel
  have hl : ∀ h, (op.step .debug (madeDisk GptConfig.new dev100 32 99 Uuid.nil)).2.tryHeader = .ok h → h.lastUsable = 66 := by
    intro h hh
    have : ((op.step .debug (madeDisk GptConfig.new dev100 32 99 Uuid.nil)).2.tryHeader.map (·.lastUsable)) = .ok 66 := by
      rw [hop]; decide +kernel
    rw [hh] at this
    exact Except.ok.inj this
  have := (ht.inside ⟨(exPart 0 0).partType, Uuid.nil, 60, 79, 0, "x"⟩ ⟨1, by rw [hp]; exact List.mem_singleton.mpr rfl, by decide⟩).2
  rw [hl h hh] at this
  exact absurd this (by decide)

/-! Growing the table moves the start of the usable range. -/

def growConfig : GptConfig := { GptConfig.new with changePartitionCount := true }

/-- A blank device of 300 blocks of 512 bytes. -/
def dev300 : Dev := ⟨zeros 153600, 0, 153600, [], []⟩

theorem dev300_length : dev300.data.length = 153600 := zeros_length _

/-- 128 partitions of one block each, from the first usable block on. -/
def lineTable : PMap := (List.range' 1 128).map fun i => (UInt32.ofNat i, exPart (UInt64.ofNat (33 + i)) (UInt64.ofNat (33 + i)))

def growDisk : GptDisk := reinit (madeDisk growConfig dev300 32 299 Uuid.nil) (createdP 32 299 Uuid.nil) 32 299 lineTable

theorem grow_free (m : Mode) : (growDisk.findFreeSectors m : Res GptError _) = .ok [(162, 105)] := by
  cases m <;> decide +kernel

theorem grow_next : (growDisk.findNextPartitionId : Res GptError _) = .ok none := by decide +kernel

def grownPart : Partition := ⟨(exPart 0 0).partType, Uuid.nil, 162, 162, 0, "x"⟩

theorem grow_find : findBackupLba .lb512 dev300 = (.ok 299, dev300) := by
  rw [findBackupLba_nil rfl (by show (0 : Nat) < _; decide) (by rw [dev300_length]; decide), dev300_length]
  rfl

/-- `insert_partition` with a rebuild of the headers that succeeds. -/
theorem insertPartition_grow {m : Mode} {name : String} {id : UInt32} {first length : UInt64} {ty : PType} {flags : UInt64}
    {fresh fresh2 : Uuid} {s s' : GptDisk} {h : Header} (h1 : first.toNat + length.toNat < 2 ^ 64) (h2 : 1 ≤ length.toNat)
    (hh : (s.header : Res GptError _) = .ok h) (hc : h.numPartsWouldChange id = true) (hp : s.config.changePartitionCount = true)
    (hi : initHeaders m fresh2 (s.withParts (PMap.insert id ⟨ty, fresh, first, first + length - 1, flags, name⟩ s.partitions)) = (.ok (), s')) :
    insertPartition m name id first length ty flags fresh fresh2 s = (.ok id, s') := by
  have e1 : (first + length).toNat = first.toNat + length.toNat := by
    rw [UInt64.toNat_add, Nat.mod_eq_of_lt h1]
  have h11 : (1 : UInt64).toNat = 1 := rfl
  unfold insertPartition
  simp only [M.bind_apply, M.lift_apply, M.get_apply]
  rw [add64_eq m h1]
  simp only []
  rw [sub64_eq m (by omega)]
  simp only [hh, hc, hp, M.modify_apply, M.bind_apply, Bool.not_true, Bool.and_false, Bool.false_eq_true, if_false, if_true]
  unfold GptDisk.withParts at hi
  rw [hi]
  rfl

/-- The same for `add_partition` when no id is free. -/
theorem addLoop_grow {m : Mode} {name : String} {w start len : UInt64} {rest : List (UInt64 × UInt64)} {ty : PType} {flags : UInt64}
    {fresh fresh2 : Uuid} {s : GptDisk} {h : Header} (hw : w.toNat ≤ len.toNat) (hn : (s.findNextPartitionId : Res GptError _) = .ok none)
    (hh : (s.header : Res GptError _) = .ok h) (hlt : h.numParts.toNat + 1 < 2 ^ 32) :
    addPartitionLoop m name w ty flags none fresh fresh2 ((start, len) :: rest) s =
      insertPartition m name (h.numParts + 1) start w ty flags fresh fresh2 s := by
  have z : (0 : UInt64).toNat = 0 := rfl
  have e1 : (add64 m 0 w : Res GptError _) = .ok w := by
    rw [add64_eq m (by have := w.toNat_lt; omega), UInt64.zero_add]
  have e2 : (add64 m start 0 : Res GptError _) = .ok start := by
    rw [add64_eq m (by have := start.toNat_lt; omega), UInt64.add_zero]
  have hle : len ≥ w := UInt64.le_iff_toNat_le.mpr hw
  have e3 : (add32 m h.numParts 1 : Res GptError _) = .ok (h.numParts + 1) := add32_eq m (by show _ + 1 < _; exact hlt)
  unfold addPartitionLoop alignmentOffset
  simp only [M.bind_apply, M.lift_apply, e1]
  rw [if_pos hle]
  simp only [M.bind_apply, M.lift_apply, M.get_apply, e2, hn, hh, e3]

theorem grow_add (m : Mode) : ∃ s h, addPartition m "x" 512 (exPart 0 0).partType 0 none Uuid.nil Uuid.nil growDisk = (.ok 129, s) ∧
    s.tryHeader = .ok h ∧ h.firstUsable = 35 ∧ s.partitions = PMap.insert 129 grownPart lineTable := by
  obtain ⟨w, hw, heq⟩ := addPartition_eq m "x" (size := 512) (by decide) (exPart 0 0).partType 0 none Uuid.nil Uuid.nil growDisk
  have heq := heq _ (grow_free m)
  have hw1 : w = 1 := UInt64.toNat_inj.mp (by rw [hw]; show (512 - 1) / 512 + 1 = 1; decide)
  subst hw1
  have hb : ∃ h, ((growDisk.withParts (PMap.insert 129 grownPart lineTable)).initBuilder 299 Uuid.nil).build m .lb512 = .ok h ∧
      h.firstUsable = 35 ∧ (∃ h2, backupOf m h .lb512 = .ok h2) := by
    have hlen : (PMap.insert 129 grownPart lineTable).length = 129 := by decide +kernel
    unfold initBuilder
    rw [show (growDisk.withParts (PMap.insert 129 grownPart lineTable)).partitions.length = 129 from hlen]
    show ∃ h, HeaderBuilder.build m (((((HeaderBuilder.fromHeader (createdP 32 299 Uuid.nil)).setNumParts (UInt32.ofNat 129)).setBackupLba
        299).setDiskGuid Uuid.nil).setPrimary true) .lb512 = .ok h ∧ _
    cases m <;> exact ⟨_, rfl, rfl, _, rfl⟩
  obtain ⟨h, hb, hf, h2, hb2⟩ := hb
  have hi := initHeaders_eq (s := growDisk.withParts (PMap.insert 129 grownPart lineTable)) (fresh := Uuid.nil) grow_find hb (fun _ => hb2)
  have hh : (growDisk.header : Res GptError _) = .ok (createdP 32 299 Uuid.nil) := rfl
  have hid : (createdP 32 299 Uuid.nil).numParts + 1 = 129 := by decide
  have hpart : (⟨(exPart 0 0).partType, Uuid.nil, 162, 162 + 1 - 1, 0, "x"⟩ : Partition) = grownPart := by decide
  have htab : growDisk.partitions = lineTable := rfl
  rw [← htab, ← hpart] at hi
  have hins := insertPartition_grow (by decide) (by decide) hh (by decide) (show growDisk.config.changePartitionCount = true from rfl) hi
  rw [heq, addLoop_grow (by decide) grow_next hh (by decide), hid, hins]
  refine ⟨_, h, rfl, rfl, hf, ?_⟩
  rw [← htab, ← hpart]
  rfl

theorem line_mem {i : UInt32} {p : Partition} (hm : (i, p) ∈ lineTable) : 1 ≤ i.toNat ∧ i.toNat ≤ 128 ∧
    p.firstLba.toNat = 33 + i.toNat ∧ p.lastLba.toNat = 33 + i.toNat := by
  obtain ⟨k, hk, e⟩ := List.mem_map.mp hm
  have hk := List.mem_range'_1.mp hk
  have e1 : UInt32.ofNat k = i := congrArg Prod.fst e
  have e2 : exPart (UInt64.ofNat (33 + k)) (UInt64.ofNat (33 + k)) = p := congrArg Prod.snd e
  subst e1 e2
  have h1 : (UInt32.ofNat k).toNat = k := by rw [UInt32.toNat_ofNat', Nat.mod_eq_of_lt (by omega)]
  have h2 : (UInt64.ofNat (33 + k)).toNat = 33 + k := by rw [UInt64.toNat_ofNat', Nat.mod_eq_of_lt (by omega)]
  rw [h1]
  exact ⟨by omega, by omega, h2, h2⟩

theorem line_tidy : Tidy (createdP 32 299 Uuid.nil) lineTable where
  keys := by decide +kernel
  order p hp := by
    obtain ⟨i, hm, -⟩ := hp
    have := line_mem hm
    omega
  inside p hp := by
    obtain ⟨i, hm, -⟩ := hp
    have := line_mem hm
    have h1 : (createdP 32 299 Uuid.nil).firstUsable.toNat = 34 := by decide
    have h2 : (createdP 32 299 Uuid.nil).lastUsable.toNat = 266 := by decide
    omega
  apart i j p q hi hj hij _ _ x hx := by
    have h1 := line_mem hi
    have h2 := line_mem hj
    unfold Covers at hx
    exact hij (UInt32.toNat_inj.mp (by omega))

theorem made_update (m : Mode) (cfg : GptConfig) {d : Dev} {B : Nat} {pp : PMap} (hf : d.faults = []) (hpos : d.pos < 2 ^ 64)
    (hlen : d.data.length < 2 ^ 64) (hk : JustEnough cfg.lbSize (128 * 128) 32) (hz : d.data.length / cfg.lbSize.usize = B + 1)
    (hB : 2 * 32 + 3 ≤ B) (hl : pp.length ≤ 128) (h0 : PMap.get pp 0 = none) :
    updatePartitions m pp Uuid.nil (madeDisk cfg d 32 B Uuid.nil) =
      (.ok (), reinit (madeDisk cfg d 32 B Uuid.nil) (createdP 32 B Uuid.nil) 32 B pp) :=
  updatePartitions_sane (madeDisk_sane (g := Uuid.nil) hlen hk hz hB) rfl hl h0 hf hpos hz

/-- Even with free extents and tidy tables the claim is false, once the number of entries grows: the 129th partition that
`add_partition` places makes the primary array one block longer, and that block belongs to the first partition. -/
theorem c23_fails_growth (m : Mode) : ∃ cfg d s0 s1 s2 h0 h2,
    createFromDevice m cfg (some Uuid.nil) Uuid.nil Uuid.nil d = (.ok s0, d) ∧ s0.tryHeader = .ok h0 ∧ Tidy h0 lineTable ∧
    updatePartitions m lineTable Uuid.nil s0 = (.ok (), s1) ∧
    addPartition m "x" 512 (exPart 0 0).partType 0 none Uuid.nil Uuid.nil s1 = (.ok 129, s2) ∧
    s2.tryHeader = .ok h2 ∧ ¬ Tidy h2 s2.partitions := by
  have hlen : dev300.data.length < 2 ^ 64 := by rw [dev300_length]; decide
  have hz : dev300.data.length / growConfig.lbSize.usize = 299 + 1 := by rw [dev300_length]; rfl
  have hpos : dev300.pos < 2 ^ 64 := by show 0 < 2 ^ 64; decide
  have hc := made_created m growConfig (d := dev300) (B := 299) rfl hpos hlen enough512 hz (by decide)
  have hu := made_update m growConfig (d := dev300) (B := 299) (pp := lineTable) rfl hpos hlen enough512 hz (by decide) (by decide +kernel)
    (by decide +kernel)
  obtain ⟨s2, h2, ha, hh2, hf, hp⟩ := grow_add m
  refine ⟨growConfig, dev300, _, growDisk, s2, createdP 32 299 Uuid.nil, h2, hc, rfl, line_tidy, hu, ha, hh2, fun ht => ?_⟩
  have := (ht.inside (exPart 34 34) ⟨1, by rw [hp]; decide +kernel, by decide⟩).1
  rw [hf] at this
  exact absurd this (by decide)

/-- A history the partial claim covers: a partition in a free extent, then one that `add_partition` places. -/
example (m : Mode) : ∃ s0 s d', createFromDevice m GptConfig.new (some Uuid.nil) Uuid.nil Uuid.nil dev100 = (.ok s0, d') ∧
    From m (SafeCall m) s0 s ∧ s.partitions.length = 2 := by
  have hc := made_created m GptConfig.new (d := dev100) (B := 99) rfl (by show 0 < 2 ^ 64; decide) (by rw [dev100_length]; decide)
    enough512 (by rw [dev100_length]; rfl) (by decide)
  have hcnt : ∀ {s s' : GptDisk}, s.tryHeader.map (·.numParts) = .ok 128 → s'.tryHeader.map (·.numParts) = .ok 128 →
      ∀ h h', s.tryHeader = .ok h → s'.tryHeader = .ok h' → h'.numParts.toNat ≤ h.numParts.toNat := by
    intro s s' e e' h h' hh hh'
    rw [hh] at e
    rw [hh'] at e'
    rw [show h.numParts = 128 from Except.ok.inj e, show h'.numParts = 128 from Except.ok.inj e']
  obtain ⟨op1, h1⟩ : ∃ op : Op, op = .addPartitionAt "y" 2 40 5 (exPart 0 0).partType 0 Uuid.nil Uuid.nil := ⟨_, rfl⟩
  obtain ⟨op2, h2⟩ : ∃ op : Op, op = .addPartition "x" 512 (exPart 0 0).partType 0 none Uuid.nil Uuid.nil := ⟨_, rfl⟩
  have hs1 : SafeCall m (madeDisk GptConfig.new dev100 32 99 Uuid.nil) op1 := by
    refine ⟨fun _ => ?_, ?_, ?_, ?_, hcnt (by decide +kernel) (by subst h1; cases m <;> decide +kernel)⟩
    · have e : (op1.step m (madeDisk GptConfig.new dev100 32 99 Uuid.nil)).1 = .ok (.id 2) := by subst h1; cases m <;> decide +kernel
      rw [e]
      exact ⟨by simp, by simp⟩
    · intro _ _ _ _ _ _ _ h; rw [h1] at h; cases h
    · intro _ _ first length _ _ _ _ h hd hh x hx hx'
      rw [h1] at h
      cases h
      have e : hd = createdP 32 99 Uuid.nil := (Except.ok.inj hh).symm
      subst e
      have e1 : (createdP 32 99 Uuid.nil).firstUsable.toNat = 34 := by decide
      have e2 : (createdP 32 99 Uuid.nil).lastUsable.toNat = 66 := by decide
      have e3 : (40 : UInt64).toNat = 40 := rfl
      have e4 : (5 : UInt64).toNat = 5 := rfl
      refine ⟨by omega, by omega, fun p hp => ?_⟩
      obtain ⟨i, hm, -⟩ := hp
      exact absurd hm List.not_mem_nil
    · intro _ _ h; rw [h1] at h; cases h
  have hs2 : SafeCall m (op1.step m (madeDisk GptConfig.new dev100 32 99 Uuid.nil)).2 op2 := by
    refine ⟨fun _ => ?_, ?_, ?_, ?_, hcnt (by subst h1; cases m <;> decide +kernel) (by subst h1 h2; cases m <;> decide +kernel)⟩
    · have e : (op2.step m (op1.step m (madeDisk GptConfig.new dev100 32 99 Uuid.nil)).2).1 = .ok (.id 1) := by
        subst h1 h2; cases m <;> decide +kernel
      rw [e]
      exact ⟨by simp, by simp⟩
    · intro _ _ _ _ _ _ _ h
      rw [h2] at h
      cases h
      exact .inr (fun a ha => by cases ha)
    · intro _ _ _ _ _ _ _ _ h; rw [h2] at h; cases h
    · intro _ _ h; rw [h2] at h; cases h
  exact ⟨_, _, _, hc, .step op2 (.step op1 .start (by rw [h1]; trivial) hs1) (by rw [h2]; trivial) hs2, by
    subst h1 h2; cases m <;> decide +kernel⟩

end Gpt
