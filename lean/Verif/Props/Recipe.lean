import Verif.Props.Session
import Verif.Props.Block0
/-!
# Filling a new disk: C101

The program of the crate's documentation (src/lib.rs:35-67), with any partitions: make a table on a device, add partitions one after
the other, write.
-/

namespace Gpt

open Spec GptDisk

namespace Spec

/-- What `add_partition` is asked for; the GUIDs are those the call draws. -/
structure Request where
  name : String
  size : UInt64
  ty : PType
  flags : UInt64
  guid : Uuid
  guid2 : Uuid

/-- Partitions laid one behind the other from block `next` up to block `stop`, numbered from `i`: what is asked for, what each call
returns, the entries made. A partition that does not fit is left out; so are those after the 128th. -/
inductive Packs (lb : LbSize) (stop : Nat) : Nat → Nat → List Request → List (Res GptError UInt32) → PMap → Prop
  | nil {next i : Nat} : Packs lb stop next i [] [] []
  | placed {next i n : Nat} {r : Request} {rs : List Request} {os : List (Res GptError UInt32)} {t : PMap} (id : UInt32) (p : Partition) :
      JustEnough lb r.size.toNat n → next + n ≤ stop → i ≤ 128 → id.toNat = i → p.firstLba.toNat = next →
      p.lastLba.toNat = next + n - 1 → p.partType = r.ty → p.partGuid = r.guid → p.flags = r.flags → p.name = r.name →
      Packs lb stop (next + n) (i + 1) rs os t → Packs lb stop next i (r :: rs) (.ok id :: os) ((id, p) :: t)
  | tooBig {next i n : Nat} {r : Request} {rs : List Request} {os : List (Res GptError UInt32)} {t : PMap} :
      JustEnough lb r.size.toNat n → stop < next + n → Packs lb stop next i rs os t →
      Packs lb stop next i (r :: rs) (.err .notEnoughSpace :: os) t
  | full {next i n : Nat} {r : Request} {rs : List Request} {os : List (Res GptError UInt32)} {t : PMap} :
      JustEnough lb r.size.toNat n → next + n ≤ stop → 128 < i → Packs lb stop next i rs os t →
      Packs lb stop next i (r :: rs) (.err .partitionCountWouldChange :: os) t

/-- The calls of `add_partition`, whatever each returns. -/
def addAll (m : Mode) : List Request → GptDisk → List (Res GptError UInt32) × GptDisk
  | [], s => ([], s)
  | r :: rs, s =>
    let o := addPartition m r.name r.size r.ty r.flags none r.guid r.guid2 s
    let rest := addAll m rs o.2
    (o.1 :: rest.1, rest.2)

end Spec

/-- The table holds entries 1, …, `i - 1`, which cover the blocks `2 + k`, …, `next - 1`. -/
structure RowTo (k next i : Nat) (t : PMap) : Prop where
  low : 2 + k ≤ next
  one : 1 ≤ i
  top : i ≤ 129
  keys : ∀ j p, (j, p) ∈ t → j.toNat < i
  taken : ∀ j, 1 ≤ j → j < i → Taken t j
  covered : ∀ x, 2 + k ≤ x → x < next → ∃ p, Used t p ∧ Covers p x
  below : ∀ p, Used t p → p.lastLba.toNat < next

theorem put_append {t : PMap} {id : UInt32} (p : Partition) (hs : PMap.Sorted t) (hk : ∀ j q, (j, q) ∈ t → j.toNat < id.toNat) :
    Put t (t ++ [(id, p)]) id p where
  keys := List.pairwise_append.mpr ⟨hs, List.pairwise_singleton _ _, fun a ha b hb => by
    rw [List.mem_singleton.mp hb]; exact UInt32.lt_iff_toNat_lt.mpr (hk a.1 a.2 ha)⟩
  new := List.mem_append_right _ (List.mem_singleton_self _)
  others := fun j q hj => by
    rw [List.mem_append, List.mem_singleton, Prod.mk.injEq]
    exact ⟨fun h => h.resolve_right fun e => hj e.1, .inl⟩

theorem addAll_row {m : Mode} {cfg : GptConfig} {k : Nat} {d : Dev} (reqs : List Request) (h0 : ∀ r ∈ reqs, r.size ≠ 0 ∧ r.ty.guid ≠ Uuid.nil) :
    ∀ (s : GptDisk) (next i : Nat), InSession m cfg k d s → RowTo k next i s.partitions →
      ∃ t, Packs cfg.lbSize (d.data.length / cfg.lbSize.usize - 1 - k) next i reqs (addAll m reqs s).1 t ∧
        (addAll m reqs s).2 = { s with partitions := s.partitions ++ t } ∧ InSession m cfg k d (addAll m reqs s).2 := by
  induction reqs with
  | nil => exact fun s next i hs _ => ⟨[], .nil, by rw [List.append_nil]; rfl, hs⟩
  | cons r rs ih =>
    intro s next i hs hrow
    obtain ⟨hsz, hty⟩ := h0 r List.mem_cons_self
    have ih := ih fun r hr => h0 r (List.mem_cons_of_mem _ hr)
    obtain ⟨n, hn⟩ : ∃ n, JustEnough cfg.lbSize r.size.toNat n := ⟨_, (sizeLba_spec (lb := cfg.lbSize) hsz).1⟩
    have hpos : 0 < n := by
      rcases Nat.eq_zero_or_pos n with e | e
      · subst e
        have := hn.enough
        rw [Nat.zero_mul] at this
        exact absurd (UInt64.toNat_inj.mp (show r.size.toNat = (0 : UInt64).toNat from by rw [Nat.le_zero.mp this]; rfl)) hsz
      · exact e
    obtain ⟨c1, c2, c3⟩ := c82_add hs r.name r.size r.ty r.flags none r.guid r.guid2 hsz (fun _ h => nomatch h) hn
    have hN : 2 * k + 4 ≤ d.data.length / cfg.lbSize.usize := by
      obtain ⟨B, h, hB, hkB, -⟩ := hs.sound
      omega
    -- a vacant run starts behind the row
    have hvac : ∀ y, Vacant (d.data.length / cfg.lbSize.usize) k s.partitions y n → next ≤ y := by
      rintro y ⟨v1, v2, v3⟩
      rcases Nat.lt_or_ge y next with e | e
      · obtain ⟨p, hp, hc⟩ := hrow.covered y v1 e
        exact absurd hc (v3 p hp y (Nat.le_refl _) (by omega))
      · exact e
    have hnext : next + n ≤ d.data.length / cfg.lbSize.usize - 1 - k → Vacant (d.data.length / cfg.lbSize.usize) k s.partitions next n :=
      fun h => ⟨hrow.low, by omega, fun p hp x a _ c => by have := hrow.below p hp; have := c.2; omega⟩
    have hsess : InSession m cfg k d (addPartition m r.name r.size r.ty r.flags none r.guid r.guid2 s).2 := by
      obtain ⟨guid, fresh, fresh2, s0, d0, hcr, hse⟩ := hs.session
      have := Session.call (.addPartition r.name r.size r.ty r.flags none r.guid r.guid2) hse ⟨hsz, fun _ h => nomatch h⟩
      have e : ((Op.addPartition r.name r.size r.ty r.flags none r.guid r.guid2).step m s).2 =
          (addPartition m r.name r.size r.ty r.flags none r.guid r.guid2 s).2 := rfl
      rw [e] at this
      exact ⟨hs.works, hs.small, hs.array, hs.writable, hs.count, hs.headers, guid, fresh, fresh2, s0, d0, hcr, this⟩
    by_cases hfit : next + n ≤ d.data.length / cfg.lbSize.usize - 1 - k
    · by_cases hi : i ≤ 128
      · obtain ⟨id, t, p, hid, he, hput, hp1, hp2, hp3, hp4, hp5, hp6⟩ := c3 next i (fun _ h => nomatch h) (hnext hfit)
          (fun y' hy _ hv => absurd (hvac y' hv) (by omega)) hrow.one hi
          (fun ⟨j, q, hq, e, _⟩ => absurd (hrow.keys j q hq) (by omega)) hrow.taken
        obtain rfl := put_unique hput (put_append p (c67_table hs).choose_spec.2.1.keys fun j q hq => by rw [hid]; exact hrow.keys j q hq)
        have hused : ∀ q, Used (s.partitions ++ [(id, p)]) q ↔ Used s.partitions q ∨ q = p := by
          intro q
          constructor
          · rintro ⟨j, hj, hq⟩
            rcases List.mem_append.mp hj with hj | hj
            · exact .inl ⟨j, hj, hq⟩
            · exact .inr (Prod.mk.inj (List.mem_singleton.mp hj)).2
          · rintro (⟨j, hj, hq⟩ | rfl)
            · exact ⟨j, List.mem_append_left _ hj, hq⟩
            · exact ⟨id, hput.new, by rw [hp1]; exact hty⟩
        have hrow' : RowTo k (next + n) (i + 1) (s.partitions ++ [(id, p)]) := by
          refine ⟨by have := hrow.low; omega, by omega, by omega, ?_, ?_, ?_, ?_⟩
          · intro j q hj
            rcases List.mem_append.mp hj with hj | hj
            · have := hrow.keys j q hj; omega
            · rw [(Prod.mk.inj (List.mem_singleton.mp hj)).1]; omega
          · intro j h1 h2
            rcases Nat.lt_or_ge j i with e | e
            · obtain ⟨a, q, hq, e, hn⟩ := hrow.taken j h1 e
              exact ⟨a, q, List.mem_append_left _ hq, e, hn⟩
            · exact ⟨id, p, hput.new, by omega, by rw [hp1]; exact hty⟩
          · intro x h1 h2
            rcases Nat.lt_or_ge x next with e | e
            · obtain ⟨q, hq, hc⟩ := hrow.covered x h1 e
              exact ⟨q, (hused q).mpr (.inl hq), hc⟩
            · exact ⟨p, (hused p).mpr (.inr rfl), by omega, by omega⟩
          · intro q hq
            rcases (hused q).mp hq with hq | rfl
            · have := hrow.below q hq; omega
            · omega
        rw [he] at hsess
        obtain ⟨t, h1, h2, h3⟩ := ih _ (next + n) (i + 1) hsess hrow'
        refine ⟨(id, p) :: t, ?_, ?_, ?_⟩
        · unfold addAll; rw [he]
          exact .placed id p hn hfit hi hid hp3 hp4 hp1 hp2 hp5 hp6 h1
        · unfold addAll; rw [he]
          exact h2.trans (by simp)
        · unfold addAll; rw [he]; exact h3
      · have he := c2 next (fun _ h => nomatch h) (hnext hfit) (fun j a b => hrow.taken j a (by omega))
        obtain ⟨t, h1, h2, h3⟩ := ih s next i hs hrow
        refine ⟨t, ?_, ?_, ?_⟩
        · unfold addAll; rw [he]
          exact .full hn hfit (by omega) h1
        · unfold addAll; rw [he]; exact h2
        · unfold addAll; rw [he]; exact h3
    · have he := c1 fun y _ hv => by
        have := hvac y hv
        have := hv.2.1
        omega
      obtain ⟨t, h1, h2, h3⟩ := ih s next i hs hrow
      refine ⟨t, ?_, ?_, ?_⟩
      · unfold addAll; rw [he]
        exact .tooBig hn (by omega) h1
      · unfold addAll; rw [he]; exact h2
      · unfold addAll; rw [he]; exact h3

/-- **C101**, the table: on a table just created on a working device, calls of `add_partition` without alignment place the partitions
one behind the other from the first usable block, numbered 1, 2, …; one that does not fit before the last usable block is refused
with `NotEnoughSpace`, one that would fit as the 129th with `PartitionCountWouldChange`, and the next is tried at the same place.
Nothing but the table changes. -/
theorem c101_packed {m : Mode} {cfg : GptConfig} {k : Nat} {d d0 : Dev} {s0 : GptDisk} {guid : Option Uuid} {fresh fresh2 : Uuid}
    (hw : d.Works) (hsm : d.data.length < 2 ^ 60) (hk : JustEnough cfg.lbSize (128 * 128) k) (hwr : cfg.writable = true)
    (hc : cfg.changePartitionCount = false) (hv : cfg.onlyValidHeaders = true → cfg.readonlyBackup = false)
    (hcr : createFromDevice m cfg guid fresh fresh2 d = (.ok s0, d0)) (reqs : List Request)
    (h0 : ∀ r ∈ reqs, r.size ≠ 0 ∧ r.ty.guid ≠ Uuid.nil) :
    ∃ t, Packs cfg.lbSize (d.data.length / cfg.lbSize.usize - 1 - k) (2 + k) 1 reqs (addAll m reqs s0).1 t ∧
      (addAll m reqs s0).2 = { s0 with partitions := t } ∧ InSession m cfg k d (addAll m reqs s0).2 := by
  have ht := (c61_created m cfg guid fresh fresh2 d d0 k s0 hw.pos (by omega) hk hcr).2.2.2.2.1
  have hs : InSession m cfg k d s0 := ⟨hw, hsm, hk, hwr, hc, hv, guid, fresh, fresh2, s0, d0, hcr, .start⟩
  obtain ⟨t, h1, h2, h3⟩ := addAll_row (m := m) reqs h0 s0 (2 + k) 1 hs (by
    rw [ht]
    exact ⟨Nat.le_refl _, Nat.le_refl _, by omega, (fun _ _ h => nomatch h), (fun _ _ _ => by omega), (fun _ _ _ => by omega),
      fun _ ⟨_, h, _⟩ => nomatch h⟩)
  exact ⟨t, h1, by rw [h2, ht]; rfl, h3⟩

/-- **C101**, determined: the requests decide every result and entry. -/
theorem c101_determined {lb : LbSize} {stop : Nat} {reqs : List Request} : ∀ {next i : Nat} {os os' : List (Res GptError UInt32)} {t t' : PMap},
    Packs lb stop next i reqs os t → Packs lb stop next i reqs os' t' → os = os' ∧ t = t' := by
  induction reqs with
  | nil => intro next i os os' t t' h h'; cases h; cases h'; exact ⟨rfl, rfl⟩
  | cons r rs ih =>
    intro next i os os' t t' h h'
    cases h with
    | placed id p a1 a2 a3 a4 a5 a6 a7 a8 a9 a10 hh =>
      cases h' with
      | placed id' p' b1 b2 b3 b4 b5 b6 b7 b8 b9 b10 hh' =>
        obtain rfl := justEnough_unique a1 b1
        obtain ⟨rfl, rfl⟩ := ih hh hh'
        obtain rfl : id = id' := UInt32.toNat_inj.mp (a4.trans b4.symm)
        obtain ⟨p1, p2, p3, p4, p5, p6⟩ := p
        obtain ⟨q1, q2, q3, q4, q5, q6⟩ := p'
        simp only at a5 a6 a7 a8 a9 a10 b5 b6 b7 b8 b9 b10
        subst a7 a8 a9 a10 b7 b8 b9 b10
        obtain rfl := UInt64.toNat_inj.mp (a5.trans b5.symm)
        obtain rfl := UInt64.toNat_inj.mp (a6.trans b6.symm)
        exact ⟨rfl, rfl⟩
      | tooBig b1 b2 => obtain rfl := justEnough_unique a1 b1; omega
      | full _ _ b3 => omega
    | tooBig a1 a2 hh =>
      cases h' with
      | placed id' p' b1 b2 => obtain rfl := justEnough_unique a1 b1; omega
      | tooBig b1 b2 hh' => obtain ⟨rfl, rfl⟩ := ih hh hh'; exact ⟨rfl, rfl⟩
      | full b1 b2 => obtain rfl := justEnough_unique a1 b1; omega
    | full a1 a2 a3 hh =>
      cases h' with
      | placed id' p' b1 b2 b3 => omega
      | tooBig b1 b2 => obtain rfl := justEnough_unique a1 b1; omega
      | full b1 b2 b3 hh' => obtain ⟨rfl, rfl⟩ := ih hh hh'; exact ⟨rfl, rfl⟩

/-- **C101**, all of them: every call succeeds exactly if there are no more than 128 and their blocks fit together. -/
theorem c101_all {lb : LbSize} {stop : Nat} {reqs : List Request} {ns : List Nat}
    (hn : List.Forall₂ (fun r n => JustEnough lb r.size.toNat n) reqs ns) :
    ∀ {next i : Nat} {os : List (Res GptError UInt32)} {t : PMap}, i ≤ 129 → next ≤ stop → Packs lb stop next i reqs os t →
      ((∀ o ∈ os, ∃ id, o = .ok id) ↔ i + reqs.length ≤ 129 ∧ next + ns.sum ≤ stop) := by
  induction hn with
  | nil =>
    intro next i os t hi hs h
    cases h
    exact ⟨fun _ => ⟨hi, hs⟩, fun _ _ h => nomatch h⟩
  | cons hn _ ih =>
    intro next i os t hi hs h
    cases h with
    | placed id p a1 a2 a3 a4 a5 a6 a7 a8 a9 a10 hh =>
      obtain rfl := justEnough_unique a1 hn
      have := ih (by omega) a2 hh
      rw [List.forall_mem_cons, this, List.length_cons, List.sum_cons]
      constructor
      · rintro ⟨-, h1, h2⟩; omega
      · intro ⟨h1, h2⟩; exact ⟨⟨id, rfl⟩, by omega, by omega⟩
    | tooBig a1 a2 hh =>
      obtain rfl := justEnough_unique a1 hn
      rw [List.sum_cons]
      exact ⟨fun h => (h _ List.mem_cons_self).elim fun _ e => (nomatch e), fun h => by omega⟩
    | full a1 a2 a3 hh =>
      rw [List.length_cons]
      exact ⟨fun h => (h _ List.mem_cons_self).elim fun _ e => (nomatch e), fun h => by omega⟩

theorem packs_used {lb : LbSize} {stop : Nat} {reqs : List Request} (h0 : ∀ r ∈ reqs, r.ty.guid ≠ Uuid.nil) :
    ∀ {next i : Nat} {os : List (Res GptError UInt32)} {t : PMap}, Packs lb stop next i reqs os t →
      Spec.used t = t.map Prod.snd ∧ ∀ j (hj : j < t.length), t[j].1.toNat = i + j := by
  induction reqs with
  | nil => intro next i os t h; cases h; exact ⟨rfl, fun _ h => nomatch h⟩
  | cons r rs ih =>
    intro next i os t h
    have ih := fun {next i os t} => @ih (fun r hr => h0 r (List.mem_cons_of_mem _ hr)) next i os t
    cases h with
    | placed id p a1 a2 a3 a4 a5 a6 a7 a8 a9 a10 hh =>
      obtain ⟨e1, e2⟩ := ih hh
      refine ⟨?_, fun j hj => ?_⟩
      · unfold Spec.used at e1 ⊢
        rw [List.map_cons, List.filter_cons, if_pos, e1]
        rw [a7]
        exact bne_iff_ne.mpr (h0 r List.mem_cons_self)
      · cases j with
        | zero => exact a4
        | succ j => have := e2 j (by simpa using hj); simp only [List.getElem_cons_succ]; omega
    | tooBig a1 a2 hh => exact ih hh
    | full a1 a2 a3 hh => exact ih hh

/-- The entries of `t` come back under the same ids. -/
structure Spec.SameTable (t t' : PMap) : Prop where
  length : t'.length = t.length
  entries : ∀ (j : Nat) (hj : j < t.length), ∃ q, t'[j]? = some (t[j].1, q) ∧ SameEntry t[j].2 q

/-- **C101**, the whole program: on a working device with room for a table, writing a protective MBR, creating the table, adding
partitions and writing succeed. Afterwards the first 512 bytes are the MBR, the bytes between the arrays are as before, and opening
the device gives the disk GUID and the partitions added, under the same ids. -/
theorem c101_program (m : Mode) (cfg : GptConfig) (k : Nat) (d : Dev) (mbr : ProtectiveMbr) (guid : Option Uuid) (fresh fresh2 : Uuid)
    (hw : d.Works) (hsm : d.data.length < 2 ^ 60) (hk : JustEnough cfg.lbSize (128 * 128) k) (hwr : cfg.writable = true)
    (hc : cfg.changePartitionCount = false) (hv : cfg.onlyValidHeaders = true → cfg.readonlyBackup = false)
    (hroom : 2 * k + 4 ≤ d.data.length / cfg.lbSize.usize) (reqs : List Request) (h0 : ∀ r ∈ reqs, r.size ≠ 0 ∧ r.ty.guid ≠ Uuid.nil) :
    ∃ d1 s0 d0 t s1 s2 d2, mbr.overwriteLba0 d = (.ok 512, d1) ∧ createFromDevice m cfg guid fresh fresh2 d1 = (.ok s0, d0) ∧
      Packs cfg.lbSize (d.data.length / cfg.lbSize.usize - 1 - k) (2 + k) 1 reqs (addAll m reqs s0).1 t ∧
      (addAll m reqs s0).2 = { s0 with partitions := t } ∧ writeInplace m (addAll m reqs s0).2 = (.ok (), s1) ∧
      s1.device.data.length = d.data.length ∧ slice s1.device.data 0 512 = mbr.toBytes ∧
      (∀ i, (2 + k) * cfg.lbSize.usize ≤ i → i < (d.data.length / cfg.lbSize.usize - 1 - k) * cfg.lbSize.usize →
        byteAt s1.device.data i = byteAt d.data i) ∧
      openFromDevice m cfg s1.device = (.ok s2, d2) ∧ s2.guid = guid.getD fresh ∧ SameTable t s2.partitions := by
  have hlb := lb_le cfg.lbSize
  have hpos := lb_pos cfg.lbSize
  have hdm := Nat.div_mul_le_self d.data.length cfg.lbSize.usize
  have h4 : 4 * cfg.lbSize.usize ≤ d.data.length / cfg.lbSize.usize * cfg.lbSize.usize := Nat.mul_le_mul_right _ (by omega)
  have hlen := mbr.toBytes_length
  -- the MBR
  obtain ⟨e1, e2, -⟩ := overwriteLba0_eq mbr d
  rcases hov : mbr.overwriteLba0 d with ⟨r1, d1⟩
  rw [hov] at e1 e2
  have hr1 : r1 = .ok 512 := e2.mpr (writeAt_succeeds hw.faults (by have := hw.length; rw [hlen, show (0 : UInt64).toNat = 0 from rfl]; omega))
  subst hr1
  obtain ⟨-, hd1, hp1⟩ := c52_overwrite mbr d d1 512 hw.pos hov
  have hl1 : d1.data.length = d.data.length := by rw [hd1, patch_length, hlen]; omega
  have hw1 : d1.Works := by
    have F := Dev.works_frame
    have : M.Pres (fun d d' => d.Works → d'.Works ∧ d'.cap = d.cap) (writeAt 0 mbr.toBytes) := by
      unfold writeAt
      exact .bind F.chain F.streamPosition fun _ => .bind F.chain (F.seekStart _) fun _ => .bind F.chain (F.writeAll _) fun _ =>
        .bind F.chain F.flush fun _ => .bind F.chain (F.seekStart _) fun _ => .pure F.chain _
    rw [show d1 = (writeAt 0 mbr.toBytes d).2 from e1]
    exact (this d hw).1
  obtain ⟨s0, hs0⟩ := (c61_when m cfg guid fresh fresh2 d1 k hw1.faults hw1.pos (by omega) hk).1.mpr (by rw [hl1]; exact hroom)
  rcases hcr : createFromDevice m cfg guid fresh fresh2 d1 with ⟨r, d0⟩
  rw [hcr] at hs0
  obtain rfl : r = .ok s0 := hs0
  obtain ⟨t, ht1, ht2, hs⟩ := c101_packed hw1 (by omega) hk hwr hc hv hcr reqs h0
  rw [hl1] at ht1
  obtain ⟨s1, s2, d2, h, hx, ho, -, hh, hg, hn⟩ := c67_write_open hs
  have hs1 : InSession m cfg k d1 s1 := by
    obtain ⟨guid', fresh', fresh2', s0', d0', hcr', hse⟩ := hs.session
    have := Session.call .writeInplace hse trivial
    rw [show (Op.writeInplace.step m (addAll m reqs s0).2).2 = s1 from congrArg Prod.snd hx] at this
    exact ⟨hs.works, hs.small, hs.array, hs.writable, hs.count, hs.headers, guid', fresh', fresh2', s0', d0', hcr', this⟩
  have hl2 := (c67_data hs1 0 (.inl hpos)).2
  refine ⟨d1, s0, d0, t, s1, s2, d2, rfl, hcr, ht1, ht2, hx, hl2.trans hl1, ?_, ?_, ho, ?_, ?_⟩
  · refine slice_eq_of_byteAt (by omega) hlen fun i hi => ?_
    rw [Nat.zero_add, (c67_data hs1 i (.inl (by omega))).1, hd1, byteAt_patch_inside (Nat.zero_le _) (by omega)]
    rfl
  · intro i h1 h2
    have q : 2 * cfg.lbSize.usize ≤ (2 + k) * cfg.lbSize.usize := Nat.mul_le_mul_right _ (by omega)
    rw [(c67_data hs1 i (.inr (.inl ⟨h1, by rw [hl1]; exact h2⟩))).1, hd1, byteAt_patch_outside (.inr (by omega))]
  · obtain ⟨-, -, -, -, -, -, p, hp, hwd, -⟩ := c61_created m cfg guid fresh fresh2 d1 d0 k s0 hw1.pos (by omega) hk hcr
    rw [ht2, show ({ s0 with partitions := t } : GptDisk).tryHeader = s0.tryHeader from tryHeader_congr rfl rfl, GptDisk.tryHeader, hp] at hh
    cases hh
    rw [hg]
    exact hwd.guid
  · obtain ⟨u1, u2⟩ := packs_used (fun r hr => (h0 r hr).2) ht1
    rw [ht2] at hn
    have hn : Numbered (Spec.used t) s2.partitions := hn
    rw [u1] at hn
    have hll : (t.map Prod.snd).length = t.length := List.length_map ..
    refine ⟨hn.length.trans hll, fun j hj => ?_⟩
    obtain ⟨id, q, hq, hid, hse⟩ := hn.entries j (by omega)
    refine ⟨q, ?_, by simpa using hse⟩
    rw [hq, show id = t[j].1 from UInt32.toNat_inj.mp (by rw [hid, u2 j hj]; omega)]

theorem enough_of (x n : Nat) (h1 : x ≤ n * 512) (h2 : n * 512 < x + 512) : JustEnough .lb512 x n :=
  ⟨h1, fun j hj => by change x ≤ j * 512 at hj; omega⟩

/-- The program of the documentation: 64 KiB, 12 KiB and 18 KiB. -/
def docRequests (a b c e : Uuid) (basic linux : PType) : List Request :=
  [⟨"test1", 1024 * 12, basic, 0, a, b⟩, ⟨"test2", 1024 * 18, linux, 0, c, e⟩]

/-- It makes the partitions 34-57 and 58-93, whatever the device held before. -/
example (m : Mode) (z : Bytes) (hz : z.length = 1024 * 64) (a b c e g g2 : Uuid) (basic linux : PType) (hb : basic.guid ≠ Uuid.nil)
    (hl : linux.guid ≠ Uuid.nil) (mbr : ProtectiveMbr) : ∃ d1 s0 d0 s1 s2 d2,
    mbr.overwriteLba0 ⟨z, 0, 1024 * 64, [], []⟩ = (.ok 512, d1) ∧
    createFromDevice m (GptConfig.new.setWritable true) none g g2 d1 = (.ok s0, d0) ∧
    addAll m (docRequests a b c e basic linux) s0 = ([.ok 1, .ok 2], { s0 with partitions :=
      [(1, ⟨basic, a, 34, 57, 0, "test1"⟩), (2, ⟨linux, c, 58, 93, 0, "test2"⟩)] }) ∧
    writeInplace m (addAll m (docRequests a b c e basic linux) s0).2 = (.ok (), s1) ∧
    openFromDevice m (GptConfig.new.setWritable true) s1.device = (.ok s2, d2) ∧ s2.guid = g ∧
    SameTable [(1, ⟨basic, a, 34, 57, 0, "test1"⟩), (2, ⟨linux, c, 58, 93, 0, "test2"⟩)] s2.partitions := by
  have hk : JustEnough (GptConfig.new.setWritable true).lbSize (128 * 128) 32 := enough512
  have hN : z.length / (GptConfig.new.setWritable true).lbSize.usize = 128 := by rw [hz]; rfl
  have h0 : ∀ r ∈ docRequests a b c e basic linux, r.size ≠ 0 ∧ r.ty.guid ≠ Uuid.nil := by
    intro r hr
    rcases List.mem_cons.mp hr with rfl | hr
    · exact ⟨by simp only; decide, hb⟩
    · rw [List.mem_singleton.mp hr]; exact ⟨by simp only; decide, hl⟩
  obtain ⟨d1, s0, d0, t, s1, s2, d2, e1, e2, e3, e4, e5, -, -, -, e6, e7, e8⟩ := c101_program m (GptConfig.new.setWritable true) 32
    ⟨z, 0, 1024 * 64, [], []⟩ mbr none g g2 ⟨rfl, by show 1024 * 64 < 2 ^ 64; decide, by show z.length ≤ 1024 * 64; omega, by show 0 < 2 ^ 64; decide⟩
    (by show z.length < _; omega) hk rfl rfl (fun h => nomatch h) (by show _ ≤ z.length / _; rw [hN]; decide) _ h0
  rw [show ((⟨z, 0, 1024 * 64, [], []⟩ : Dev).data.length / (GptConfig.new.setWritable true).lbSize.usize) = 128 from hN] at e3
  have e9 : Packs (GptConfig.new.setWritable true).lbSize (128 - 1 - 32) (2 + 32) 1 (docRequests a b c e basic linux) [.ok 1, .ok 2]
      [(1, ⟨basic, a, 34, 57, 0, "test1"⟩), (2, ⟨linux, c, 58, 93, 0, "test2"⟩)] :=
    .placed (n := 24) 1 _ (enough_of (1024 * 12) 24 (by decide) (by decide)) (by decide) (by decide) rfl rfl rfl rfl rfl rfl rfl
      (.placed (n := 36) 2 _ (enough_of (1024 * 18) 36 (by decide) (by decide)) (by decide) (by decide) rfl rfl rfl rfl rfl rfl rfl .nil)
  obtain ⟨f1, rfl⟩ := c101_determined e3 e9
  exact ⟨d1, s0, d0, s1, s2, d2, e1, e2, Prod.ext f1 e4, e5, e6, e7, e8⟩

/-- On that device a third partition of one block fits, a fourth does not: the four results. -/
example (r r' : Request) (h : r.size = 1) (h' : r'.size = 513) (a b c e : Uuid) (basic linux : PType) (os : List (Res GptError UInt32)) (t : PMap)
    (hp : Packs .lb512 (128 - 1 - 32) (2 + 32) 1 (docRequests a b c e basic linux ++ [r', r, r']) os t) :
    os = [.ok 1, .ok 2, .err .notEnoughSpace, .ok 3, .err .notEnoughSpace] := by
  have h3 : JustEnough .lb512 r'.size.toNat 2 := by rw [h']; exact enough_of 513 2 (by decide) (by decide)
  have h4 : JustEnough .lb512 r.size.toNat 1 := by rw [h]; exact enough_of 1 1 (by decide) (by decide)
  exact (c101_determined hp
    (.placed (n := 24) 1 ⟨basic, a, 34, 57, 0, "test1"⟩ (enough_of (1024 * 12) 24 (by decide) (by decide)) (by decide) (by decide) rfl rfl rfl rfl rfl rfl rfl
      (.placed (n := 36) 2 ⟨linux, c, 58, 93, 0, "test2"⟩ (enough_of (1024 * 18) 36 (by decide) (by decide)) (by decide) (by decide) rfl rfl rfl rfl rfl rfl rfl
        (.tooBig h3 (by decide) (.placed (n := 1) 3 ⟨r.ty, r.guid, 94, 94, r.flags, r.name⟩ h4 (by decide) (by decide) rfl rfl rfl rfl rfl rfl rfl
          (.tooBig h3 (by decide) .nil)))))).1

end Gpt
