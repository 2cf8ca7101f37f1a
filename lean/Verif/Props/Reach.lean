import Mathlib.Data.List.Perm.Subperm
import Verif.Props.Create
import Verif.Props.Table
import Verif.Lemmas.Errors
/-!
# Histories: C23, C55, C58, C59
-/

namespace Gpt

open Spec GptDisk

/-! ## Reachable states -/

/-- The states a program can get a `GptDisk` into: it is created or opened, on a device or a file, and then used through the
public API with any arguments, as long as every call satisfies `ok`. Calls that fail or panic count too. -/
inductive Spec.Reach (m : Mode) (ok : GptDisk → Op → Prop) : GptDisk → Prop
  | created {cfg : GptConfig} {guid : Option Uuid} {fresh fresh2 : Uuid} {d d' : Dev} {s : GptDisk} :
      createFromDevice m cfg guid fresh fresh2 d = (.ok s, d') → Reach m ok s
  | opened {cfg : GptConfig} {d d' : Dev} {s : GptDisk} : openFromDevice m cfg d = (.ok s, d') → Reach m ok s
  | createdFile {cfg : GptConfig} {fresh fresh2 : Uuid} {d d' : Dev} {s : GptDisk} :
      createFile m cfg fresh fresh2 d = (.ok s, d') → Reach m ok s
  | openedFile {cfg : GptConfig} {d d' : Dev} {s : GptDisk} : openFile m cfg d = (.ok s, d') → Reach m ok s
  | step {s : GptDisk} (op : Op) : Reach m ok s → op.Wf → ok s op → Reach m ok (op.step m s).2
  | cloned {s : GptDisk} : Reach m ok s → Reach m ok s.clone
  | moved {s : GptDisk} (d : Dev) (w : Bool) : Reach m ok s → Reach m ok (s.withDiskDevice d w)

/-- No restriction on the calls. -/
def Spec.anyCall : GptDisk → Op → Prop := fun _ _ => True

theorem createFile_ok {m : Mode} {cfg : GptConfig} {fresh fresh2 : Uuid} {d d' : Dev} {s : GptDisk}
    (h : createFile m cfg fresh fresh2 d = (.ok s, d')) :
    ∃ g, createFromDevice m cfg none fresh fresh2 d = (.ok g, d') ∧ s = { g with syncAll := true } := by
  unfold createFile at h
  simp only [M.bind_ok, M.pure_ok] at h
  obtain ⟨g, d1, h1, h2, rfl⟩ := h
  exact ⟨g, h1, h2.symm⟩

theorem openFile_ok {m : Mode} {cfg : GptConfig} {d d' : Dev} {s : GptDisk} (h : openFile m cfg d = (.ok s, d')) :
    ∃ g, openFromDevice m cfg d = (.ok g, d') ∧ s = { g with syncAll := true } := by
  unfold openFile at h
  simp only [M.bind_ok, M.pure_ok] at h
  obtain ⟨g, d1, h1, h2, rfl⟩ := h
  exact ⟨g, h1, h2.symm⟩

theorem created_table {m : Mode} {cfg : GptConfig} {guid : Option Uuid} {fresh fresh2 : Uuid} {d d' : Dev} {s : GptDisk}
    (h : createFromDevice m cfg guid fresh fresh2 d = (.ok s, d')) : s.partitions = [] := by
  unfold createFromDevice at h
  rcases hx : initHeaders m fresh2 (blankDisk cfg d (guid.getD fresh)) with ⟨r, s1⟩
  rw [hx] at h
  have := (initHeaders_same hx).partitions
  cases r with
  | err e => simp at h
  | panic => simp at h
  | ok u =>
    simp only [Prod.mk.injEq, Res.ok.injEq] at h
    obtain ⟨rfl, -⟩ := h
    exact this

/-- What a call does to the table. -/
inductive TableStep (m : Mode) (s : GptDisk) : Op → PMap → Prop
  | same (op : Op) : TableStep m s op s.partitions
  | removed (op : Op) (id : UInt32) : TableStep m s op (PMap.remove s.partitions id)
  | emptied (op : Op) : TableStep m s op []
  | added {name : String} {size : UInt64} {ty : PType} {flags : UInt64} {align : Option UInt64} {fresh fresh2 : Uuid}
      (id : UInt32) (first last : UInt64) : PickId m s id →
      TableStep m s (.addPartition name size ty flags align fresh fresh2)
        (PMap.insert id ⟨ty, fresh, first, last, flags, name⟩ s.partitions)
  | addedAt {name : String} {id : UInt32} {first length : UInt64} {ty : PType} {flags : UInt64} {fresh fresh2 : Uuid} :
      id ≠ 0 → (PMap.get s.partitions id).any (·.isUsed) = false →
      TableStep m s (.addPartitionAt name id first length ty flags fresh fresh2)
        (PMap.insert id ⟨ty, fresh, first, first + length - 1, flags, name⟩ s.partitions)
  | replaced {pp : PMap} {fresh : Uuid} : PMap.get pp 0 = none → TableStep m s (.updatePartitions pp fresh) pp

theorem inserted_table {m : Mode} {id : UInt32} {p : Partition} {fresh2 : Uuid} {s s' : GptDisk} {r : Res GptError UInt32}
    (hi : Inserted m id p fresh2 s r s') : s'.partitions = s.partitions ∨ s'.partitions = PMap.insert id p s.partitions := by
  cases hi with
  | panic => exact .inl rfl
  | refused => exact .inl rfl
  | plain => exact .inr rfl
  | rebuilt h r s' _ _ _ hx => exact .inr (initHeaders_same hx).partitions

theorem step_table (m : Mode) (op : Op) (s : GptDisk) : TableStep m s op (op.step m s).2.partitions := by
  cases op with
  | addPartition name size ty flags align fresh fresh2 =>
    rcases addPartition_any m name size ty flags align fresh fresh2 s with ⟨h, -⟩ | ⟨id, first, last, hp, hi⟩
    · show TableStep m s _ (addPartition m name size ty flags align fresh fresh2 s).2.partitions
      rw [h]; exact .same _
    · show TableStep m s _ (addPartition m name size ty flags align fresh fresh2 s).2.partitions
      rcases inserted_table hi with e | e
      · rw [e]; exact .same _
      · rw [e]; exact .added id first last hp
  | addPartitionAt name id first length ty flags fresh fresh2 =>
    show TableStep m s _ (addPartitionAt m name id first length ty flags fresh fresh2 s).2.partitions
    rcases addPartitionAt_any m name id first length ty flags fresh fresh2 s with ⟨h, -⟩ | ⟨h0, -, hu, -, hi⟩
    · rw [h]; exact .same _
    · rcases inserted_table hi with e | e
      · rw [e]; exact .same _
      · rw [e]; exact .addedAt h0 hu
  | removePartition id =>
    show TableStep m s _ (removePartition (ε := GptError) id s).2.partitions
    unfold removePartition
    split
    · exact .removed _ _
    · exact .same _
  | removePartitionByGuid g =>
    show TableStep m s _ (removePartitionByGuid (ε := GptError) g s).2.partitions
    unfold removePartitionByGuid
    split
    · exact .removed _ _
    · exact .same _
  | takePartitions => exact .emptied _
  | updateGuid u r => exact .same _
  | updatePartitions pp r =>
    show TableStep m s _ (updatePartitions m pp r s).2.partitions
    rcases updatePartitions_any m pp r s with ⟨h, -⟩ | ⟨h0, h, -, -, e⟩
    · rw [h]; exact .same _
    · rcases hx : initHeaders m r (s.withParts pp) with ⟨q, s'⟩
      rw [e, hx]
      have := (initHeaders_same hx).partitions
      simp only
      rw [this]
      exact .replaced h0
  | updateDiskDevice d w => exact .same _
  | deviceMut d => exact .same _
  | writeInplace =>
    show TableStep m s _ (writeInplace m s).2.partitions
    rw [(writeInplace_mem m s).partitions]
    exact .same _

/-! ## C58 -/

theorem opened_table {m : Mode} {cfg : GptConfig} {d d' : Dev} {s : GptDisk} (hok : openFromDevice m cfg d = (.ok s, d')) :
    ∃ h, s.tryHeader = .ok h ∧ PMap.Sorted s.partitions ∧
      ∀ k p, (k, p) ∈ s.partitions → 1 ≤ k.toNat ∧ k.toNat ≤ h.numParts.toNat := by
  obtain ⟨h, d2, -, -, -, ht, -, -, -, -, -, hr⟩ := openFromDevice_ok hok
  obtain ⟨-, -, -, -, -, e⟩ := fileReadPartitions_ok hr
  have hn : 0 + h.numParts.toNat < 2 ^ 32 := by have := h.numParts.toNat_lt; omega
  refine ⟨h, ht, ?_, ?_⟩
  · rw [e]; exact tableAt_sorted _ _ hn
  · intro k p hm
    rw [e, mem_tableAt _ _ hn] at hm
    obtain ⟨j, -, h2, h3, -⟩ := hm
    omega

/-- A table in which the slots 1 to `n` are taken has at least `n` entries. -/
theorem taken_length {t : PMap} {n : Nat} (h : ∀ j, 1 ≤ j → j ≤ n → Taken t j) : n ≤ t.length := by
  have hsub : List.range' 1 n ⊆ t.map (fun e => e.1.toNat) := by
    intro j hj
    rw [List.mem_range'_1] at hj
    obtain ⟨id, p, hm, he, -⟩ := h j hj.1 (by omega)
    exact List.mem_map.mpr ⟨(id, p), hm, he⟩
  have := (List.Nodup.subperm List.nodup_range' hsub).length_le
  simpa using this

theorem pickId_ne_zero {m : Mode} {s : GptDisk} {id : UInt32} (hk : PMap.Sorted s.partitions) (hp : PickId m s id)
    (hm : m = .debug ∨ s.partitions.length < 2 ^ 32 - 1) : id ≠ 0 := by
  rcases hp with hp | ⟨hp, h, hh, hadd⟩
  · exact c24_not_zero s hk hp
  · have hne : s.partitions ≠ [] := by
      intro he
      unfold findNextPartitionId at hp
      rw [if_pos he] at hp
      simp at hp
    obtain ⟨r, h1, -, h3⟩ := c24_next_id s hh hk (.inl hne)
    rw [hp] at h1
    have hlen := taken_length (h3.mp (Res.ok.inj h1).symm)
    have h32 : (1 : UInt32).toNat = 1 := rfl
    have hlt : h.numParts.toNat + 1 < 2 ^ 32 := by
      rcases hm with rfl | hm
      · unfold add32 at hadd
        rw [arith_debug_ok] at hadd
        simpa using hadd.1
      · omega
    intro h0
    have : id.toNat = h.numParts.toNat + 1 := by rw [add32_ok hadd, u32_add_toNat (by omega), h32]
    rw [h0] at this
    have h00 : (0 : UInt32).toNat = 0 := rfl
    omega

theorem reach_table {m : Mode} {ok : GptDisk → Op → Prop}
    (hok : ∀ s op, ok s op → m = .debug ∨ s.partitions.length < 2 ^ 32 - 1) {s : GptDisk} (h : Reach m ok s) :
    PMap.Sorted s.partitions ∧ ∀ p, ((0 : UInt32), p) ∉ s.partitions := by
  have hopen : ∀ {cfg : GptConfig} {d d' : Dev} {s : GptDisk}, openFromDevice m cfg d = (.ok s, d') →
      PMap.Sorted s.partitions ∧ ∀ p, ((0 : UInt32), p) ∉ s.partitions := by
    intro cfg d d' s h
    obtain ⟨_, _, h1, h2⟩ := opened_table h
    exact ⟨h1, fun p hp => absurd (h2 _ _ hp).1 (by decide)⟩
  induction h with
  | created h => rw [created_table h]; exact ⟨List.Pairwise.nil, by simp⟩
  | opened h => exact hopen h
  | createdFile h =>
    obtain ⟨g, h1, rfl⟩ := createFile_ok h
    show PMap.Sorted g.partitions ∧ ∀ p, ((0 : UInt32), p) ∉ g.partitions
    rw [created_table h1]; exact ⟨List.Pairwise.nil, by simp⟩
  | openedFile h =>
    obtain ⟨g, h1, rfl⟩ := openFile_ok h
    have := hopen h1
    exact this
  | @step s op hr hw ho ih =>
    obtain ⟨hs, hz⟩ := ih
    have hst := step_table m op s
    have hins : ∀ {id : UInt32} {p : Partition}, id ≠ 0 → PMap.Sorted (PMap.insert id p s.partitions) ∧
        ∀ q, ((0 : UInt32), q) ∉ PMap.insert id p s.partitions := by
      intro id p h0
      refine ⟨PMap.insert_sorted hs _ _, fun q hq => ?_⟩
      rcases PMap.mem_insert_subset hq with e | e
      · exact h0 (congrArg Prod.fst e).symm
      · exact hz q e
    generalize (op.step m s).2.partitions = t at hst
    cases hst with
    | same => exact ⟨hs, hz⟩
    | removed _ id => exact ⟨PMap.remove_sorted hs id, fun p hp => hz p (PMap.mem_remove.mp hp).1⟩
    | emptied => exact ⟨List.Pairwise.nil, by simp⟩
    | added id first last hp => exact hins (pickId_ne_zero hs hp (hok _ _ ho))
    | addedAt h0 hu => exact hins h0
    | replaced h0 => exact ⟨hw, PMap.get_none_iff.mp h0⟩
  | cloned _ ih => exact ih
  | moved d w _ ih => exact ih

/-- **C58.** In debug builds no reachable table has an entry with id 0, and its ids are increasing. -/
theorem c58_debug (s : GptDisk) (h : Reach .debug anyCall s) :
    s.partitions.Pairwise (fun a b => a.1 < b.1) ∧ ∀ p, ((0 : UInt32), p) ∉ s.partitions :=
  reach_table (fun _ _ _ => .inl rfl) h

/-- **C58**, partial (missing: release builds with a table of `2^32 - 1` entries, for which it is false, see
`c58_fails`). -/
theorem c58_partial (m : Mode) (s : GptDisk) (h : Reach m (fun s _ => s.partitions.length < 2 ^ 32 - 1) s) :
    s.partitions.Pairwise (fun a b => a.1 < b.1) ∧ ∀ p, ((0 : UInt32), p) ∉ s.partitions :=
  reach_table (fun _ _ h => .inr h) h

/-- A reachable disk with any small table. -/
theorem made_reach_any (m : Mode) (cfg : GptConfig) {d : Dev} {pp : PMap} {k B : Nat} (hf : d.faults = []) (hpos : d.pos < 2 ^ 64)
    (hlen : d.data.length < 2 ^ 64) (hk : JustEnough cfg.lbSize (128 * 128) k) (hz : d.data.length / cfg.lbSize.usize = B + 1)
    (hkB : 2 * k + 3 ≤ B)
    (hs : PMap.Sorted pp) (hl : pp.length ≤ 128) (h0 : PMap.get pp 0 = none) (ok : GptDisk → Op → Prop)
    (hok : ok (madeDisk cfg d k B Uuid.nil) (.updatePartitions pp Uuid.nil)) :
    Reach m ok (reinit (madeDisk cfg d k B Uuid.nil) (createdP k B Uuid.nil) k B pp) := by
  have hc := createFromDevice_nil m cfg (some Uuid.nil) Uuid.nil Uuid.nil hf hpos hlen hk hz
  rw [if_pos hkB] at hc
  have hsn := madeDisk_sane (g := Uuid.nil) hlen hk hz hkB
  have hst := Reach.step (.updatePartitions pp Uuid.nil) (Reach.created (ok := ok) hc) hs hok
  have hu := updatePartitions_sane (m := m) (fresh := Uuid.nil) (pp := pp) hsn rfl hl h0 hf hpos hz
  rw [step_updatePartitions] at hst
  have hst : Reach m ok (updatePartitions m pp Uuid.nil (madeDisk cfg d k B Uuid.nil)).2 := hst
  rw [hu] at hst
  exact hst

theorem made_reach (m : Mode) (cfg : GptConfig) {d : Dev} {pp : PMap} (hf : d.faults = []) (hpos : d.pos < 2 ^ 64)
    (hlen : d.data.length < 2 ^ 64) (hk : JustEnough cfg.lbSize (128 * 128) 32) (hz : d.data.length / cfg.lbSize.usize = 99 + 1)
    (hs : PMap.Sorted pp) (hl : pp.length ≤ 128) (h0 : PMap.get pp 0 = none) (ok : GptDisk → Op → Prop)
    (hok : ok (madeDisk cfg d 32 99 Uuid.nil) (.updatePartitions pp Uuid.nil)) :
    Reach m ok (reinit (madeDisk cfg d 32 99 Uuid.nil) (createdP 32 99 Uuid.nil) 32 99 pp) :=
  made_reach_any m cfg hf hpos hlen hk hz (by decide) hs hl h0 ok hok

example (m : Mode) : ∃ s, Reach m (fun s _ => s.partitions.length < 2 ^ 32 - 1) s ∧ s.partitions = [(1, smallPart)] :=
  ⟨_, made_reach m GptConfig.new (d := dev100) rfl (by show 0 < 2 ^ 64; decide) (by rw [dev100_length]; decide) enough512
    (by rw [dev100_length]; rfl) (List.pairwise_singleton _ _) (by decide) rfl _ (by show 0 < 2 ^ 32 - 1; decide), rfl⟩

/-- **C58**, the claim. -/
def C58 : Prop := ∀ (m : Mode) (s : GptDisk), Reach m anyCall s → ∀ p, ((0 : UInt32), p) ∉ s.partitions

/-! In a release build the last id wraps around. -/

/-- A table of `n` used entries, all at block `x`. -/
def fullTable (x : UInt64) (n : Nat) : PMap := (List.range' 1 n).map fun i => (UInt32.ofNat i, exPart x x)

theorem fullTable_length (x : UInt64) (n : Nat) : (fullTable x n).length = n := by
  unfold fullTable; rw [List.length_map, List.length_range']

theorem fullTable_sorted (x : UInt64) {n : Nat} (hn : n < 2 ^ 32) : PMap.Sorted (fullTable x n) := by
  unfold fullTable PMap.Sorted
  rw [List.pairwise_map]
  refine List.Pairwise.imp_of_mem ?_ (List.pairwise_lt_range' (s := 1) (n := n))
  intro a b ha hb hab
  rw [List.mem_range'_1] at ha hb
  rw [UInt32.lt_iff_toNat_lt]
  show (UInt32.ofNat a).toNat < (UInt32.ofNat b).toNat
  rw [u32_ofNat_toNat (by omega), u32_ofNat_toNat (by omega)]
  exact hab

theorem fullTable_taken (x : UInt64) {n j : Nat} (hn : n < 2 ^ 32) (h1 : 1 ≤ j) (h2 : j ≤ n) : Taken (fullTable x n) j := by
  refine ⟨UInt32.ofNat j, exPart x x, ?_, u32_ofNat_toNat (by omega), by show (⟨1, 2, 3, 4⟩ : Uuid) ≠ Uuid.nil; decide⟩
  unfold fullTable
  exact List.mem_map.mpr ⟨j, List.mem_range'_1.mpr (by omega), rfl⟩

theorem fullTable_zero (x : UInt64) {n : Nat} (hn : n < 2 ^ 32) : PMap.get (fullTable x n) 0 = none := by
  rw [PMap.get_none_iff]
  intro p hp
  unfold fullTable at hp
  obtain ⟨i, hi, he⟩ := List.mem_map.mp hp
  rw [List.mem_range'_1] at hi
  have : (UInt32.ofNat i).toNat = 0 := by rw [show UInt32.ofNat i = 0 from congrArg Prod.fst he]; rfl
  rw [u32_ofNat_toNat (by omega)] at this
  omega

theorem fullTable_used (x : UInt64) (n : Nat) : usedParts (fullTable x n) = List.replicate n (exPart x x) := by
  unfold usedParts
  rw [List.filter_eq_self.mpr (by
    intro e he
    unfold fullTable at he
    obtain ⟨i, -, rfl⟩ := List.mem_map.mp he
    show (exPart x x).isUsed = true
    rw [isUsed_iff]
    show (⟨1, 2, 3, 4⟩ : Uuid) ≠ Uuid.nil
    decide)]
  unfold fullTable
  rw [List.map_map]
  refine List.eq_replicate_iff.mpr ⟨by rw [List.length_map, List.length_range'], ?_⟩
  intro b hb
  obtain ⟨i, -, rfl⟩ := List.mem_map.mp hb
  rfl

theorem freeChunks_full {ε : Type} (x hi : UInt64) (h0 : 0 < x.toNat) (h1 : x.toNat + 1 < 2 ^ 64) (hlt : x.toNat < hi.toNat) (n : Nat) :
    (freeChunks .release (x :: ((List.replicate n x).flatMap (fun x => [x, x]) ++ [hi])) : Res ε _) = .ok (sect x hi) := by
  induction n with
  | zero =>
    rw [← List.append_nil (sect x hi)]
    exact freeChunk_step _ hlt [] rfl
  | succ n ih =>
    have hone : (1 : UInt64).toNat = 1 := rfl
    show (freeChunks .release (x :: x :: x :: ((List.replicate n x).flatMap (fun x => [x, x]) ++ [hi])) : Res ε _) = _
    rw [freeChunks, add64_release, Res.ok_bind, sub64_release, Res.ok_bind, if_neg, ih]
    rw [UInt64.le_iff_toNat_le, u64_add_toNat (by omega), u64_sub_toNat (by omega)]
    omega

def wrapBlock : UInt64 := 8388610

/-- The header of the witness: as many entries as fit 32 bits. -/
def wrapHeader : Header := { createdP 32 16777316 Uuid.nil with firstUsable := 8388610, numParts := 4294967295 }

def wrapConfig : GptConfig := ⟨.lb512, false, false, true, true⟩

def wrapDisk (d : Dev) (n : Nat) : GptDisk where
  config := wrapConfig
  device := d
  guid := Uuid.nil
  primaryHeader := .ok wrapHeader
  backupHeader := .error .invalidGptSignature
  partitions := fullTable wrapBlock n
  syncAll := false

theorem wrapDisk_reach {d : Dev} {n : Nat} (hf : d.faults = []) (hp : d.pos = 0) (hl : d.data.length = 512 * 16777317)
    (hn : n = 2 ^ 32 - 1) : Reach .release anyCall (wrapDisk d n) := by
  have hlen : d.data.length < 2 ^ 64 := by rw [hl]; decide
  have hpos : d.pos < 2 ^ 64 := by rw [hp]; decide
  have hk : JustEnough wrapConfig.lbSize (128 * 128) 32 :=
    ⟨by decide, fun j hj => by have hj : 128 * 128 ≤ j * 512 := hj; omega⟩
  have hB : d.data.length / wrapConfig.lbSize.usize = 16777316 + 1 := by rw [hl]; decide
  have hc := createFromDevice_nil .release wrapConfig (some Uuid.nil) Uuid.nil Uuid.nil hf hpos hlen hk hB
  rw [if_pos (by decide)] at hc
  have hr := Reach.created (ok := anyCall) hc
  have h32 : n < 2 ^ 32 := by omega
  have hst := Reach.step (.updatePartitions (fullTable wrapBlock n) Uuid.nil) hr (fullTable_sorted _ h32) trivial
  have hfind := findBackupLba_nil (lb := .lb512) hf hpos hlen
  rw [if_neg (by rw [hl]; decide)] at hfind
  have hlast : lastBlock d.data.length .lb512 = 16777316 := by unfold lastBlock; rw [hl]; decide
  rw [hlast] at hfind
  generalize hs : GptDisk.mk wrapConfig d _ _ _ _ _ = s0 at hr hst
  have hup : updatePartitions .release (fullTable wrapBlock n) Uuid.nil s0 = (.ok (), wrapDisk d n) := by
    rw [updatePartitions_eq (h := createdP 32 16777316 Uuid.nil) (fullTable_zero _ h32) (by rw [← hs]; rfl) (fun _ => by rw [← hs]; rfl)]
    have hb : ((s0.withParts (fullTable wrapBlock n)).initBuilder (UInt64.ofNat 16777316) Uuid.nil).build .release
        (s0.withParts (fullTable wrapBlock n)).config.lbSize = .ok wrapHeader := by
      have : (UInt32.ofNat (fullTable wrapBlock n).length) = 4294967295 := by
        rw [fullTable_length, hn]; decide
      rw [← hs]
      unfold initBuilder withParts
      simp only [this]
      show HeaderBuilder.build .release (((((HeaderBuilder.fromHeader (createdP 32 16777316 Uuid.nil)).setNumParts 4294967295).setBackupLba
        (UInt64.ofNat 16777316)).setDiskGuid Uuid.nil).setPrimary true) .lb512 = .ok wrapHeader
      decide +kernel
    rw [initHeaders_eq (h2 := wrapHeader) (by rw [← hs]; exact hfind) hb (fun hc => by rw [← hs] at hc; cases hc), ← hs]
    rfl
  rw [step_updatePartitions, hup] at hst
  exact hst

/-- The claim is false in release builds: with `2^32 - 1` entries, all used, `num_parts + 1` is 0, and `add_partition` makes an
entry with id 0. -/
theorem c58_fails : ¬ C58 := by
  intro hC
  obtain ⟨data, hdata⟩ : ∃ data : Bytes, data.length = 512 * 16777317 := ⟨zeros _, zeros_length _⟩
  obtain ⟨n, hn⟩ : ∃ n : Nat, n = 2 ^ 32 - 1 := ⟨_, rfl⟩
  have h32 : n < 2 ^ 32 := by omega
  have hr := wrapDisk_reach (d := ⟨data, 0, 0, [], []⟩) rfl rfl hdata hn
  have hst := Reach.step (.addPartition "x" 512 (exPart 0 0).partType 0 none Uuid.nil Uuid.nil) hr trivial trivial
  generalize hd : (⟨data, 0, 0, [], []⟩ : Dev) = d at hr hst
  have hfree : ((wrapDisk d n).findFreeSectors .release : Res GptError _) = .ok [(8388611, 8388673)] := by
    unfold findFreeSectors
    rw [show ((wrapDisk d n).header : Res GptError _) = .ok wrapHeader from rfl, Res.ok_bind,
      sub64_release, Res.ok_bind, add64_release, Res.ok_bind]
    unfold diskPositions
    rw [show (wrapDisk d n).partitions = fullTable wrapBlock n from rfl, fullTable_used]
    have hflat : ∀ j, (List.replicate j (exPart wrapBlock wrapBlock)).flatMap (fun p => [p.firstLba, p.lastLba]) =
        (List.replicate j wrapBlock).flatMap (fun x => [x, x]) := by
      intro j
      induction j with
      | zero => rfl
      | succ j ih =>
        rw [List.replicate_succ, List.replicate_succ, List.flatMap_cons, List.flatMap_cons, ih]
        rfl
    rw [hflat, show wrapHeader.firstUsable - 1 = 8388609 from by decide, show wrapHeader.lastUsable + 1 = 16777284 from by decide]
    have hsorted : ([8388609] ++ (List.replicate n wrapBlock).flatMap (fun x => [x, x]) ++ [16777284]).Pairwise (· ≤ ·) := by
      have hmem : ∀ y ∈ (List.replicate n wrapBlock).flatMap (fun x => [x, x]), y = wrapBlock := by
        intro y hy
        obtain ⟨z, hz, hy⟩ := List.mem_flatMap.mp hy
        rw [List.mem_replicate] at hz
        rcases List.mem_cons.mp hy with rfl | hy
        · exact hz.2
        · rw [List.mem_singleton] at hy
          rw [hy]; exact hz.2
      refine List.pairwise_append.mpr ⟨List.pairwise_append.mpr ⟨List.pairwise_singleton _ _, ?_, ?_⟩, List.pairwise_singleton _ _, ?_⟩
      · refine List.pairwise_of_forall_mem_list ?_
        intro a ha b hb
        rw [hmem a ha, hmem b hb]
        decide
      · intro a ha b hb
        rw [List.mem_singleton] at ha
        rw [ha, hmem b hb]
        decide
      · intro a ha b hb
        rw [List.mem_singleton] at hb
        rw [hb]
        rcases List.mem_append.mp ha with ha | ha
        · rw [List.mem_singleton] at ha
          rw [ha]; decide
        · rw [hmem a ha]; decide
    rw [sort64_eq_of_perm (List.Perm.refl _) hsorted]
    obtain ⟨j, hj⟩ : ∃ j, n = j + 1 := ⟨n - 1, by omega⟩
    rw [hj, List.replicate_succ, List.flatMap_cons]
    show (freeChunks .release (8388609 :: wrapBlock :: (wrapBlock :: ((List.replicate j wrapBlock).flatMap (fun x => [x, x]) ++ [16777284])))
      : Res GptError _) = _
    rw [freeChunk_step .release (by decide) _ (freeChunks_full wrapBlock 16777284 (by decide) (by decide) (by decide) j)]
    decide
  obtain ⟨w, hw, heq⟩ := addPartition_eq .release "x" (size := 512) (by decide) (exPart 0 0).partType 0 none Uuid.nil Uuid.nil (wrapDisk d n)
  have heq := heq _ hfree
  have hnext : ((wrapDisk d n).findNextPartitionId : Res GptError _) = .ok none := by
    have hne : (wrapDisk d n).partitions ≠ [] := by
      intro hc
      have := fullTable_length wrapBlock n
      rw [show fullTable wrapBlock n = [] from hc] at this
      simp at this
      omega
    obtain ⟨r, h1, -, h3⟩ := c24_next_id (wrapDisk d n) (h := wrapHeader) rfl (fullTable_sorted _ h32) (.inl hne)
    rw [h1, h3.mpr]
    intro j h1 h2
    have hN : wrapHeader.numParts.toNat = 2 ^ 32 - 1 := by decide
    exact fullTable_taken _ h32 h1 (by omega)
  have hres : (addPartition .release "x" 512 (exPart 0 0).partType 0 none Uuid.nil Uuid.nil (wrapDisk d n)).2.partitions =
      PMap.insert 0 ⟨(exPart 0 0).partType, Uuid.nil, 8388611, 8388611 + w - 1, 0, "x"⟩ (fullTable wrapBlock n) := by
    rw [heq]
    unfold addPartitionLoop alignmentOffset
    simp only [M.bind_apply, M.lift_apply, add64_release]
    have hw1 : w = 1 := UInt64.toNat_inj.mp (by rw [hw]; show (512 - 1) / 512 + 1 = 1; decide)
    subst hw1
    rw [if_pos (by decide)]
    simp only [M.bind_apply, M.lift_apply, M.get_apply, hnext]
    show (insertPartition .release "x" 0 8388611 1 (exPart 0 0).partType 0 Uuid.nil Uuid.nil (wrapDisk d n)).2.partitions = _
    unfold insertPartition
    simp only [M.bind_apply, M.lift_apply, M.get_apply, add64_release, sub64_release]
    rw [show ((wrapDisk d n).header : Res GptError _) = .ok wrapHeader from rfl]
    simp only
    rw [show wrapHeader.numPartsWouldChange 0 = false from by decide]
    rfl
  apply hC .release _ hst ⟨(exPart 0 0).partType, Uuid.nil, 8388611, 8388611 + w - 1, 0, "x"⟩
  show _ ∈ (addPartition .release "x" 512 (exPart 0 0).partType 0 none Uuid.nil Uuid.nil (wrapDisk d n)).2.partitions
  rw [hres]
  exact PMap.mem_of_get (by rw [PMap.get_insert, if_pos rfl])

end Gpt
