import Verif.Lemmas.WriteSane
import Verif.Props.Open
import Verif.Spec.Stored
/-!
# Opening what was written
-/

namespace Gpt

open Spec

/-- The entry read back from the bytes of `p`. -/
def storedPart (p : Partition) : Partition :=
  { p with partType := PType.ofGuid p.partType.guid, name := String.ofList (storedName 36 p.name.toList) }

theorem storedPart_same (p : Partition) : SameEntry p (storedPart p) :=
  ⟨PType.ofGuid_guid _, rfl, rfl, rfl, rfl, by simp [storedPart]⟩

/-- The table read back from the entries `ps` stored from slot `i` on. -/
def numberFrom : Nat → List Partition → PMap
  | _, [] => []
  | i, p :: ps => (UInt32.ofNat (i + 1), storedPart p) :: numberFrom (i + 1) ps

theorem numberFrom_ids (i : Nat) (ps : List Partition) (h : i + ps.length < 2 ^ 32) :
    (numberFrom i ps).map (fun e => e.1.toNat) = List.range' (i + 1) ps.length := by
  induction ps generalizing i with
  | nil => rfl
  | cons p ps ih =>
    simp only [List.length_cons] at h
    rw [numberFrom, List.map_cons, List.length_cons, List.range'_succ, ih (i + 1) (by omega), UInt32.toNat_ofNat',
      Nat.mod_eq_of_lt (by omega)]

theorem numberFrom_parts (i : Nat) (ps : List Partition) : (numberFrom i ps).map Prod.snd = ps.map storedPart := by
  induction ps generalizing i with
  | nil => rfl
  | cons p ps ih => rw [numberFrom, List.map_cons, List.map_cons, ih]

theorem numberFrom_length (i : Nat) (ps : List Partition) : (numberFrom i ps).length = ps.length := by
  rw [← List.length_map (f := Prod.snd), numberFrom_parts, List.length_map]

theorem numberFrom_get (i : Nat) (ps : List Partition) (j : Nat) (hj : j < ps.length) :
    (numberFrom i ps)[j]? = some (UInt32.ofNat (i + j + 1), storedPart ps[j]) := by
  induction ps generalizing i j with
  | nil => simp at hj
  | cons p ps ih =>
    cases j with
    | zero => rfl
    | succ j =>
      rw [numberFrom, List.getElem?_cons_succ, ih (i + 1) j (by simpa using hj)]
      simp only [List.getElem_cons_succ, Option.some.injEq, Prod.mk.injEq, and_true]
      congr 1; omega

theorem numbered_numberFrom {ps : List Partition} (h : ps.length < 2 ^ 32) : Numbered ps (numberFrom 0 ps) := by
  refine ⟨numberFrom_length 0 ps, fun j hj => ⟨_, _, numberFrom_get 0 ps j hj, ?_, storedPart_same _⟩⟩
  rw [UInt32.toNat_ofNat', Nat.mod_eq_of_lt (by omega)]; omega

theorem mem_numberFrom {i : Nat} {ps : List Partition} {e : UInt32 × Partition} (h : e ∈ numberFrom i ps) :
    ∃ j, ∃ hj : j < ps.length, e = (UInt32.ofNat (i + j + 1), storedPart ps[j]) := by
  induction ps generalizing i with
  | nil => simp [numberFrom] at h
  | cons p ps ih =>
    rw [numberFrom, List.mem_cons] at h
    rcases h with rfl | h
    · exact ⟨0, by simp, rfl⟩
    · obtain ⟨j, hj, rfl⟩ := ih h
      exact ⟨j + 1, by simp; omega, by simp only [List.getElem_cons_succ, Prod.mk.injEq, and_true]; congr 1; omega⟩

/-- The table stored at `off`, from what the slots hold. -/
theorem tableAt_stored {data : Bytes} {off : Nat} (n i : Nat) (ps : List Partition) (hl : ps.length ≤ n)
    (hu : ∀ p ∈ ps, p.isUsed = true)
    (h1 : ∀ j (hj : j < ps.length), slice data (off + 128 * (i + j)) 128 = ps[j].asBytes 128)
    (h2 : ∀ j, ps.length ≤ j → j < n → slice data (off + 128 * (i + j)) 128 = zeros 128) :
    tableAt data off n i = numberFrom i ps := by
  induction n generalizing i ps with
  | zero =>
    have : ps = [] := List.eq_nil_of_length_eq_zero (by omega)
    subst this
    rfl
  | succ n ih =>
    rw [tableAt]
    cases ps with
    | nil =>
      rw [if_pos (by simpa using h2 0 (by simp) (by omega))]
      refine ih (i + 1) [] (by simp) (by simp) (by simp) fun j _ hj => ?_
      rw [← h2 (j + 1) (by simp) (by omega)]
      congr 3; omega
    | cons p ps =>
      have e := h1 0 (by simp)
      simp only [Nat.add_zero, List.getElem_cons_zero] at e
      rw [e, if_neg (Partition.asBytes_ne_zeros (hu p (by simp))), Partition.partitionOfBytes_asBytes]
      rw [numberFrom]
      congr 1
      simp only [List.length_cons] at hl h1 h2
      refine ih (i + 1) ps (by omega) (fun q hq => hu q (by simp [hq])) (fun j hj => ?_) fun j hj1 hj2 => ?_
      · rw [← List.getElem_cons_succ (a := p) (h := by simp; omega), ← h1 (j + 1) (by omega)]
        congr 3; omega
      · rw [← h2 (j + 1) (by omega) (by omega)]
        congr 3; omega

theorem tableAt_table {data : Bytes} {off n : Nat} {ps : List Partition} (hl : ps.length ≤ n)
    (hu : ∀ p ∈ ps, p.isUsed = true) (h : slice data off (n * 128) = tableBytes ps n) :
    tableAt data off n 0 = numberFrom 0 ps := by
  refine tableAt_stored n 0 ps hl hu (fun j hj => ?_) fun j h1 h2 => ?_
  · rw [Nat.zero_add, ← slice_table_entry (n := n) hj, ← h, slice_slice (by omega)]
    congr 2; omega
  · rw [Nat.zero_add, ← slice_table_zero h1 h2, ← h, slice_slice (by omega)]
    congr 2; omega

/-- A written block reads back as its header. -/
theorem read_block {data : Bytes} {off : Nat} {lb : LbSize} {h : Header} {c : UInt32} (hs : h.signature = efiPart)
    (hr : h.reserved = 0) (hfit : off + lb.usize ≤ data.length) (hb : slice data off lb.usize = h.block c lb) :
    readHeaderAt data off = .ok (h.sealed c) := by
  have h512 := lb_le lb
  rw [readHeaderAt_ok]
  refine ⟨by omega, ?_⟩
  have : slice data off 92 = h.encode c := by
    rw [← Header.slice_block (by rw [hs]; rfl) c lb, ← hb, slice_slice (by omega)]
    rfl
  rw [this, Header.parse_encode hs]
  unfold Header.sealed
  simp [hr]

/-- The state after opening a device on which `h` is the selected header and describes a stored table. -/
def openedState (cfg : GptConfig) (d : Dev) (h1 h2 : Except HeaderError Header) (h : Header) (ps : List Partition) : GptDisk :=
  { config := cfg, device := d, guid := h.diskGuid, primaryHeader := h1, backupHeader := h2, partitions := numberFrom 0 ps, syncAll := false }

/-- Reading a stored table. -/
theorem openRest_stored {m : Mode} {cfg : GptConfig} {h1 h2 : Except HeaderError Header} {h : Header} {d : Dev} {ps : List Partition}
    {off : Nat} (hf : d.faults = []) (ho : h.partStart.toNat * cfg.lbSize.usize = off) (h128 : h.partSize = 128)
    (hn : h.numParts.toNat * 128 < 2 ^ 32) (hl : ps.length ≤ h.numParts.toNat) (hu : ∀ p ∈ ps, p.isUsed = true)
    (hfit : off + h.numParts.toNat * 128 ≤ d.data.length) (hlen : d.data.length < 2 ^ 64)
    (ht : slice d.data off (h.numParts.toNat * 128) = tableBytes ps h.numParts.toNat)
    (hc : h.crc32Parts = crc32 (tableBytes ps h.numParts.toNat)) :
    ∃ p, openRest m cfg h1 h2 h d = (.ok (openedState cfg { d with pos := p } h1 h2 h ps), { d with pos := p }) := by
  obtain ⟨p, e⟩ := fileReadPartitions_nil (m := m) (h := h) (lb := cfg.lbSize) hf (by omega) h128 (by omega) (.inr (by omega))
  refine ⟨p, ?_⟩
  rw [ho, Nat.mul_comm 128, ht, hc, if_pos rfl, tableAt_table hl hu ht] at e
  unfold openRest
  simp only [M.bind_apply, M.mapErr_apply, e, M.get_apply, M.pure_apply]
  rfl

/-- Opening a device with a written primary header and array. -/
theorem open_primary {m : Mode} {cfg : GptConfig} {d : Dev} {P : Header} {ps : List Partition} (hf : d.faults = [])
    (hp : d.pos < 2 ^ 64) (hlen : d.data.length < 2 ^ 64) (hsig : P.signature = efiPart) (hres : P.reserved = 0)
    (hstart : P.partStart = 2) (h128 : P.partSize = 128) (hn : P.numParts.toNat * 128 < 2 ^ 32)
    (hl : ps.length ≤ P.numParts.toNat) (hu : ∀ p ∈ ps, p.isUsed = true)
    (hfit : 2 * cfg.lbSize.usize + P.numParts.toNat * 128 ≤ d.data.length)
    (hb : slice d.data cfg.lbSize.usize cfg.lbSize.usize = P.block (crc32 (tableBytes ps P.numParts.toNat)) cfg.lbSize)
    (ht : slice d.data (2 * cfg.lbSize.usize) (P.numParts.toNat * 128) = tableBytes ps P.numParts.toNat)
    (hv : cfg.onlyValidHeaders = true → BackupValid cfg.lbSize d.data) :
    ∃ h2 p, Res.ofExcept h2 = readBackupAt d.data cfg.lbSize ∧ openFromDevice m cfg d =
      (.ok (openedState cfg { d with pos := p } (.ok (P.sealed (crc32 (tableBytes ps P.numParts.toNat)))) h2
        (P.sealed (crc32 (tableBytes ps P.numParts.toNat))) ps), { d with pos := p }) := by
  obtain ⟨h1, h2, e1, e2, e3⟩ := openFromDevice_nil m cfg hf hp hlen
  have hread := read_block hsig hres (by omega) hb
  rw [← e1, ofExcept_ok] at hread
  have hsel : selectHeader cfg.onlyValidHeaders h1 h2 = .ok (P.sealed (crc32 (tableBytes ps P.numParts.toNat))) := by
    rw [select_spec.1]
    refine .inl ⟨hread, fun ho => ?_⟩
    obtain ⟨k1, k2⟩ := hv ho
    obtain ⟨k, hk⟩ := validAt_header k2
    refine ⟨k, ?_⟩
    rw [← ofExcept_ok, e2, readBackupAt, if_neg (by omega)]
    exact ((readHeaderAt_spec _ _).1 k).mpr ⟨k2, hk⟩
  rw [hsel] at e3
  simp only at e3
  obtain ⟨p, e4⟩ := openRest_stored (m := m) (cfg := cfg) (h1 := h1) (h2 := h2)
    (h := P.sealed (crc32 (tableBytes ps P.numParts.toNat))) (off := 2 * cfg.lbSize.usize) hf
    (by show P.partStart.toNat * _ = _; rw [hstart]; rfl) h128 hn hl hu hfit hlen ht rfl
  refine ⟨h2, p, e2, ?_⟩
  rw [e3, e4, hread]

/-- Opening a device with an invalid primary header and a written backup header and array. -/
theorem open_backup {m : Mode} {cfg : GptConfig} {d : Dev} {P : Header} {ps : List Partition} {B oB : Nat} (hf : d.faults = [])
    (hp : d.pos < 2 ^ 64) (hlen : d.data.length < 2 ^ 64) (hsig : P.signature = efiPart) (hres : P.reserved = 0)
    (hstart : P.partStart.toNat * cfg.lbSize.usize = oB) (h128 : P.partSize = 128) (hn : P.numParts.toNat * 128 < 2 ^ 32)
    (hl : ps.length ≤ P.numParts.toNat) (hu : ∀ p ∈ ps, p.isUsed = true)
    (hfit : oB + P.numParts.toNat * 128 ≤ d.data.length) (h2B : 2 ≤ B) (hB : d.data.length / cfg.lbSize.usize = B + 1)
    (hb : slice d.data (B * cfg.lbSize.usize) cfg.lbSize.usize = P.block (crc32 (tableBytes ps P.numParts.toNat)) cfg.lbSize)
    (ht : slice d.data oB (P.numParts.toNat * 128) = tableBytes ps P.numParts.toNat)
    (hinv : ¬ PrimaryValid cfg.lbSize d.data) (hv : cfg.onlyValidHeaders = false) :
    ∃ e p, openFromDevice m cfg d =
      (.ok (openedState cfg { d with pos := p } (.error e) (.ok (P.sealed (crc32 (tableBytes ps P.numParts.toNat))))
        (P.sealed (crc32 (tableBytes ps P.numParts.toNat))) ps), { d with pos := p }) := by
  obtain ⟨h1, h2, e1, e2, e3⟩ := openFromDevice_nil m cfg hf hp hlen
  have hpos := lb_pos cfg.lbSize
  have hBl : (B + 1) * cfg.lbSize.usize ≤ d.data.length := by rw [← hB]; exact Nat.div_mul_le_self _ _
  have hBl' : B * cfg.lbSize.usize + cfg.lbSize.usize ≤ d.data.length := by rw [Nat.add_mul, Nat.one_mul] at hBl; exact hBl
  have h3 : 3 * cfg.lbSize.usize ≤ d.data.length := (Nat.mul_le_mul_right _ (by omega)).trans hBl
  have hread := read_block hsig hres hBl' hb
  have hread2 : h2 = .ok (P.sealed (crc32 (tableBytes ps P.numParts.toNat))) := by
    rw [← ofExcept_ok, e2, readBackupAt, if_neg (by omega), ← hread]
    congr 1
    unfold backupOffset lastBlock
    rw [hB, Nat.add_sub_cancel]
  have hread1 : ∃ e, h1 = .error e := by
    cases h1 with
    | error e => exact ⟨e, rfl⟩
    | ok h =>
      have e1 : readHeaderAt d.data cfg.lbSize.usize = .ok h := e1.symm
      exact absurd (((readHeaderAt_spec _ _).1 h).mp e1).1 hinv
  obtain ⟨e, rfl⟩ := hread1
  subst hread2
  have hsel : selectHeader cfg.onlyValidHeaders (.error e) (.ok (P.sealed (crc32 (tableBytes ps P.numParts.toNat)))) =
      .ok (P.sealed (crc32 (tableBytes ps P.numParts.toNat))) := by
    rw [select_spec.1]
    exact .inr ⟨hv, ⟨e, rfl⟩, rfl⟩
  rw [hsel] at e3
  simp only at e3
  obtain ⟨p, e4⟩ := openRest_stored (m := m) (cfg := cfg) (h1 := .error e)
    (h2 := .ok (P.sealed (crc32 (tableBytes ps P.numParts.toNat))))
    (h := P.sealed (crc32 (tableBytes ps P.numParts.toNat))) (off := oB) hf hstart h128 hn hl hu hfit hlen ht rfl
  exact ⟨e, p, by rw [e3, e4]⟩

theorem used_isUsed {t : PMap} {p : Partition} (h : p ∈ Spec.used t) : p.isUsed = true := by
  unfold Spec.used at h
  rw [List.mem_filter] at h
  exact h.2

namespace GptDisk

section
variable {s s' : GptDisk} {h : Header} {k B : Nat}

/-- The bytes of the regions that `write_inplace` writes, after it succeeded. -/
structure Regions (s : GptDisk) (h : Header) (k B : Nat) (data : Bytes) : Prop where
  head : slice data s.config.lbSize.usize s.config.lbSize.usize =
    (rebuiltP k B h).block (Gpt.crc32 (tableBytes (Spec.used s.partitions) h.numParts.toNat)) s.config.lbSize
  array : slice data (2 * s.config.lbSize.usize) (h.numParts.toNat * 128) = tableBytes (Spec.used s.partitions) h.numParts.toNat
  backup : s.config.readonlyBackup = false →
    slice data (B * s.config.lbSize.usize) s.config.lbSize.usize =
      (rebuiltB k B h).block (Gpt.crc32 (tableBytes (Spec.used s.partitions) h.numParts.toNat)) s.config.lbSize ∧
    slice data ((B - k) * s.config.lbSize.usize) (h.numParts.toNat * 128) = tableBytes (Spec.used s.partitions) h.numParts.toNat

theorem Written.regions (hs : SaneDisk s h k B) (w : Written s h k B s') : Regions s h k B s'.device.data := by
  have g := geo_sane hs.sane hs.fits s.config
  have s1 := g.sep
  have s2 := g.sepB
  have s3 := g.fits
  have hn : (rebuiltP k B h).numParts = h.numParts := rfl
  rw [hn] at s1 s2
  have hl := tableBytes_length w.room
  have hby := w.bytes
  have hlen := w.length
  refine ⟨?_, ?_, fun hro => ⟨?_, ?_⟩⟩
  · refine slice_eq_of_byteAt (by omega) (Header.block_length ..) fun i hi => ?_
    rw [hby]
    unfold finalByte
    rw [if_pos (by omega), Nat.add_sub_cancel_left]
    rfl
  · refine slice_eq_of_byteAt (by omega) hl fun i hi => ?_
    rw [hby]
    unfold finalByte
    rw [hn, if_neg (by omega), if_pos (by constructor <;> omega), Nat.add_sub_cancel_left]
  · have hb : bakOf s.config k B h = some (rebuiltB k B h) := by unfold bakOf; rw [hro]; rfl
    refine slice_eq_of_byteAt (by omega) (Header.block_length ..) fun i hi => ?_
    rw [hby, hb]
    unfold finalByte
    rw [hn, if_neg (by omega), if_neg (by omega)]
    simp only
    rw [if_neg (by omega), if_pos (by omega), Nat.add_sub_cancel_left]
    rfl
  · have hb : bakOf s.config k B h = some (rebuiltB k B h) := by unfold bakOf; rw [hro]; rfl
    refine slice_eq_of_byteAt (by omega) hl fun i hi => ?_
    rw [hby, hb]
    unfold finalByte
    rw [hn, if_neg (by omega), if_neg (by omega)]
    simp only
    rw [if_pos (by omega), Nat.add_sub_cancel_left]

/-- The content after `write_inplace`, whatever its outcome: the writes stopped in the arrays, in the backup header, or in the
primary header. -/
theorem write_stage (m : Mode) (hs : SaneDisk s h k B) :
    let lb := s.config.lbSize.usize
    let old := s.device.data
    let new := (writeInplace m s).2.device.data
    let final := finalByte s.config.lbSize (rebuiltP k B h) (bakOf s.config k B h) ((Spec.used s.partitions).take h.numParts.toNat)
      ((B - k) * lb) (B * lb) old
    (∀ i, (lb ≤ i ∧ i < 2 * lb) ∨ (B * lb ≤ i ∧ i < B * lb + lb) → byteAt new i = byteAt old i) ∨
    ((∀ i, lb ≤ i → i < 2 * lb → byteAt new i = byteAt old i) ∧
      ∀ i, ¬ (lb ≤ i ∧ i < 2 * lb) → ¬ (B * lb ≤ i ∧ i < B * lb + lb) → byteAt new i = final i) ∨
    (∀ i, ¬ (lb ≤ i ∧ i < 2 * lb) → byteAt new i = final i) := by
  intro lb old new final
  have g := geo_sane hs.sane hs.fits s.config
  have s1 : 2 * lb + h.numParts.toNat * 128 ≤ (B - k) * lb := g.sep
  have s2 : (B - k) * lb + h.numParts.toNat * 128 ≤ B * lb := g.sepB
  have hn : (rebuiltP k B h).numParts = h.numParts := rfl
  have hl : ((Spec.used s.partitions).take h.numParts.toNat).length ≤ (rebuiltP k B h).numParts.toNat := by
    rw [List.length_take]; exact Nat.min_le_left _ _
  obtain ⟨ws, ht, hd, -⟩ := (write_follows m hs).writes
  have hd : new = applyWrites old ws := hd
  have hhead : ∀ (ws' : List Write) (b : Option Header) (i : Nat),
      Torn ws' (b.toList.map (fun x => (B * lb, blockOf s.config.lbSize x ((Spec.used s.partitions).take h.numParts.toNat) h.numParts.toNat))) →
      ¬ (B * lb ≤ i ∧ i < B * lb + lb) → ∀ dd, byteAt (applyWrites dd ws') i = byteAt dd i := by
    intro ws' b i ht' hi dd
    refine byteAt_applyWrites_outside fun w hw hc => hi ?_
    obtain ⟨p, hp, hc', -⟩ := ht'.covers hw hc
    rw [List.mem_map] at hp
    obtain ⟨x, -, rfl⟩ := hp
    obtain ⟨c1, c2⟩ := hc'
    simp only [blockOf_length] at c1 c2
    exact ⟨c1, c2⟩
  have harr : ∀ i, ¬ (lb ≤ i ∧ i < 2 * lb) → ¬ (B * lb ≤ i ∧ i < B * lb + lb) →
      byteAt (applyWrites old (arrayPlan s.config.lbSize (rebuiltP k B h) (bakOf s.config k B h)
        ((Spec.used s.partitions).take h.numParts.toNat))) i = final i := by
    intro i h1 h2
    rw [byteAt_arrays g hl]
    show _ = finalByte _ _ _ _ _ _ _ _
    unfold finalByte
    rw [if_neg h1]
    split
    · rfl
    · cases hb : bakOf s.config k B h with
      | none => simp
      | some b =>
        simp only [InB, Option.isSome_some, true_and]
        rfl
  have houts : ∀ i, (lb ≤ i ∧ i < 2 * lb) ∨ (B * lb ≤ i ∧ i < B * lb + lb) →
      ∀ w ∈ arrayPlan s.config.lbSize (rebuiltP k B h) (bakOf s.config k B h) ((Spec.used s.partitions).take h.numParts.toNat),
        ¬ w.Covers i := by
    intro i hi w hw hc
    rcases arrayPlan_covers g hl hw hc with ⟨⟨a1, a2⟩, -⟩ | ⟨⟨-, a1, a2⟩, -⟩
    · have a1 : 2 * lb ≤ i := a1
      have a2 : i < 2 * lb + h.numParts.toNat * 128 := a2
      omega
    · have a1 : (B - k) * lb ≤ i := a1
      have a2 : i < (B - k) * lb + h.numParts.toNat * 128 := a2
      omega
  rcases ht.split with ht | ⟨ws', rfl, ht2⟩
  · left
    intro i hi
    rw [hd]
    refine byteAt_applyWrites_outside fun w hw hc => ?_
    obtain ⟨p, hp, hc', -⟩ := ht.covers hw hc
    exact houts i hi p hp hc'
  · right
    unfold headPlan at ht2
    rw [applyWrites_append] at hd
    rcases ht2.split with ht3 | ⟨ws'', rfl, ht3⟩
    · left
      constructor
      · intro i h1 h2
        rw [hd, hhead ws' _ i ht3 (by omega)]
        refine byteAt_applyWrites_outside fun w hw hc => ?_
        exact houts i (.inl ⟨h1, h2⟩) w hw hc
      · intro i h1 h2
        rw [hd, hhead ws' _ i ht3 h2, harr i h1 h2]
    · right
      intro i h1
      rw [hd, applyWrites_append]
      have h3 : ∀ dd, byteAt (applyWrites dd ws'') i = byteAt dd i := by
        intro dd
        refine byteAt_applyWrites_outside fun w hw hc => h1 ?_
        obtain ⟨p, hp, hc', -⟩ := ht3.covers hw hc
        rw [List.mem_singleton] at hp
        subst hp
        obtain ⟨c1, c2⟩ := hc'
        simp only [blockOf_length] at c1 c2
        exact ⟨c1, by omega⟩
      rw [h3]
      have hall := byteAt_final g hl old i
      unfold headPlan at hall
      rw [← List.append_assoc, applyWrites_append, applyWrites_append] at hall
      rw [byteAt_applyWrites_outside (ws := [_])] at hall
      · exact hall
      · intro w hw hc
        rw [List.mem_singleton] at hw
        subst hw
        obtain ⟨c1, c2⟩ := hc
        simp only [blockOf_length] at c1 c2
        exact h1 ⟨c1, by omega⟩

theorem write_length (m : Mode) (hs : SaneDisk s h k B) : (writeInplace m s).2.device.data.length = s.device.data.length := by
  have g := geo_sane hs.sane hs.fits s.config
  have hl : ((Spec.used s.partitions).take h.numParts.toNat).length ≤ (rebuiltP k B h).numParts.toNat := by
    rw [List.length_take]; exact Nat.min_le_left _ _
  obtain ⟨ws, ht, hd, -⟩ := (write_follows m hs).writes
  rw [hd]
  exact length_torn g hl rfl ht

/-- Old or final, byte by byte. -/
theorem write_bytes (m : Mode) (hs : SaneDisk s h k B) (i : Nat) :
    byteAt (writeInplace m s).2.device.data i = byteAt s.device.data i ∨
    byteAt (writeInplace m s).2.device.data i = finalByte s.config.lbSize (rebuiltP k B h) (bakOf s.config k B h)
      ((Spec.used s.partitions).take h.numParts.toNat) ((B - k) * s.config.lbSize.usize) (B * s.config.lbSize.usize) s.device.data i := by
  have g := geo_sane hs.sane hs.fits s.config
  have hl : ((Spec.used s.partitions).take h.numParts.toNat).length ≤ (rebuiltP k B h).numParts.toNat := by
    rw [List.length_take]; exact Nat.min_le_left _ _
  obtain ⟨ws, ht, hd, -⟩ := (write_follows m hs).writes
  rw [hd]
  exact byteAt_torn g hl _ ht i

/-- What the final content is outside the regions. -/
theorem finalByte_outside {lb : LbSize} {cfg : GptConfig} {ps : List Partition} {data : Bytes} {i : Nat}
    (h1 : ¬ InPrimary lb h.numParts.toNat i) (h2 : cfg.readonlyBackup = false → ¬ InBackup lb h.numParts.toNat k B i) :
    finalByte lb (rebuiltP k B h) (bakOf cfg k B h) ps ((B - k) * lb.usize) (B * lb.usize) data i = byteAt data i := by
  have hn : (rebuiltP k B h).numParts = h.numParts := rfl
  unfold InPrimary at h1
  unfold finalByte
  rw [hn, if_neg (by omega), if_neg (by omega)]
  unfold bakOf
  cases hro : cfg.readonlyBackup with
  | true => rfl
  | false =>
    simp only [Bool.false_eq_true, if_false]
    have h2 := h2 hro
    unfold InBackup at h2
    rw [not_or, Nat.add_mul, Nat.one_mul] at h2
    rw [if_neg h2.1, if_neg h2.2]

end

end GptDisk

end Gpt
