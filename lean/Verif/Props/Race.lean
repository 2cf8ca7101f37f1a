import Verif.Lemmas.Live
import Verif.Props.Mixed
/-!
# Opening a disk while another program writes it: C119
-/

namespace Gpt

open Spec GptDisk

/-! ## A device that stays as it is -/

/-- The two devices are the same. -/
structure Still (l : Live) (d : Dev) : Prop where
  faults : d.faults = []
  view : ∀ t, l.view t = d.data
  pos : l.pos = d.pos

/-- The two programs do the same, up to `f`. -/
def M.Pair {ε α β : Type} (f : β → α) (x : M Live ε α) (y : M Dev ε β) : Prop :=
  ∀ l d, Still l d → (x l).1 = (y d).1.bind (fun b => .ok (f b)) ∧ Still (x l).2 (y d).2

theorem res_bind_ok {ε α : Type} (r : Res ε α) : r.bind (fun b => .ok (id b)) = r := by cases r <;> rfl

theorem M.Pair.bind {ε α β γ : Type} {f : γ → β} {x : M Live ε α} {y : M Dev ε α} {g : α → M Live ε β} {g' : α → M Dev ε γ}
    (hx : M.Pair id x y) (hg : ∀ a, M.Pair f (g a) (g' a)) : M.Pair f (x >>= g) (y >>= g') := by
  intro l d hs
  obtain ⟨h1, h2⟩ := hx l d hs
  rw [res_bind_ok] at h1
  rw [M.bind_apply, M.bind_apply]
  rcases e1 : x l with ⟨r, l1⟩
  rcases e2 : y d with ⟨r', d1⟩
  rw [e1, e2] at h1 h2
  simp only at h1 h2
  subst h1
  cases r with
  | ok a => exact hg a l1 d1 h2
  | err e => exact ⟨rfl, h2⟩
  | panic => exact ⟨rfl, h2⟩

theorem M.Pair.mapErr {ε ε' α : Type} {x : M Live ε α} {y : M Dev ε α} (g : ε → ε') (hx : M.Pair id x y) :
    M.Pair id (x.mapErr g) (y.mapErr g) := by
  intro l d hs
  obtain ⟨h1, h2⟩ := hx l d hs
  rw [res_bind_ok] at h1 ⊢
  rw [M.mapErr_apply, M.mapErr_apply, ← h1]
  exact ⟨rfl, h2⟩

theorem M.Pair.attempt {ε ε' α : Type} {x : M Live ε α} {y : M Dev ε α} (hx : M.Pair id x y) :
    M.Pair id (x.attempt : M Live ε' _) (y.attempt : M Dev ε' _) := by
  intro l d hs
  obtain ⟨h1, h2⟩ := hx l d hs
  rw [res_bind_ok] at h1 ⊢
  rw [M.attempt_apply, M.attempt_apply]
  rcases e1 : x l with ⟨r, l1⟩
  rcases e2 : y d with ⟨r', d1⟩
  rw [e1, e2] at h1 h2
  simp only at h1 h2
  subst h1
  cases r <;> exact ⟨rfl, h2⟩

theorem M.Pair.lift {ε α : Type} (r : Res ε α) : M.Pair id (M.lift r) (M.lift r) := fun _ _ h => ⟨(res_bind_ok r).symm, h⟩
theorem M.Pair.pure {ε α : Type} (a : α) : M.Pair id (Pure.pure a : M Live ε α) (Pure.pure a) := fun _ _ h => ⟨rfl, h⟩
theorem M.Pair.throw {ε α : Type} (e : ε) : M.Pair id (M.throw e : M Live ε α) (M.throw e) := fun _ _ h => ⟨rfl, h⟩
theorem M.Pair.panic {ε α : Type} : M.Pair id (M.panic : M Live ε α) M.panic := fun _ _ h => ⟨rfl, h⟩

theorem seekStart_pair (n : UInt64) : M.Pair id (Live.seekStart n) (Dev.seekStart n) := by
  intro l d h
  rw [Dev.seekStart_nil h.faults]
  exact ⟨rfl, h.faults, h.view, rfl⟩

theorem seekEnd_pair : M.Pair id Live.seekEnd Dev.seekEnd := by
  intro l d h
  unfold Live.seekEnd Dev.seekEnd Dev.nextFault Dev.tick
  rw [h.faults, h.view]
  exact ⟨rfl, rfl, h.view, rfl⟩

theorem streamPosition_pair : M.Pair id Live.streamPosition Dev.streamPosition := by
  intro l d h
  unfold Live.streamPosition Dev.streamPosition Dev.nextFault Dev.tick
  rw [h.faults, h.pos]
  exact ⟨rfl, rfl, h.view, rfl⟩

theorem readExact_pair (n : Nat) : M.Pair id (Live.readExact n) (Dev.readExact n) := by
  intro l d h
  unfold Live.readExact Dev.readExact Dev.nextFault Dev.tick
  rw [h.faults, h.view, h.pos]
  by_cases h0 : n = 0
  · rw [if_pos h0, if_pos h0]
    exact ⟨rfl, h⟩
  · rw [if_neg h0, if_neg h0]
    simp only [List.headD_nil, List.tail_nil]
    by_cases hl : d.pos + n ≤ d.data.length
    · rw [if_pos hl, if_pos hl]; exact ⟨rfl, rfl, h.view, rfl⟩
    · rw [if_neg hl, if_neg hl]; exact ⟨rfl, rfl, h.view, rfl⟩

theorem fileReadHeader_pair (off : UInt64) : M.Pair id (Live.fileReadHeader off) (fileReadHeader off) := by
  unfold Live.fileReadHeader fileReadHeader
  exact .bind (.attempt (seekStart_pair _)) fun _ => .bind (.mapErr _ (readExact_pair _)) fun _ => .lift _

theorem findBackupLba_pair (lb : LbSize) : M.Pair id (Live.findBackupLba lb) (findBackupLba lb) := by
  unfold Live.findBackupLba findBackupLba
  refine .bind (.mapErr _ streamPosition_pair) fun _ => .bind (.mapErr _ seekEnd_pair) fun _ => .bind (.mapErr _ (seekStart_pair _)) fun _ => ?_
  split
  · exact .throw _
  · exact .pure _

theorem readPrimaryHeader_pair (lb : LbSize) : M.Pair id (Live.readPrimaryHeader lb) (readPrimaryHeader lb) := by
  unfold Live.readPrimaryHeader readPrimaryHeader
  refine .bind (.attempt streamPosition_pair) fun _ => .bind (.attempt (fileReadHeader_pair _)) fun r => .bind (.attempt (seekStart_pair _)) fun _ => ?_
  cases r
  · exact .throw _
  · exact .pure _

theorem readBackupHeader_pair (lb : LbSize) : M.Pair id (Live.readBackupHeader lb) (readBackupHeader lb) := by
  unfold Live.readBackupHeader readBackupHeader
  refine .bind (.attempt streamPosition_pair) fun _ => .bind (findBackupLba_pair _) fun _ => .bind (.lift _) fun _ =>
    .bind (.attempt (fileReadHeader_pair _)) fun r => .bind (.attempt (seekStart_pair _)) fun _ => ?_
  cases r
  · exact .throw _
  · exact .pure _

theorem readEntries_pair (m : Mode) : ∀ n i e parts, M.Pair id (Live.readEntries m n i e parts) (readEntries m n i e parts) := by
  intro n
  induction n with
  | zero => intro i e parts; exact .pure _
  | succ n ih =>
    intro i e parts
    unfold Live.readEntries readEntries
    refine .bind (readExact_pair _) fun b => ?_
    split
    · exact .bind (.lift _) fun _ => ih _ _ _
    · exact .bind (.lift _) fun _ => ih _ _ _

theorem fileReadPartitions_pair (m : Mode) (h : Header) (lb : LbSize) :
    M.Pair id (Live.fileReadPartitions m h lb) (fileReadPartitions m h lb) := by
  unfold Live.fileReadPartitions fileReadPartitions
  refine .bind (.lift _) fun _ => .bind (seekStart_pair _) fun _ => ?_
  split
  · exact .panic
  · refine .bind (readEntries_pair m _ _ _ _) fun _ => .bind (seekStart_pair _) fun _ => .bind (.lift _) fun _ => .bind (readExact_pair _) fun _ => ?_
    split
    · exact .throw _
    · exact .pure _

/-- What opening has found, without the device and the configuration. -/
def Spec.found (s : GptDisk) : Live.Found := ⟨s.guid, s.primaryHeader, s.backupHeader, s.partitions⟩

/-- **C119**, the model. As long as nobody writes, the model with a changing device says the same as the other one. -/
theorem c119_still (m : Mode) (cfg : GptConfig) (l : Live) (d : Dev) (hf : d.faults = []) (hv : ∀ t, l.view t = d.data) (hp : l.pos = d.pos) :
    (Live.openFromDevice m cfg l).1 = (openFromDevice m cfg d).1.bind fun s => .ok (found s) := by
  have key : M.Pair found (Live.openFromDevice m cfg) (openFromDevice m cfg) := by
    have fin : ∀ (h1 h2 : Except HeaderError Header) (h : Header), M.Pair found
        (do let table ← (Live.fileReadPartitions m h cfg.lbSize).mapErr .io
            pure ⟨h.diskGuid, h1, h2, table⟩ : M Live GptError Live.Found)
        (do let table ← (fileReadPartitions m h cfg.lbSize).mapErr .io
            let device ← M.get
            pure ⟨cfg, device, h.diskGuid, h1, h2, table, false⟩ : M Dev GptError GptDisk) := fun h1 h2 h =>
      .bind (.mapErr _ (fileReadPartitions_pair m h _)) fun t l d hs => ⟨rfl, hs⟩
    unfold Live.openFromDevice openFromDevice
    refine .bind (.attempt (readPrimaryHeader_pair _)) fun h1 => .bind (.attempt (readBackupHeader_pair _)) fun h2 => ?_
    cases h1 <;> cases h2 <;> simp only
    · exact .bind (.throw _) fun h => fin _ _ h
    · split
      · exact .bind (.throw _) fun h => fin _ _ h
      · exact .bind (.pure _) fun h => fin _ _ h
    · split
      · exact .bind (.throw _) fun h => fin _ _ h
      · exact .bind (.pure _) fun h => fin _ _ h
    · exact .bind (.pure _) fun h => fin _ _ h
  exact (key l d ⟨hf, hv, hp⟩).1

/-- Opening a disk that stays as it is: a written one with its first 8 blocks blank. -/
example (m : Mode) : ∃ s' o, writeInplace .debug (smallDisk [(1, smallPart)]) = (.ok (), s') ∧
    (Live.openFromDevice m GptConfig.new ⟨fun _ => zeros 4096 ++ s'.device.data.drop 4096, 0, 0⟩).1 = .ok o ∧ Numbered [smallPart] o.partitions := by
  obtain ⟨s', s2, d2, h1, h2, h3⟩ := smallDisk_overwritten m (zeros 4096) (zeros_length _) (by
    have : slice (zeros 4096) 512 8 = zeros 8 :=
      slice_eq_of_byteAt (by rw [zeros_length]; omega) (zeros_length _) fun i _ => by rw [byteAt_zeros, byteAt_zeros]
    rw [this]; decide)
  refine ⟨s', found s2, h1, ?_, h3⟩
  rw [c119_still m GptConfig.new _ ⟨zeros 4096 ++ s'.device.data.drop 4096, 0, 5120, [], []⟩ rfl (fun _ => rfl) rfl, h2]
  rfl

/-! ## Beside one update -/

theorem order_split {lb k B n u : Nat} (hu : u ≤ n) (h1 : 2 * lb ≤ (B - k) * lb) (h2 : 2 * lb ≤ B * lb) :
    ∃ P, writeOrder lb k B n u true = P ++ span lb lb ∧ (∀ x ∈ P, 2 * lb ≤ x) ∧
      (∀ i, 2 * lb ≤ i → i < 2 * lb + 128 * n → i ∈ P) ∧
      (∀ i, (B - k) * lb ≤ i → i < (B - k) * lb + 128 * n → i ∈ P) ∧ ∀ i, B * lb ≤ i → i < B * lb + lb → i ∈ P := by
  refine ⟨_, rfl, fun x hx => ?_, fun i i1 i2 => ?_, fun i i1 i2 => ?_, fun i i1 i2 => ?_⟩
  · simp only [List.mem_append, List.mem_flatMap, List.mem_range, span, List.mem_range'_1, if_true] at hx
    rcases hx with (⟨j, -, hx | hx⟩ | hx) | hx | hx <;> omega
  · simp only [List.mem_append, List.mem_flatMap, List.mem_range, span, List.mem_range'_1, if_true]
    by_cases hj : i < 2 * lb + 128 * u
    · exact .inl (.inl ⟨(i - 2 * lb) / 128, by omega, .inl (by omega)⟩)
    · exact .inl (.inr (by omega))
  · simp only [List.mem_append, List.mem_flatMap, List.mem_range, span, List.mem_range'_1, if_true]
    by_cases hj : i < (B - k) * lb + 128 * u
    · exact .inl (.inl ⟨(i - (B - k) * lb) / 128, by omega, .inr (by omega)⟩)
    · exact .inr (.inl (by omega))
  · simp only [List.mem_append, List.mem_flatMap, List.mem_range, span, List.mem_range'_1, if_true]
    exact .inr (.inr ⟨i1, i2⟩)

/-- `s` has been written and is `s1` now, with a backup in the last block. `s2` is `s1` with any other table that fits, on any device
with the same content; an undisturbed write of it ends in `sd`. -/
structure Spec.Update (m m' : Mode) (s s1 s2 sd : GptDisk) (h : Header) (k B : Nat) : Prop where
  sane : SaneDisk s h k B
  written : writeInplace m s = (.ok (), s1)
  backup : s.config.readonlyBackup = false
  last : s.device.data.length / s.config.lbSize.usize = B + 1
  header : s2.header (ε := Empty) = s1.header
  config : s2.config = s1.config
  content : s2.device.data = s1.device.data
  done : writeInplace m' (undisturbed s2) = (.ok (), sd)

/-- While that write goes on, perhaps stopping for good somewhere, `l` looks on: each call of its own finds the bytes of `writeOrder` that
have been written by then (`c t` of them at call `t`), and what has been written stays. -/
structure Spec.Racing (m m' : Mode) (s s1 s2 sd : GptDisk) (h : Header) (k B : Nat) (l : Live) (c : Nat → Nat) : Prop where
  update : Update m m' s s1 s2 sd h k B
  stays : ∀ t t', t ≤ t' → c t ≤ c t'
  watch : ∀ t, CutAt (writeOrder s.config.lbSize.usize k B h.numParts.toNat (Spec.used s2.partitions).length true) s1.device.data
    sd.device.data (c t) (l.view t)

/-- **C119**, beside one update. If a disk is opened while another program updates its table, and opening succeeds, it has found the old
table or the new one, whole, and the GUID of the disk, unless what was in the array at some moment differs from the old array but has the
same CRC-32. -/
theorem c119_one (m m' m'' : Mode) (s s1 s2 sd : GptDisk) (h : Header) (k B : Nat) (l : Live) (c : Nat → Nat) (cfg : GptConfig)
    (o : Live.Found) (hr : Racing m m' s s1 s2 sd h k B l c) (hlb : cfg.lbSize = s.config.lbSize) (hok : (Live.openFromDevice m'' cfg l).1 = .ok o) :
    o.guid = h.diskGuid ∧
    (Numbered (Spec.used s.partitions) o.partitions ∨ Numbered (Spec.used s2.partitions) o.partitions ∨
      ∃ t, Collision (slice (l.view t) (2 * s.config.lbSize.usize) (h.numParts.toNat * 128))
        (slice s1.device.data (2 * s.config.lbSize.usize) (h.numParts.toNat * 128))) := by
  obtain ⟨⟨hs, hw1, hro, hB, hh, hc, hd2, hsd⟩, hmono, hcut⟩ := hr
  have w := write_ok hs hw1
  have r := w.regions hs
  have g := geo_sane hs.sane hs.fits s.config
  have hsep := g.sep
  have hsepB := g.sepB
  have hfits := g.fits
  have hcount := hs.sane.count
  have hs1 := w.saneDisk hs
  have hs2 : SaneDisk s2 ((rebuiltP k B h).sealed (Gpt.crc32 (tableBytes (Spec.used s.partitions) h.numParts.toNat))) k B := by
    refine ⟨hh.trans hs1.header, ?_, ?_, ?_⟩
    · rw [hc]; exact hs1.sane
    · rw [hc, hd2]; exact hs1.fits
    · rw [hd2]; exact hs1.length
  have wd := write_ok (undisturbed_sane hs2) hsd
  have rd := wd.regions (undisturbed_sane hs2)
  have hcfg : s2.config = s.config := hc.trans w.rest.config
  have hroom1 := w.room
  have hlen1 := w.length
  have hlen := hs.length
  have hpos := lb_le s.config.lbSize
  have hnp : (rebuiltP k B h).numParts = h.numParts := rfl
  rw [hnp] at hsep hsepB
  have hlens : sd.device.data.length = s.device.data.length := by
    have := wd.length
    have : (undisturbed s2).device.data.length = s1.device.data.length := by rw [← hd2]; rfl
    omega
  have hroom : (Spec.used s2.partitions).length ≤ h.numParts.toNat := wd.room
  have rdh : slice sd.device.data s.config.lbSize.usize s.config.lbSize.usize =
      (rebuiltP k B h).block (crc32 (tableBytes (Spec.used s2.partitions) h.numParts.toNat)) s.config.lbSize := by
    have := rd.head
    rw [show (undisturbed s2).config = s.config from hcfg] at this
    exact this
  have rda : slice sd.device.data (2 * s.config.lbSize.usize) (h.numParts.toNat * 128) =
      tableBytes (Spec.used s2.partitions) h.numParts.toNat := by
    have := rd.array
    rw [show (undisturbed s2).config = s.config from hcfg] at this
    exact this
  obtain ⟨rdb, rdba⟩ : slice sd.device.data (B * s.config.lbSize.usize) s.config.lbSize.usize =
      (rebuiltB k B h).block (crc32 (tableBytes (Spec.used s2.partitions) h.numParts.toNat)) s.config.lbSize ∧
      slice sd.device.data ((B - k) * s.config.lbSize.usize) (h.numParts.toNat * 128) =
        tableBytes (Spec.used s2.partitions) h.numParts.toNat := by
    have := rd.backup
    rw [show (undisturbed s2).config = s.config from hcfg] at this
    exact this hro
  have hL : ∀ t, (l.view t).length = s.device.data.length := fun t => (hcut t).length.trans hlen1
  obtain ⟨hx, T, e1, e2, -, hT, hsel, hguid, -, -, hcrc, htab⟩ := Live.open_ok hL (by omega) hok
  rw [hlb] at e1 e2 hcrc htab
  obtain ⟨hB', hkB⟩ := sane_bounds hs.sane
  obtain ⟨P, hP, hP0, hP1, hP2, hP3⟩ := order_split (lb := s.config.lbSize.usize) (k := k) (B := B) hroom (by omega) (by omega)
  -- the two stages of the update
  have hnew : ∀ t, P.length < c (l.time + 2) → l.time + 2 ≤ t → ∀ i ∈ P, byteAt (l.view t) i = byteAt sd.device.data i := by
    intro t hlt ht i hi
    rw [(hcut t).bytes, hP, List.take_append, if_pos]
    rw [List.mem_append, List.take_of_length_le (by have := hmono _ _ ht; omega)]
    exact .inl hi
  have table : ∀ (off : Nat) (ps : List Partition) (src : Bytes), ps.length ≤ h.numParts.toNat → (∀ p ∈ ps, p.isUsed = true) →
      off + h.numParts.toNat * 128 ≤ s.device.data.length → src.length = s.device.data.length →
      slice src off (h.numParts.toNat * 128) = tableBytes ps h.numParts.toNat →
      (∀ j i, j < h.numParts.toNat → off ≤ i → i < off + h.numParts.toNat * 128 → byteAt (l.view (T + 1 + j)) i = byteAt src i) →
      slotsTable (fun j => slice (l.view (T + 1 + j)) (off + 128 * j) 128) h.numParts.toNat 0 = numberFrom 0 ps := by
    intro off ps src h1 h2 h3 h4 h5 h6
    rw [← tableAt_table h1 h2 h5, ← slotsTable_slice]
    refine slotsTable_congr _ _ fun j _ hj => ?_
    refine slice_congr (by rw [hL]; omega) (by omega) fun i i1 i2 => h6 j i (by omega) (by omega) (by omega)
  have hhead : ∀ cr : UInt32, Res.ofExcept o.primaryHeader = .ok ((rebuiltP k B h).sealed cr) → hx = (rebuiltP k B h).sealed cr := by
    intro cr he
    have he := ofExcept_ok.mp he
    rw [select_spec.1, he] at hsel
    rcases hsel with ⟨h1, -⟩ | ⟨-, ⟨e, h1⟩, -⟩
    · exact (Except.ok.inj h1).symm
    · cases h1
  have e2' : (2 : UInt64).toNat = 2 := rfl
  by_cases hst : P.length < c (l.time + 2)
  · -- the new array and the backup are there
    have fin : ∀ cr : UInt32, hx = (rebuiltP k B h).sealed cr → o.guid = h.diskGuid ∧ Numbered (Spec.used s2.partitions) o.partitions := by
      rintro cr rfl
      refine ⟨hguid, ?_⟩
      rw [htab]
      change Numbered _ (slotsTable (fun j => slice (l.view (T + 1 + j)) ((2 : UInt64).toNat * _ + 128 * j) 128) h.numParts.toNat 0)
      rw [e2', table (2 * s.config.lbSize.usize) (Spec.used s2.partitions) sd.device.data hroom (fun p hp => used_isUsed hp) (by omega) hlens rda
        fun j i _ i1 i2 => hnew _ hst (by omega) i (hP1 i i1 (by omega))]
      exact numbered_numberFrom (by omega)
    have back : (∃ e, o.primaryHeader = .error e) → o.guid = h.diskGuid ∧ Numbered (Spec.used s2.partitions) o.partitions := by
      rintro ⟨e, he⟩
      have hread : readBackupAt (l.view (l.time + 9)) s.config.lbSize =
          .ok ((rebuiltB k B h).sealed (crc32 (tableBytes (Spec.used s2.partitions) h.numParts.toNat))) := by
        have hb : slice (l.view (l.time + 9)) (B * s.config.lbSize.usize) s.config.lbSize.usize =
            (rebuiltB k B h).block (crc32 (tableBytes (Spec.used s2.partitions) h.numParts.toNat)) s.config.lbSize := by
          rw [← rdb]
          exact slice_congr (by rw [hL]; omega) (by omega) fun i i1 i2 => hnew _ hst (by omega) i (hP3 i i1 i2)
        rw [readBackupAt, if_neg (by rw [hL]; omega), ← read_block (h := rebuiltB k B h) rfl rfl (by rw [hL]; omega) hb]
        congr 1
        unfold backupOffset lastBlock
        rw [hL, hB, Nat.add_sub_cancel]
      rw [hread, ofExcept_ok] at e2
      rw [select_spec.1, he, e2] at hsel
      rcases hsel with ⟨h1, -⟩ | ⟨-, -, h1⟩
      · cases h1
      · obtain rfl := Except.ok.inj h1
        refine ⟨hguid, ?_⟩
        rw [htab]
        change Numbered _ (slotsTable (fun j => slice (l.view (T + 1 + j)) ((UInt64.ofNat (B - k)).toNat * _ + 128 * j) 128) h.numParts.toNat 0)
        rw [ofNat64 (by omega), table ((B - k) * s.config.lbSize.usize) (Spec.used s2.partitions) sd.device.data hroom
          (fun p hp => used_isUsed hp) (by omega) hlens rdba fun j i _ i1 i2 => hnew _ hst (by omega) i (hP2 i i1 (by omega))]
        exact numbered_numberFrom (by omega)
    cases hp1 : o.primaryHeader with
    | error e => exact (back ⟨e, hp1⟩).imp id fun h => .inr (.inl h)
    | ok x =>
      rw [hp1] at e1
      have e1 : readHeaderAt (l.view (l.time + 2)) s.config.lbSize.usize = .ok x := e1.symm
      have hv := (((readHeaderAt_spec _ _).1 _).mp e1).1
      obtain ⟨c', hc'⟩ := mem_order_head (lb := s.config.lbSize.usize) (k := k) (B := B) (n := h.numParts.toNat)
        (u := (Spec.used s2.partitions).length) (c := c (l.time + 2)) (backup := true) (by omega) (by omega)
      have ro := read_block (h := rebuiltP k B h) (data := s1.device.data) rfl rfl (by omega) r.head
      have rf := read_block (h := rebuiltP k B h) (data := sd.device.data) rfl rfl (by omega) rdh
      have hby : ∀ {data : Bytes} {c : UInt32}, slice data s.config.lbSize.usize s.config.lbSize.usize =
          (rebuiltP k B h).block c s.config.lbSize → ∀ i, i < s.config.lbSize.usize →
          byteAt data (s.config.lbSize.usize + i) = byteAt ((rebuiltP k B h).block c s.config.lbSize) i := by
        intro data c e i hi
        rw [← e, byteAt_slice, if_pos hi]
      have same : ∀ {data : Bytes}, data.length = s.device.data.length →
          (∀ i, i < 92 → byteAt (l.view (l.time + 2)) (s.config.lbSize.usize + i) = byteAt data (s.config.lbSize.usize + i)) →
          readHeaderAt (l.view (l.time + 2)) s.config.lbSize.usize = readHeaderAt data s.config.lbSize.usize := by
        intro data hl hby
        unfold readHeaderAt
        rw [hL, hl]
        split
        · rename_i hfit
          rw [slice_congr (by rw [hL]; omega) (by rw [hl]; omega) fun i i1 i2 => by
            have := hby (i - s.config.lbSize.usize) (by omega)
            rwa [Nat.add_sub_cancel' i1] at this]
        · rfl
      rcases torn_header (((readHeaderAt_spec _ _).1 _).mp ro).1 (((readHeaderAt_spec _ _).1 _).mp rf).1 hv
        (fun i hi => by rw [hby rdh i (by omega), hby r.head i (by omega)]; exact byteAt_block_same _ rfl _ _ _ _ (by omega))
        (fun i hi => by rw [(hcut _).bytes]; exact if_congr (hc' i (by omega)) rfl rfl) with hall | hall
      · rw [same (by omega) hall, ro] at e1
        exact (fin _ (hhead _ (by rw [hp1]; exact e1.symm))).imp id fun h => .inr (.inl h)
      · rw [same (by omega) hall, rf] at e1
        exact (fin _ (hhead _ (by rw [hp1]; exact e1.symm))).imp id fun h => .inr (.inl h)
  · -- the old primary header is still there
    have hblk : slice (l.view (l.time + 2)) s.config.lbSize.usize s.config.lbSize.usize =
        slice s1.device.data s.config.lbSize.usize s.config.lbSize.usize := by
      refine slice_congr (by rw [hL]; omega) (by omega) fun i i1 i2 => ?_
      rw [(hcut _).bytes, hP, List.take_append, show c (l.time + 2) - P.length = 0 by omega, List.take_zero, List.append_nil, if_neg]
      intro hi
      have := hP0 _ (List.mem_of_mem_take hi)
      omega
    rw [read_block (h := rebuiltP k B h) rfl rfl (by rw [hL]; omega) (hblk.trans r.head)] at e1
    obtain rfl := hhead _ e1
    refine ⟨hguid, ?_⟩
    change crc32 (slice (l.view (T + 2 + h.numParts.toNat)) ((2 : UInt64).toNat * _) (128 * h.numParts.toNat)) =
      crc32 (tableBytes (Spec.used s.partitions) h.numParts.toNat) at hcrc
    rw [e2', Nat.mul_comm 128, ← r.array] at hcrc
    by_cases harr : slice (l.view (T + 2 + h.numParts.toNat)) (2 * s.config.lbSize.usize) (h.numParts.toNat * 128) =
        slice s1.device.data (2 * s.config.lbSize.usize) (h.numParts.toNat * 128)
    · left
      rw [htab]
      change Numbered _ (slotsTable (fun j => slice (l.view (T + 1 + j)) ((2 : UInt64).toNat * _ + 128 * j) 128) h.numParts.toNat 0)
      rw [e2', table (2 * s.config.lbSize.usize) (Spec.used s.partitions) s1.device.data hroom1 (fun p hp => used_isUsed hp) (by omega) hlen1
        r.array fun j i hj i1 i2 => ?_]
      · exact numbered_numberFrom (by omega)
      · have hlast : byteAt (l.view (T + 2 + h.numParts.toNat)) i = byteAt s1.device.data i := by
          have := congrArg (fun b => byteAt b (i - 2 * s.config.lbSize.usize)) harr
          simp only [byteAt_slice, if_pos (show i - 2 * s.config.lbSize.usize < h.numParts.toNat * 128 by omega), Nat.add_sub_cancel' i1] at this
          exact this
        have hm := hmono (T + 1 + j) (T + 2 + h.numParts.toNat) (by omega)
        rw [(hcut _).bytes] at hlast ⊢
        split
        · rename_i hin
          rw [if_pos] at hlast
          · exact hlast
          · exact (List.take_subset_take_left _ hm) hin
        · rfl
    · exact .inr (.inr ⟨_, harr, hcrc⟩)

/-! ## Beside two updates -/

/-- The table from what the slots hold. -/
theorem slotsTable_stored {f : Nat → Bytes} (n i : Nat) (ps : List Partition) (hl : ps.length ≤ n) (hu : ∀ p ∈ ps, p.isUsed = true)
    (h1 : ∀ j (hj : j < ps.length), f (i + j) = ps[j].asBytes 128) (h2 : ∀ j, ps.length ≤ j → j < n → f (i + j) = zeros 128) :
    slotsTable f n i = numberFrom i ps := by
  induction n generalizing i ps with
  | zero =>
    have : ps = [] := List.eq_nil_of_length_eq_zero (by omega)
    subst this
    rfl
  | succ n ih =>
    rw [slotsTable]
    cases ps with
    | nil =>
      rw [if_pos (by simpa using h2 0 (by simp) (by omega))]
      refine ih (i + 1) [] (by simp) (by simp) (by simp) fun j _ hj => ?_
      rw [← h2 (j + 1) (by simp) (by omega)]
      congr 1; omega
    | cons p ps =>
      have e := h1 0 (by simp)
      simp only [Nat.add_zero, List.getElem_cons_zero] at e
      rw [e, if_neg (Partition.asBytes_ne_zeros (hu p (by simp))), Partition.partitionOfBytes_asBytes]
      rw [numberFrom]
      congr 1
      simp only [List.length_cons] at hl h1 h2
      refine ih (i + 1) ps (by omega) (fun q hq => hu q (by simp [hq])) (fun j hj => ?_) fun j hj1 hj2 => ?_
      · rw [← List.getElem_cons_succ (a := p) (h := by simp; omega), ← h1 (j + 1) (by omega)]
        congr 1; omega
      · rw [← h2 (j + 1) (by omega) (by omega)]
        congr 1; omega

/-- Opening succeeds if three of its calls find a written disk. -/
theorem live_opens {m m'' : Mode} {s s1 : GptDisk} {h : Header} {k B : Nat} {cfg : GptConfig} {view : Nat → Bytes} (hs : SaneDisk s h k B)
    (hw1 : writeInplace m s = (.ok (), s1)) (hro : s.config.readonlyBackup = false)
    (hB : s.device.data.length / s.config.lbSize.usize = B + 1) (hlb : cfg.lbSize = s.config.lbSize) (hn0 : h.numParts.toNat ≠ 0)
    (hL : ∀ t, (view t).length = s.device.data.length) (v2 : view 2 = s1.device.data) (v9 : view 9 = s1.device.data)
    (vn : view (13 + h.numParts.toNat) = s1.device.data) :
    ∃ o, (Live.openFromDevice m'' cfg ⟨view, 0, 0⟩).1 = .ok o ∧ o.guid = h.diskGuid ∧
      o.partitions = slotsTable (fun j => slice (view (12 + j)) (2 * s.config.lbSize.usize + 128 * j) 128) h.numParts.toNat 0 := by
  have w := write_ok hs hw1
  have r := w.regions hs
  have g := geo_sane hs.sane hs.fits s.config
  have hsep := g.sep
  have hsepB := g.sepB
  have hfits := g.fits
  have hcount := hs.sane.count
  have hlen1 := w.length
  have hlen := hs.length
  have hpos := lb_le s.config.lbSize
  have hnp : (rebuiltP k B h).numParts = h.numParts := rfl
  rw [hnp] at hsep hsepB
  obtain ⟨h1, h2, T, p, e1, e2, e3, -, -, e6⟩ := Live.open_eq m'' cfg ⟨view, 0, 0⟩ hL (by omega)
  obtain ⟨hB', hkB⟩ := sane_bounds hs.sane
  have hT : T = 11 := (e3 (by rw [hlb]; omega)).trans (Nat.zero_add _)
  subst hT
  rw [hlb] at e1 e2 e6
  have e1 : Res.ofExcept h1 = readHeaderAt (view 2) s.config.lbSize.usize := e1
  have e2 : Res.ofExcept h2 = readBackupAt (view 9) s.config.lbSize := e2
  rw [v2, read_block (h := rebuiltP k B h) rfl rfl (by omega) r.head, ofExcept_ok] at e1
  have hread : readBackupAt (view 9) s.config.lbSize =
      .ok ((rebuiltB k B h).sealed (crc32 (tableBytes (Spec.used s.partitions) h.numParts.toNat))) := by
    rw [v9, readBackupAt, if_neg (by omega), ← read_block (h := rebuiltB k B h) rfl rfl (by omega) (r.backup hro).1]
    congr 1
    unfold backupOffset lastBlock
    rw [hlen1, hB, Nat.add_sub_cancel]
  rw [hread, ofExcept_ok] at e2
  have e6 := e6 ((rebuiltP k B h).sealed (crc32 (tableBytes (Spec.used s.partitions) h.numParts.toNat))) (by
    rw [select_spec.1, e1, e2]
    exact .inl ⟨rfl, fun _ => ⟨_, rfl⟩⟩)
  have t2 : (2 : UInt64).toNat = 2 := rfl
  obtain ⟨t, l', ef⟩ := Live.fileReadPartitions_runs (m := m'') (l := ⟨view, 11, p⟩) (lb := s.config.lbSize)
    (h := (rebuiltP k B h).sealed (crc32 (tableBytes (Spec.used s.partitions) h.numParts.toNat))) hL
    (by show (2 : UInt64).toNat * _ < _; rw [t2]; omega) rfl
    (by show (2 : UInt64).toNat * _ + 128 * h.numParts.toNat ≤ _; rw [t2]; omega) (.inr (by show h.numParts.toNat < _; omega)) hn0 (by
      show crc32 (slice (view (13 + h.numParts.toNat)) ((2 : UInt64).toNat * _) (128 * h.numParts.toNat)) =
        crc32 (tableBytes (Spec.used s.partitions) h.numParts.toNat)
      rw [vn, t2, Nat.mul_comm 128, r.array])
  rw [ef] at e6
  have htab := (Live.fileReadPartitions_ok ef).2.2.2.2.2
  exact ⟨_, e6, rfl, htab⟩

/-- **C119**, beside more than one update. The entries are read one by one and the checksum is formed over a second reading of the array. If
other programs replace the table by one with as many entries and put the old one back, opening may succeed with any mixture of the two
tables, though each of the contents it has looked at was a complete and correct disk. -/
theorem c119_mixed (m m' m'' : Mode) (s s1 s2 sd : GptDisk) (h : Header) (k B : Nat) (cfg : GptConfig) (ps : List Partition)
    (hu : Update m m' s s1 s2 sd h k B) (hlb : cfg.lbSize = s.config.lbSize) (h0 : ps ≠ [])
    (hl : ps.length = (Spec.used s.partitions).length) (hl2 : ps.length = (Spec.used s2.partitions).length)
    (hmix : ∀ j : Nat, ps[j]? = (Spec.used s.partitions)[j]? ∨ ps[j]? = (Spec.used s2.partitions)[j]?) :
    ∃ l o, (∀ t, l.view t = s1.device.data ∨ l.view t = sd.device.data) ∧ (Live.openFromDevice m'' cfg l).1 = .ok o ∧
      o.guid = h.diskGuid ∧ Numbered ps o.partitions := by
  obtain ⟨hs, hw1, hro, hB, hh, hc, hd2, hsd⟩ := hu
  have w := write_ok hs hw1
  have r := w.regions hs
  have g := geo_sane hs.sane hs.fits s.config
  have hsep := g.sep
  have hsepB := g.sepB
  have hfits := g.fits
  have hcount := hs.sane.count
  have hs1 := w.saneDisk hs
  have hs2 : SaneDisk s2 ((rebuiltP k B h).sealed (Gpt.crc32 (tableBytes (Spec.used s.partitions) h.numParts.toNat))) k B := by
    refine ⟨hh.trans hs1.header, ?_, ?_, ?_⟩
    · rw [hc]; exact hs1.sane
    · rw [hc, hd2]; exact hs1.fits
    · rw [hd2]; exact hs1.length
  have wd := write_ok (undisturbed_sane hs2) hsd
  have rd := wd.regions (undisturbed_sane hs2)
  have hcfg : s2.config = s.config := hc.trans w.rest.config
  have hroom1 := w.room
  have hlen1 := w.length
  have hlen := hs.length
  have hpos := lb_le s.config.lbSize
  have hnp : (rebuiltP k B h).numParts = h.numParts := rfl
  rw [hnp] at hsep hsepB
  have hlens : sd.device.data.length = s.device.data.length := by
    have := wd.length
    have : (undisturbed s2).device.data.length = s1.device.data.length := by rw [← hd2]; rfl
    omega
  have rda : slice sd.device.data (2 * s.config.lbSize.usize) (h.numParts.toNat * 128) =
      tableBytes (Spec.used s2.partitions) h.numParts.toNat := by
    have := rd.array
    rw [show (undisturbed s2).config = s.config from hcfg] at this
    exact this
  have hps : 0 < ps.length := List.length_pos_of_ne_nil h0
  classical
  let view : Nat → Bytes := fun t =>
    if 12 ≤ t ∧ ps[t - 12]? ≠ (Spec.used s.partitions)[t - 12]? then sd.device.data else s1.device.data
  have hview : ∀ t, view t = s1.device.data ∨ view t = sd.device.data := by
    intro t
    by_cases ht : 12 ≤ t ∧ ps[t - 12]? ≠ (Spec.used s.partitions)[t - 12]?
    · exact .inr (if_pos ht)
    · exact .inl (if_neg ht)
  have hL : ∀ t, (view t).length = s.device.data.length := by
    intro t
    rcases hview t with e | e <;> rw [e] <;> omega
  have hold : ∀ t, t < 12 ∨ 12 + ps.length ≤ t → view t = s1.device.data := by
    intro t ht
    refine if_neg fun hc => ?_
    obtain ⟨h1, h2⟩ := hc
    rw [List.getElem?_eq_none (by omega), List.getElem?_eq_none (by omega)] at h2
    exact h2 rfl
  obtain ⟨o, ho, hguid, htab⟩ := live_opens (m'' := m'') (view := view) hs hw1 hro hB hlb (by omega) hL (hold 2 (by omega)) (hold 9 (by omega))
    (hold _ (by omega))
  refine ⟨⟨view, 0, 0⟩, o, hview, ho, hguid, ?_⟩
  have : o.partitions = numberFrom 0 ps := by
    rw [htab]
    have hused : ∀ p ∈ ps, p.isUsed = true := by
      intro p hp
      obtain ⟨j, hj, rfl⟩ := List.mem_iff_getElem.mp hp
      rcases hmix j with e | e
      · rw [List.getElem?_eq_getElem hj] at e
        exact used_isUsed (List.mem_of_getElem? e.symm)
      · rw [List.getElem?_eq_getElem hj] at e
        exact used_isUsed (List.mem_of_getElem? e.symm)
    have slot : ∀ (src : Bytes) (qs : List Partition) (j : Nat), slice src (2 * s.config.lbSize.usize) (h.numParts.toNat * 128) =
        tableBytes qs h.numParts.toNat → j < h.numParts.toNat →
        slice src (2 * s.config.lbSize.usize + 128 * j) 128 = slice (tableBytes qs h.numParts.toNat) (j * 128) 128 := by
      intro src qs j e hj
      rw [← e, slice_slice (by omega), Nat.mul_comm j]
    refine slotsTable_stored _ _ _ (by omega) hused (fun j hj => ?_) fun j h1 h2 => ?_
    · rw [Nat.zero_add]
      have e12 : 12 + j - 12 = j := by omega
      by_cases hj' : ps[j]? = (Spec.used s.partitions)[j]?
      · rw [show view (12 + j) = s1.device.data from if_neg (by rw [e12]; exact fun hc => hc.2 hj'), slot _ _ j r.array (by omega),
          slice_table_entry (by omega)]
        rw [List.getElem?_eq_getElem hj, List.getElem?_eq_getElem (by omega)] at hj'
        rw [Option.some.inj hj']
      · rw [show view (12 + j) = sd.device.data from if_pos (by rw [e12]; exact ⟨by omega, hj'⟩), slot _ _ j rda (by omega),
          slice_table_entry (by omega)]
        have hj2 := (hmix j).resolve_left hj'
        rw [List.getElem?_eq_getElem hj, List.getElem?_eq_getElem (by omega)] at hj2
        rw [Option.some.inj hj2]
    · rw [Nat.zero_add, hold _ (by omega), slot _ _ j r.array (by omega), slice_table_zero (by omega) (by omega)]
  rw [this]
  exact numbered_numberFrom (by omega)

/-- Both settings on the small disk. Its two partitions fill blocks 3 to 7; an update moves the border between them. -/
def leftPart (a b : UInt64) : Partition := { smallPart with firstLba := a, lastLba := b }

theorem border_update (m : Mode) : ∃ s1 sd, Update m m (smallDisk [(1, leftPart 3 4), (2, leftPart 5 7)]) s1
    { s1 with partitions := [(1, leftPart 3 5), (2, leftPart 6 7)] } sd smallHeader 1 9 := by
  obtain ⟨s1, hw, hlen, hz⟩ := smallDisk_written m [(1, leftPart 3 4), (2, leftPart 5 7)] (by decide)
  have w := write_ok (smallDisk_sane _) hw
  have hs1 := w.saneDisk (smallDisk_sane _)
  have hs2 : SaneDisk { s1 with partitions := [(1, leftPart 3 5), (2, leftPart 6 7)] } _ 1 9 :=
    ⟨hs1.header, hs1.sane, hs1.fits, hs1.length⟩
  obtain ⟨sd, hd⟩ := undisturbed_writes m hs2 (by show s1.config.writable = true; rw [w.rest.config]; rfl) (by
    show 2 ≤ 4; decide)
  exact ⟨s1, sd, smallDisk_sane _, hw, rfl, by rw [hz]; rfl, rfl, rfl, rfl, hd⟩

/-- An opening that looks on while the border moves, and finds the old table: the update begins when it has read everything. -/
example (m : Mode) : ∃ s1 sd l c o, Racing m m (smallDisk [(1, leftPart 3 4), (2, leftPart 5 7)]) s1
    { s1 with partitions := [(1, leftPart 3 5), (2, leftPart 6 7)] } sd smallHeader 1 9 l c ∧ l.view 0 ≠ l.view 20 ∧
    (Live.openFromDevice m GptConfig.new l).1 = .ok o := by
  obtain ⟨s1, sd, hu⟩ := border_update m
  have w := write_ok hu.sane hu.written
  have hs1 := w.saneDisk hu.sane
  have hs2 : SaneDisk { s1 with partitions := [(1, leftPart 3 5), (2, leftPart 6 7)] } _ 1 9 :=
    ⟨hs1.header, hs1.sane, hs1.fits, hs1.length⟩
  have wd := write_ok (undisturbed_sane hs2) hu.done
  have hcfg : s1.config = GptConfig.new.setWritable true := w.rest.config
  have r := (w.regions hu.sane).array
  have rd := (wd.regions (undisturbed_sane hs2)).array
  have hl1 : s1.device.data.length = 5120 := w.length.trans (zeros_length _)
  have hls : sd.device.data.length = 5120 := wd.length.trans hl1
  obtain ⟨c, hc⟩ := c65_only m m (undisturbed { s1 with partitions := [(1, leftPart 3 5), (2, leftPart 6 7)] }) sd _ 1 9 (undisturbed_sane hs2) hu.done
  rw [hu.done] at hc
  have hlb : (undisturbed { s1 with partitions := [(1, leftPart 3 5), (2, leftPart 6 7)] }).config.lbSize.usize = 512 := by
    show s1.config.lbSize.usize = 512
    rw [hcfg]; rfl
  have hrb : (undisturbed { s1 with partitions := [(1, leftPart 3 5), (2, leftPart 6 7)] }).config.readonlyBackup = false := by
    show s1.config.readonlyBackup = false
    rw [hcfg]; rfl
  rw [hlb] at rd
  rw [hlb, hrb] at hc
  have hne : s1.device.data ≠ sd.device.data := by
    intro e
    rw [← e] at rd
    have := rd.symm.trans r
    have := congrArg (fun b => slice b (0 * 128) 128) this
    change slice (tableBytes [leftPart 3 5, leftPart 6 7] 4) (0 * 128) 128 = slice (tableBytes [leftPart 3 4, leftPart 5 7] 4) (0 * 128) 128 at this
    rw [slice_table_entry (by decide), slice_table_entry (by decide)] at this
    exact absurd this (by decide +kernel)
  obtain ⟨o, ho, -⟩ := live_opens (m'' := m) (cfg := GptConfig.new) (view := fun t => if t < 20 then s1.device.data else sd.device.data) hu.sane
    hu.written rfl hu.last rfl (by decide) (fun t => by
      split
      · exact w.length
      · exact hls.trans (hl1.symm.trans w.length)) rfl rfl rfl
  refine ⟨s1, sd, ⟨fun t => if t < 20 then s1.device.data else sd.device.data, 0, 0⟩, fun t => if t < 20 then 0 else c, o,
    ⟨hu, fun t t' ht => ?_, fun t => ?_⟩, hne, ho⟩
  · show (if t < 20 then 0 else c) ≤ (if t' < 20 then 0 else c)
    split
    · exact Nat.zero_le _
    · rw [if_neg (by omega)]
  · by_cases ht : t < 20
    · simp only [if_pos ht]
      exact ⟨rfl, fun i => by simp⟩
    · simp only [if_neg ht]
      exact hc

/-- Two tables without overlaps, and an opening that has found partitions 3 to 5 and 5 to 7. -/
example (m : Mode) : ∃ s1 sd l o, Update m m (smallDisk [(1, leftPart 3 4), (2, leftPart 5 7)]) s1
    { s1 with partitions := [(1, leftPart 3 5), (2, leftPart 6 7)] } sd smallHeader 1 9 ∧
    (∀ t, l.view t = s1.device.data ∨ l.view t = sd.device.data) ∧ (Live.openFromDevice m GptConfig.new l).1 = .ok o ∧
    Numbered [leftPart 3 5, leftPart 5 7] o.partitions := by
  obtain ⟨s1, sd, hu⟩ := border_update m
  obtain ⟨l, o, h1, h2, -, h4⟩ := c119_mixed m m m _ s1 _ sd smallHeader 1 9 GptConfig.new [leftPart 3 5, leftPart 5 7] hu rfl (by simp) rfl rfl (by
    rintro (_ | _ | j)
    · exact .inr rfl
    · exact .inl rfl
    · exact .inl rfl)
  exact ⟨s1, sd, l, o, hu, h1, h2, h4⟩

end Gpt
