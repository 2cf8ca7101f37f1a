import Verif.Lemmas.WriteRest
import Verif.Props.Builder
import Verif.Spec.Sane
/-!
# `write_inplace` on a sane disk
-/

namespace Gpt

open Spec HeaderBuilder

namespace GptDisk

/-- The primary header `write_inplace` writes. -/
def rebuiltP (k B : Nat) (h : Header) : Header where
  signature := efiPart
  revision := (1, 0)
  headerSizeLe := 92
  crc32 := 0
  reserved := 0
  currentLba := 1
  backupLba := UInt64.ofNat B
  firstUsable := h.firstUsable
  lastUsable := UInt64.ofNat (B - k - 1)
  diskGuid := h.diskGuid
  partStart := 2
  numParts := h.numParts
  partSize := 128
  crc32Parts := 0

/-- The backup header `write_inplace` writes. -/
def rebuiltB (k B : Nat) (h : Header) : Header :=
  { rebuiltP k B h with currentLba := UInt64.ofNat B, backupLba := 1, partStart := UInt64.ofNat (B - k) }

theorem usedParts_eq (t : PMap) : usedParts t = Spec.used t := by
  unfold usedParts Spec.used Partition.isUsed
  rw [List.filter_map]
  rfl

section
variable {lb : LbSize} {k B : Nat} {h : Header}

theorem sane_bounds (hs : SaneHeader lb k B h) : B < 2 ^ 64 ∧ 2 * k + 3 ≤ B := by
  have h1 := h.currentLba.toNat_lt
  have h2 := h.backupLba.toNat_lt
  have h3 := hs.first
  have h4 := hs.usable
  have h5 := hs.last
  rcases hs.lbas with ⟨e1, e2⟩ | ⟨e1, e2⟩ <;> omega

theorem ofNat64 {n : Nat} (h : n < 2 ^ 64) : (UInt64.ofNat n).toNat = n := by
  rw [UInt64.toNat_ofNat', Nat.mod_eq_of_lt h]

theorem primaryOf_sane (m : Mode) (hs : SaneHeader lb k B h) : primaryOf m h lb = .ok (rebuiltP k B h) := by
  obtain ⟨hB, hkB⟩ := sane_bounds hs
  have e128 : (128 : UInt32).toNat = 128 := rfl
  have e1 : (1 : UInt64).toNat = 1 := rfl
  have hcount := hs.count
  have hfirst := hs.first
  have husable := hs.usable
  have hlast := hs.last
  unfold primaryOf
  have hp : ((fromHeader h).setPrimary true).primaryLba.toNat = 1 ∧ ((fromHeader h).setPrimary true).backupLba.toNat = B := by
    unfold fromHeader setPrimary
    simp only
    rcases hs.lbas with ⟨e1, e2⟩ | ⟨e1, e2⟩
    · rw [if_pos (UInt64.lt_iff_toNat_lt.mpr (by omega)), if_pos (UInt64.lt_iff_toNat_lt.mpr (by omega))]
      exact ⟨e1, e2⟩
    · rw [if_neg (fun hc => by have := UInt64.lt_iff_toNat_lt.mp hc; omega),
        if_neg (fun hc => by have := UInt64.lt_iff_toNat_lt.mp hc; omega)]
      exact ⟨e2, e1⟩
  obtain ⟨hp1, hp2⟩ := hp
  have hn : ((fromHeader h).setPrimary true).numParts = h.numParts := rfl
  have hsz : ((fromHeader h).setPrimary true).partSize = 128 := hs.entry
  have hf : ((fromHeader h).setPrimary true).firstUsable = h.firstUsable := rfl
  have hl : ((fromHeader h).setPrimary true).lastUsable = h.lastUsable := rfl
  have hg : ((fromHeader h).setPrimary true).diskGuid = h.diskGuid := rfl
  have hpr : ((fromHeader h).setPrimary true).primary = true := rfl
  generalize (fromHeader h).setPrimary true = b at hp1 hp2 hn hsz hf hl hg hpr
  have hlbs : b.lbs lb = k := by
    unfold lbs
    rw [hn, hsz, e128]
    exact justEnough_unique (justEnough_blocksFor _ _) hs.arrays
  have hF : b.outFirst lb = h.firstUsable.toNat := by unfold outFirst; rw [hlbs, hf]; omega
  have hL : b.outLast lb = B - k - 1 := by unfold outLast; rw [hlbs, hl, hp2]; omega
  have hS : b.outStart lb = 2 := by unfold outStart; rw [hpr, hp1]; rfl
  rw [build_eq m b lb (by rw [hn, hsz, e128]; exact hcount), if_neg (by omega), if_neg (by omega), if_neg (by omega),
    if_pos (.inl (by omega))]
  unfold out rebuiltP
  simp only [hpr, if_true, hF, hL, hS, hn, hsz, hg]
  have c1 : b.primaryLba = 1 := UInt64.toNat_inj.mp (by rw [hp1]; rfl)
  have c2 : b.backupLba = UInt64.ofNat B := UInt64.toNat_inj.mp (by rw [hp2, ofNat64 hB])
  rw [c1, c2, UInt64.ofNat_toNat]
  rfl

theorem backupOf_sane (m : Mode) (hs : SaneHeader lb k B h) : backupOf m (rebuiltP k B h) lb = .ok (rebuiltB k B h) := by
  obtain ⟨hB, hkB⟩ := sane_bounds hs
  have e128 : (128 : UInt32).toNat = 128 := rfl
  have e1 : (1 : UInt64).toNat = 1 := rfl
  have hcount := hs.count
  have hfirst := hs.first
  have husable := hs.usable
  have hlast := hs.last
  unfold backupOf
  have hlt : (rebuiltP k B h).currentLba < (rebuiltP k B h).backupLba := by
    rw [UInt64.lt_iff_toNat_lt]
    show (1 : UInt64).toNat < (UInt64.ofNat B).toNat
    rw [ofNat64 hB, e1]; omega
  have hp : ((fromHeader (rebuiltP k B h)).setPrimary false).primaryLba = 1 ∧
      ((fromHeader (rebuiltP k B h)).setPrimary false).backupLba = UInt64.ofNat B := by
    unfold fromHeader setPrimary
    simp only
    rw [if_pos hlt, if_pos hlt]
    exact ⟨rfl, rfl⟩
  obtain ⟨hp1, hp2⟩ := hp
  have hn : ((fromHeader (rebuiltP k B h)).setPrimary false).numParts = h.numParts := rfl
  have hsz : ((fromHeader (rebuiltP k B h)).setPrimary false).partSize = 128 := rfl
  have hf : ((fromHeader (rebuiltP k B h)).setPrimary false).firstUsable = h.firstUsable := rfl
  have hl : ((fromHeader (rebuiltP k B h)).setPrimary false).lastUsable = UInt64.ofNat (B - k - 1) := rfl
  have hg : ((fromHeader (rebuiltP k B h)).setPrimary false).diskGuid = h.diskGuid := rfl
  have hpr : ((fromHeader (rebuiltP k B h)).setPrimary false).primary = false := rfl
  generalize (fromHeader (rebuiltP k B h)).setPrimary false = b at hp1 hp2 hn hsz hf hl hg hpr
  have hlbs : b.lbs lb = k := by
    unfold lbs
    rw [hn, hsz, e128]
    exact justEnough_unique (justEnough_blocksFor _ _) hs.arrays
  have hp1' : b.primaryLba.toNat = 1 := by rw [hp1]; rfl
  have hp2' : b.backupLba.toNat = B := by rw [hp2, ofNat64 hB]
  have hF : b.outFirst lb = h.firstUsable.toNat := by unfold outFirst; rw [hlbs, hf]; omega
  have hL : b.outLast lb = B - k - 1 := by unfold outLast; rw [hlbs, hl, hp2', ofNat64 (by omega)]; omega
  have hS : b.outStart lb = B - k := by unfold outStart; rw [hpr, hL]; simp only [Bool.false_eq_true, if_false]; omega
  rw [build_eq m b lb (by rw [hn, hsz, e128]; exact hcount), if_neg (by omega), if_neg (by omega), if_neg (by omega),
    if_pos (.inl (by omega))]
  unfold out rebuiltB rebuiltP
  simp only [hpr, Bool.false_eq_true, if_false, hF, hL, hS, hn, hsz, hg]
  rw [hp1, hp2, UInt64.ofNat_toNat]

end

/-- The backup header that is written, if one is. -/
def bakOf (cfg : GptConfig) (k B : Nat) (h : Header) : Option Header := if cfg.readonlyBackup then none else some (rebuiltB k B h)

section
variable {s : GptDisk} {h : Header} {k B : Nat}

theorem geo_sane {lb : LbSize} (hs : SaneHeader lb k B h) {len : Nat} (hfit : (B + 1) * lb.usize ≤ len) (cfg : GptConfig) :
    Geo lb (rebuiltP k B h) (bakOf cfg k B h) ((B - k) * lb.usize) (B * lb.usize) len := by
  obtain ⟨hB, hkB⟩ := sane_bounds hs
  have hen := hs.arrays.enough
  have hmul : (B - k) * lb.usize + k * lb.usize = B * lb.usize := by rw [← Nat.add_mul]; congr 1; omega
  have hmul2 : 2 * lb.usize + k * lb.usize ≤ (B - k) * lb.usize := by rw [← Nat.add_mul]; exact Nat.mul_le_mul_right _ (by omega)
  have hn : (rebuiltP k B h).numParts = h.numParts := rfl
  have e1 : (1 : UInt64).toNat = 1 := rfl
  have e2 : (2 : UInt64).toNat = 2 := rfl
  refine ⟨rfl, rfl, rfl, ?_, ?_, ?_, ?_, ?_, ?_⟩
  · show (1 : UInt64).toNat * lb.usize = lb.usize
    rw [e1, Nat.one_mul]
  · rfl
  · rw [hn]; omega
  · rw [hn]; omega
  · rw [Nat.add_mul, Nat.one_mul] at hfit; exact hfit
  · intro b hb
    unfold bakOf at hb
    split at hb
    · simp at hb
    · simp only [Option.some.injEq] at hb
      subst hb
      refine ⟨rfl, rfl, rfl, rfl, ?_, ?_, ?_⟩
      · show (UInt64.ofNat B).toNat * lb.usize = _
        rw [ofNat64 hB]
      · show (UInt64.ofNat (B - k)).toNat * lb.usize = _
        rw [ofNat64 (by omega)]
      · intro he
        have he := congrArg UInt64.toNat he
        rw [show (rebuiltP k B h).partStart.toNat = 2 from rfl,
          show (rebuiltB k B h).partStart.toNat = (UInt64.ofNat (B - k)).toNat from rfl, ofNat64 (by omega)] at he
        omega

theorem header_try (hh : s.header (ε := Empty) = .ok h) : s.tryHeader = .ok h := by
  unfold header at hh
  cases hx : s.tryHeader with
  | ok k => rw [hx] at hh; simp only [Res.ok.injEq] at hh; rw [hh]
  | error e => rw [hx] at hh; simp at hh

theorem Geo.noWrap {lb : LbSize} {ph : Header} {bh : Option Header} {oB oH len : Nat} (g : Geo lb ph bh oB oH len)
    (hlen : len < 2 ^ 64) : ph.NoWrap lb ∧ ∀ b, bh = some b → b.NoWrap lb ∧ b.signature.length = 8 ∧ b.numParts = ph.numParts := by
  have h1 := g.sep
  have h2 := g.sepB
  have h3 := g.fits
  constructor
  · unfold Header.NoWrap Header.arrayLen
    rw [g.start, g.size]
    show 2 * lb.usize + ph.numParts.toNat * 128 < _
    omega
  · intro b hb
    obtain ⟨b1, b2, b3, b4, b5, b6, b7⟩ := g.bak b hb
    refine ⟨?_, by rw [b1]; rfl, b4⟩
    unfold Header.NoWrap Header.arrayLen
    rw [b6, b3, b4]
    show oB + ph.numParts.toNat * 128 < _
    omega

/-- What is written. -/
abbrev planOf (s : GptDisk) (h : Header) (k B : Nat) (parts : List Partition) : List Write :=
  arrayPlan s.config.lbSize (rebuiltP k B h) (bakOf s.config k B h) parts ++
    headPlan s.config.lbSize (rebuiltP k B h) (bakOf s.config k B h) parts (B * s.config.lbSize.usize)

/-- `write_inplace` on a sane disk, reduced to its writing part. -/
theorem writeInplace_sane (m : Mode) (hs : SaneDisk s h k B) : writeInplace m s =
    if s.config.writable = false then (.err .readOnly, s)
    else match findBackupLba s.config.lbSize s.device with
    | (.err e, d1) => (.err (.header e), { s with device := d1 })
    | (.panic, d1) => (.panic, { s with device := d1 })
    | (.ok _, d1) => writeRest m s.config.lbSize (rebuiltP k B h) (bakOf s.config k B h) (Spec.used s.partitions) s.syncAll
        { s with device := d1, primaryHeader := .ok (rebuiltP k B h), backupHeader := if s.config.readonlyBackup then s.backupHeader else .ok (rebuiltB k B h) } := by
  rw [writeInplace_eq, header_try hs.header]
  simp only [primaryOf_sane m hs.sane, backupOf_sane m hs.sane, usedParts_eq]
  split
  · rfl
  · split
    · rename_i hx; rw [hx]
    · rename_i hx; rw [hx]
    · rename_i hx
      rw [hx]
      unfold bakOf
      cases hr : s.config.readonlyBackup with
      | true => simp
      | false => simp

/-- Whatever happens during `write_inplace`, the device content is that after a prefix of the planned writes, the last of
them perhaps cut short. -/
theorem write_follows (m : Mode) (hs : SaneDisk s h k B) :
    Follows GptDisk.device (planOf s h k B ((Spec.used s.partitions).take h.numParts.toNat)) (writeInplace m) s := by
  have g := geo_sane hs.sane hs.fits s.config
  obtain ⟨w1, w2⟩ := g.noWrap hs.length
  have hq := findBackupLba_quiet s.config.lbSize s.device
  have e := writeInplace_sane m hs
  by_cases hw : s.config.writable = false
  · rw [if_pos hw] at e
    exact .stop (by rw [e]; exact .refl _) (by rw [e]; simp)
  · rw [if_neg hw] at e
    rcases hx : findBackupLba s.config.lbSize s.device with ⟨r, d1⟩
    rw [hx] at e hq
    simp only at hq
    cases r with
    | err x => exact .stop (by rw [e]; exact hq) (by rw [e]; simp)
    | panic => exact .stop (by rw [e]; exact hq) (by rw [e]; simp)
    | ok x =>
      simp only at e
      have f := writeRest_follows m (bh := bakOf s.config k B h) (Spec.used s.partitions) s.syncAll
        { s with device := d1, primaryHeader := .ok (rebuiltP k B h), backupHeader := if s.config.readonlyBackup then s.backupHeader else .ok (rebuiltB k B h) }
        (show (rebuiltP k B h).signature.length = 8 from rfl) w1 w2
      simp only at f
      rw [hq.data, show (rebuiltP k B h).numParts = h.numParts from rfl] at f
      rw [writePlan_eq g (by rw [List.length_take]; exact Nat.min_le_left _ _) rfl] at f
      obtain ⟨ws, f1, f2, f3⟩ := f.writes
      refine ⟨⟨ws, f1, ?_, ?_⟩, ?_, ?_⟩
      · rw [e, f2]; simp only; rw [hq.data]
      · rw [e]; exact f3
      · rw [e, f.cap]; exact hq.cap
      · rw [e]; exact fun hf => f.faults (hq.faults hf)

/-- The state after a successful `write_inplace` of a sane disk. -/
structure Written (s : GptDisk) (h : Header) (k B : Nat) (s' : GptDisk) : Prop where
  writable : s.config.writable = true
  room : (Spec.used s.partitions).length ≤ h.numParts.toNat
  rest : SameRest s s'
  primary : s'.primaryHeader = .ok ((rebuiltP k B h).sealed (Gpt.crc32 (tableBytes (Spec.used s.partitions) h.numParts.toNat)))
  backup : s'.backupHeader = if s.config.readonlyBackup then s.backupHeader
    else .ok ((rebuiltB k B h).sealed (Gpt.crc32 (tableBytes (Spec.used s.partitions) h.numParts.toNat)))
  length : s'.device.data.length = s.device.data.length
  bytes : ∀ i, byteAt s'.device.data i = finalByte s.config.lbSize (rebuiltP k B h) (bakOf s.config k B h) (Spec.used s.partitions)
    ((B - k) * s.config.lbSize.usize) (B * s.config.lbSize.usize) s.device.data i
  cap : s'.device.cap = s.device.cap
  log : ∃ l, s'.device.log = s.device.log ++ l ++ ending s.syncAll ∧ s'.device.data = l.foldl Event.replay s.device.data

theorem write_ok {m : Mode} {u : Unit} {s' : GptDisk} (hs : SaneDisk s h k B) (hr : writeInplace m s = (.ok u, s')) :
    Written s h k B s' := by
  have g := geo_sane hs.sane hs.fits s.config
  obtain ⟨w1, w2⟩ := g.noWrap hs.length
  have fo := write_follows m hs
  have hdata := fo.ok hr
  have hcap := fo.cap
  rw [hr] at hcap
  have hq := findBackupLba_quiet s.config.lbSize s.device
  rw [writeInplace_sane m hs] at hr
  by_cases hw : s.config.writable = false
  · rw [if_pos hw] at hr; simp at hr
  · rw [if_neg hw] at hr
    rcases hx : findBackupLba s.config.lbSize s.device with ⟨r, d1⟩
    rw [hx] at hr hq
    simp only at hq
    cases r with
    | err x => simp at hr
    | panic => simp at hr
    | ok x =>
      simp only at hr
      obtain ⟨r1, r2, r3, r4, l, r5, r6⟩ := writeRest_ok (bh := bakOf s.config k B h)
        (show (rebuiltP k B h).signature.length = 8 from rfl) w1 w2 hr
      rw [show (rebuiltP k B h).numParts = h.numParts from rfl] at r1
      rw [List.take_of_length_le r1] at hdata
      simp only at r3 r4 r5 r6
      rw [hq.data] at r3 r4 r6
      have hl : (Spec.used s.partitions).length ≤ (rebuiltP k B h).numParts.toNat := r1
      refine ⟨by simpa using hw, r1, ⟨r2.config, r2.guid, r2.partitions, r2.syncAll⟩, ?_, ?_, ?_, ?_, hcap, l, ?_, r6⟩
      · have hplan := writePlan_eq g hl (data := s.device.data) rfl
        have hlen : (rebuiltP k B h).arrayLen = h.numParts.toNat * 128 := rfl
        rw [r3, hlen]
        congr 3
        rw [← applyWrites_append]
        have hAB : arrayPlan s.config.lbSize (rebuiltP k B h) (bakOf s.config k B h) (Spec.used s.partitions) ++
            backupW s.config.lbSize (bakOf s.config k B h)
              (applyWrites s.device.data (arrayPlan s.config.lbSize (rebuiltP k B h) (bakOf s.config k B h) (Spec.used s.partitions))) =
            arrayPlan s.config.lbSize (rebuiltP k B h) (bakOf s.config k B h) (Spec.used s.partitions) ++
            (bakOf s.config k B h).toList.map
              (fun b => (B * s.config.lbSize.usize, blockOf s.config.lbSize b (Spec.used s.partitions) h.numParts.toNat)) := by
          unfold writePlan headPlan at hplan
          rw [← List.append_assoc] at hplan
          exact (List.append_inj' hplan rfl).1
        rw [hAB, g.start]
        exact slice_arrays_head g hl rfl
      · rw [r4]
        unfold sealedB bakOf
        cases hro : s.config.readonlyBackup with
        | true => simp
        | false =>
          simp only [Bool.false_eq_true, if_false, Except.ok.injEq]
          have hb : bakOf s.config k B h = some (rebuiltB k B h) := by unfold bakOf; rw [hro]; rfl
          obtain ⟨-, -, b3, b4, -, b6, -⟩ := g.bak _ hb
          rw [hb] at g
          have hlen : (rebuiltB k B h).arrayLen = h.numParts.toNat * 128 := rfl
          rw [hlen, b6]
          have := slice_arrays_backup g hl (data := s.device.data) rfl rfl
          rw [show (rebuiltP k B h).numParts = h.numParts from rfl] at this
          rw [this]
      · rw [hdata]; exact length_torn g hl rfl (Torn.self _)
      · intro i
        rw [hdata]; exact byteAt_final g hl _ i
      · rw [r5, hq.log]

/-- Without faults, on a device that takes the writes, `write_inplace` of a sane disk succeeds. -/
theorem write_nil {m : Mode} (hs : SaneDisk s h k B) (hw : s.config.writable = true)
    (hroom : (Spec.used s.partitions).length ≤ h.numParts.toNat) (hf : s.device.faults = [])
    (hcap : (B + 1) * s.config.lbSize.usize ≤ s.device.cap) : (writeInplace m s).1 = .ok () := by
  have g := geo_sane hs.sane hs.fits s.config
  obtain ⟨w1, w2⟩ := g.noWrap hs.length
  obtain ⟨hB, hkB⟩ := sane_bounds hs.sane
  have hpos := lb_pos s.config.lbSize
  have hlen3 : 3 * s.config.lbSize.usize ≤ s.device.data.length :=
    (Nat.mul_le_mul_right _ (by omega)).trans hs.fits
  have s1 := g.sep
  have s2 := g.sepB
  have s3 := g.fits
  have hlen := hs.length
  have hcap' : B * s.config.lbSize.usize + s.config.lbSize.usize ≤ s.device.cap := by
    rw [Nat.add_mul, Nat.one_mul] at hcap; exact hcap
  rw [writeInplace_sane m hs, if_neg (by simp [hw]), findBackupLba_nil_any hf hs.length, if_neg (by omega)]
  simp only
  have e1 : (1 : UInt64).toNat = 1 := rfl
  have goodOf : ∀ (h' : Header) (o c : Nat), h'.signature = efiPart → h'.partSize = 128 → h'.arrayStart s.config.lbSize = o →
      h'.numParts = h.numParts → h'.currentLba.toNat * s.config.lbSize.usize = c →
      o + h.numParts.toNat * 128 ≤ B * s.config.lbSize.usize → c ≤ B * s.config.lbSize.usize →
      Good h' s.config.lbSize { s.device with pos := (UInt64.ofNat s.device.pos).toNat } := by
    intro h' o c a1 a2 a3 a4 a5 a6 a7
    have hal : h'.arrayLen = h.numParts.toNat * 128 := by unfold Header.arrayLen; rw [a2, a4]; rfl
    have good : Good h' s.config.lbSize s.device → Good h' s.config.lbSize { s.device with pos := (UInt64.ofNat s.device.pos).toNat } :=
      fun ⟨g1, g2, g3, g4, g5, g6, g7⟩ => ⟨g1, g2, g3, g4, g5, g6, g7⟩
    refine good ⟨by rw [a1]; rfl, ?_, ?_, ?_, ?_, ?_, by rw [hal]; have := h.numParts.toNat_lt; omega⟩
    · unfold Header.NoWrap; rw [hal, a3]; omega
    · unfold Room; rw [hal, a3]; omega
    · rw [hal, a3]; omega
    · rw [a5]; omega
    · rw [a5]; omega
  have hnp : (rebuiltP k B h).numParts = h.numParts := rfl
  rw [hnp] at s1 s2
  refine writeRest_nil (by exact hf) ?_ ?_ ?_ hroom
  · exact goodOf _ _ _ rfl rfl g.start rfl g.cur (by omega) (by omega)
  · rw [UInt64.lt_iff_toNat_lt]
    show (1 : UInt64).toNat < (UInt64.ofNat B).toNat
    rw [ofNat64 hB, e1]; omega
  · intro b hb
    obtain ⟨b1, b2, b3, b4, b5, b6, b7⟩ := g.bak b hb
    refine ⟨goodOf b _ _ b1 b3 b6 b4 b5 s2 (Nat.le_refl _), ?_, b4⟩
    unfold bakOf at hb
    split at hb
    · simp at hb
    · simp only [Option.some.injEq] at hb
      subst hb
      rw [UInt64.lt_iff_toNat_lt]
      show (1 : UInt64).toNat < (UInt64.ofNat B).toNat
      rw [ofNat64 hB, e1]; omega

end

end GptDisk

end Gpt
