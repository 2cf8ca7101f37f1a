import Verif.Props.Enlarge
import Verif.Props.Crashes
/-!
# C128: disks on a device that was cut off
-/

namespace Gpt

open Spec GptDisk

/-- The device `d'` has only the first bytes of `d`, and `B'` is its last whole block. -/
structure Spec.CutOff (lb : LbSize) (d d' : Dev) (B' : Nat) : Prop where
  works : d'.Works
  less : ∃ z, d.data = d'.data ++ z
  last : d'.data.length / lb.usize = B' + 1

/-- A disk with 128 slots and a sane header for a device with last block `B` is on a working device with last block `B'`, that ends inside the
usable range or the array behind it. -/
structure Spec.Shrunk (s : GptDisk) (h : Header) (k B B' : Nat) : Prop where
  header : s.header (ε := Empty) = .ok h
  sane : SaneHeader s.config.lbSize k B h
  count : h.numParts.toNat = 128
  small : (B + 1) * s.config.lbSize.usize < 2 ^ 63
  works : s.device.Works
  last : s.device.data.length / s.config.lbSize.usize = B' + 1
  first : h.firstUsable.toNat ≤ B'
  cut : B' < h.lastUsable.toNat + k + 1

/-- `s1` is `s` with the table `t` and headers for the last block `B'`, but the old usable range: the backup array `h2` points to begins behind
that range. -/
structure Spec.Unfit (s : GptDisk) (h : Header) (B' : Nat) (t : PMap) (s1 : GptDisk) (h1 h2 : Header) : Prop where
  primary : s1.tryHeader = .ok h1
  backup : s1.backupHeader = .ok h2
  table : s1.partitions = t
  config : s1.config = s.config
  device : s1.device = s.device
  first : h1.firstUsable = h.firstUsable
  last : h1.lastUsable = h.lastUsable
  lbas : h1.currentLba = 1 ∧ h1.backupLba.toNat = B' ∧ h2.currentLba.toNat = B'
  start : h1.partStart = 2 ∧ h2.partStart.toNat = h.lastUsable.toNat + 1
  count : h1.numParts = 128 ∧ h2.numParts = 128
  entry : h1.partSize = 128 ∧ h2.partSize = 128

section
variable {m : Mode} {cfg : GptConfig} {n k B B' : Nat} {d d' : Dev} {s s1 : GptDisk} {h h1 h2 : Header} {t : PMap}

/-- **C128**, open: a disk by the rules whose device was cut off behind the first usable block is opened as before, with the same partitions,
also those behind the end of the device; if only valid headers are wanted, this needs a header in the new last block. -/
theorem c128_opens (hwk : d.Works) (hlen : d.data.length < 2 ^ 60) (u : Uefi cfg.lbSize d.data n k B) (e : CutOff cfg.lbSize d d' B')
    (hfr : num d.data (1 * cfg.lbSize.usize + 40) 8 * cfg.lbSize.usize ≤ d'.data.length) {d1 : Dev} (hok : openFromDevice m cfg d = (.ok s, d1)) :
    ((∃ s', (openFromDevice m cfg d').1 = .ok s') ↔ (cfg.onlyValidHeaders = true → BackupValid cfg.lbSize d'.data)) ∧
    ∀ s' d2, openFromDevice m cfg d' = (.ok s', d2) →
      s'.partitions = s.partitions ∧ s'.guid = s.guid ∧ s'.primaryHeader = s.primaryHeader ∧ s'.tryHeader = s.tryHeader ∧ s'.config = cfg ∧
      s'.device.data = d'.data ∧ s'.device.Works ∧ s'.device.cap = d'.cap := by
  obtain ⟨z, hz⟩ := e.less
  exact front_opens hwk hlen u e.works (by rw [hz, List.length_append]; omega) (Nat.le_refl _)
    (fun off w h _ => by rw [hz]; exact (slice_append_left h).symm) hfr hok

/-- **C128**, setting: what the other theorems ask for holds for every disk so opened whose new end is in the usable range or the array behind it. -/
theorem c128_shrunk (hwk : d.Works) (hlen : d.data.length < 2 ^ 60) (u : Uefi cfg.lbSize d.data 128 k B) (e : CutOff cfg.lbSize d d' B')
    (hfr : num d.data (1 * cfg.lbSize.usize + 40) 8 ≤ B') (hcut : B' < num d.data (1 * cfg.lbSize.usize + 48) 8 + k + 1)
    {s' : GptDisk} {d2 : Dev} (hok : openFromDevice m cfg d' = (.ok s', d2)) :
    ∃ h, Shrunk s' h k B B' ∧ HeaderAt d.data (1 * cfg.lbSize.usize) h ∧ Tidy h s'.partitions ∧ s'.config = cfg ∧ s'.device.cap = d'.cap ∧
      s'.device.data = d'.data ∧ s'.partitions.length ≤ 128 ∧ ∀ p, (0, p) ∉ s'.partitions := by
  obtain ⟨s, d1, h0, b, eo, -, -, -, -, -⟩ := open_uefi (m := m) hwk.faults hwk.pos (by omega) u
  have hl' : (B' + 1) * cfg.lbSize.usize ≤ d'.data.length := by rw [← e.last]; exact Nat.div_mul_le_self _ _
  obtain ⟨-, a⟩ := c128_opens (m := m) hwk hlen u e ((Nat.mul_le_mul_right _ (by omega)).trans hl') eo
  obtain ⟨a1, a2, a3, a4, a5, a6, a7, a8⟩ := a s' d2 hok
  obtain ⟨h, v, hh⟩ := steady_open (m := m) hwk hlen u eo
  have hul := u.length
  refine ⟨h, ⟨?_, by rw [a5, ← v.config]; exact v.sane.sane, v.count, by rw [a5]; omega, a7, by rw [a5, a6]; exact e.last,
    by rw [hh.first]; exact hfr, by rw [hh.last]; exact hcut⟩, hh, by rw [a1]; exact v.table, a5, a8, a6, by rw [a1]; exact v.entries, fun p hm => ?_⟩
  · have := v.sane.header
    rw [header_ok_iff] at this ⊢
    rw [a4]
    exact this
  · rw [a1] at hm
    exact absurd (v.ids 0 p hm).1 (by decide)

theorem primaryLba_one (hs : SaneHeader s.config.lbSize k B h) : (if h.currentLba < h.backupLba then h.currentLba else h.backupLba) = 1 := by
  obtain ⟨hB64, hkB⟩ := sane_bounds hs
  apply UInt64.toNat_inj.mp
  rcases hs.lbas with ⟨x, y⟩ | ⟨x, y⟩
  · rw [if_pos (by rw [UInt64.lt_iff_toNat_lt]; omega), x]; rfl
  · rw [if_neg (by rw [UInt64.lt_iff_toNat_lt]; omega), y]; rfl

theorem shrunk_built (r : Shrunk s h k B B') (hro : s.config.readonlyBackup = false) (h0 : ∀ p, (0, p) ∉ t) (hlen : t.length ≤ 128) (fresh : Uuid) :
    ∃ s1 h1 h2, updatePartitions m t fresh s = (.ok (), s1) ∧ Unfit s h B' t s1 h1 h2 ∧ WriteHeaders m s1 h1 h1 (some h2) := by
  obtain ⟨hB64, hkB⟩ := sane_bounds r.sane
  have e128 : (128 : UInt32).toNat = 128 := rfl
  have e1 : (1 : UInt64).toNat = 1 := rfl
  have hfirst := r.first
  have hcut := r.cut
  have hf := r.sane.first
  have hus := r.sane.usable
  have hl := r.sane.last
  have hpos := lb_pos s.config.lbSize
  have hcnt : max 128 (t.length % 2 ^ 32) = 128 := by omega
  have hlen64 := Nat.lt_of_le_of_lt r.works.length r.works.cap
  have hB' : s.device.data.length / s.config.lbSize.usize = B' + 1 := r.last
  have hfits : (B' + 1) * s.config.lbSize.usize ≤ s.device.data.length := by rw [← hB']; exact Nat.div_mul_le_self _ _
  have h3 : ¬ s.device.data.length < 3 * s.config.lbSize.usize := by
    have : 3 * s.config.lbSize.usize ≤ (B' + 1) * s.config.lbSize.usize := Nat.mul_le_mul_right _ (by omega)
    omega
  have harr : JustEnough s.config.lbSize (128 * 128) k := by have := r.sane.arrays; rw [r.count] at this; exact this
  have hp1 := primaryLba_one r.sane
  have bl : ∀ {c : UInt32} {l : UInt64} {x : Res HeaderError Header}, c.toNat = max 128 (t.length % 2 ^ 32) →
      l.toNat = s.device.data.length / s.config.lbSize.usize - 1 →
      Built m s.config.lbSize (primaryFrom { s with partitions := t } h c l) x → ∃ h1, x = .ok h1 ∧
        h1.firstUsable = h.firstUsable ∧ h1.lastUsable = h.lastUsable ∧ h1.currentLba = 1 ∧ h1.backupLba.toNat = B' ∧ h1.partStart = 2 ∧
        h1.numParts = 128 ∧ h1.partSize = 128 := by
    intro c l x hc hl2 hb
    have hc : c.toNat = 128 := hc.trans hcnt
    have hl2 : l.toNat = B' := by rw [hl2, hB']; rfl
    have p1 : (primaryFrom { s with partitions := t } h c l).primaryLba.toNat = 1 := by
      show (if h.currentLba < h.backupLba then h.currentLba else h.backupLba).toNat = 1
      rw [hp1]; rfl
    have p2 : (primaryFrom { s with partitions := t } h c l).backupLba.toNat = B' := hl2
    have p3 : (primaryFrom { s with partitions := t } h c l).numParts.toNat * (primaryFrom { s with partitions := t } h c l).partSize.toNat = 128 * 128 := by
      show c.toNat * h.partSize.toNat = _
      rw [hc, r.sane.entry]; rfl
    have p4 : (primaryFrom { s with partitions := t } h c l).firstUsable = h.firstUsable := rfl
    have p5 : (primaryFrom { s with partitions := t } h c l).lastUsable = h.lastUsable := rfl
    have p6 : (primaryFrom { s with partitions := t } h c l).primary = true := rfl
    have p7 : (primaryFrom { s with partitions := t } h c l).numParts = c := rfl
    have p8 : (primaryFrom { s with partitions := t } h c l).partSize = h.partSize := rfl
    have p9 : (primaryFrom { s with partitions := t } h c l).primaryLba = 1 := UInt64.toNat_inj.mp p1
    generalize primaryFrom { s with partitions := t } h c l = b at hb p1 p2 p3 p4 p5 p6 p7 p8 p9
    have room : ∀ kk, JustEnough s.config.lbSize (b.numParts.toNat * b.partSize.toNat % 2 ^ 32) kk → kk = k := by
      intro kk hk
      rw [p3] at hk
      exact justEnough_unique hk harr
    cases hb with
    | noBackup a => omega
    | tooLarge _ _ a => omega
    | noRoom kk _ _ a b =>
      obtain rfl := room kk a
      refine absurd ⟨?_, ?_⟩ b
      · omega
      · rw [p4, p5]; omega
    | noStart kk _ _ _ _ _ a =>
      rw [p6] at a
      simp only [if_true] at a
      omega
    | header kk h1 _ _ a _ _ q =>
      obtain rfl := room kk a
      refine ⟨h1, rfl, UInt64.toNat_inj.mp ?_, UInt64.toNat_inj.mp ?_, ?_, ?_, UInt64.toNat_inj.mp ?_, UInt32.toNat_inj.mp ?_, ?_⟩
      · rw [q.first, p4]; omega
      · rw [q.last, p5, p2]; omega
      · rw [q.current, p6, p9]; rfl
      · rw [q.backup, p6]; exact p2
      · rw [q.start, p6]
        simp only [if_true]
        rw [p1]; rfl
      · rw [q.count, p7, hc]; rfl
      · rw [q.entry, p8]; exact r.sane.entry
  have fin : ∀ {x : Res GptError Unit} {s1 : GptDisk}, Rebuilt m { s with partitions := t } h x s1 →
      x = .ok () ∧ ∃ h1 h2, Unfit s h B' t s1 h1 h2 ∧ WriteHeaders m s1 h1 h1 (some h2) := by
    intro x s1 hr
    cases hr with
    | small a => exact absurd a h3
    | failed c l e _ a b q => obtain ⟨h1, q, -⟩ := bl a b q; cases q
    | crashed c l _ a b q => obtain ⟨h1, q, -⟩ := bl a b q; cases q
    | primary c l h1 _ a b q q2 => rw [show s.config.readonlyBackup = true from q2] at hro; cases hro
    | half c l h1 _ a b q q2 _ q3 =>
      obtain ⟨h1', q, -, ql, -⟩ := bl a b q
      cases q
      rw [ql] at q3
      omega
    | both c l h1 h2 _ a b q q2 q3 =>
      obtain ⟨h1', q, f1, f2, f3, f4, f5, f6, f7⟩ := bl a b q
      cases q
      refine ⟨rfl, h1, h2, ?_⟩
      have hbf : h2.currentLba.toNat = B' ∧ h2.partStart.toNat = h.lastUsable.toNat + 1 ∧ h2.numParts = 128 ∧ h2.partSize = 128 := by
        have p3 : (backupFrom h1).numParts.toNat * (backupFrom h1).partSize.toNat % 2 ^ 32 = 128 * 128 := by
          show h1.numParts.toNat * h1.partSize.toNat % 2 ^ 32 = _
          rw [f6, f7]; rfl
        cases q3 with
        | header kk _ _ _ a _ _ q =>
          rw [p3] at a
          obtain rfl := justEnough_unique a harr
          have hlu : h2.lastUsable.toNat = h.lastUsable.toNat := by
            rw [q.last]
            show max h1.lastUsable.toNat (h1.backupLba.toNat - (kk + 1)) = _
            rw [f2, f4]; omega
          refine ⟨?_, ?_, q.count.trans f6, q.entry.trans f7⟩
          · rw [q.current]; exact f4
          · rw [q.start]
            show (h2.lastUsable.toNat + 1) % 2 ^ 64 = _
            rw [hlu, Nat.mod_eq_of_lt (by omega)]
      obtain ⟨g1, g2, g3, g4⟩ := hbf
      refine ⟨⟨rfl, rfl, rfl, rfl, rfl, f1, f2, ⟨f3, f4, g1⟩, ⟨f5, g2⟩, ⟨f6, g3⟩, ⟨f7, g4⟩⟩, ?_⟩
      have hsm := r.small
      have hen := harr.enough
      have hagain : Built m s.config.lbSize (primaryAgain h1) (.ok h1) := by
        have hlt : h1.currentLba < h1.backupLba := by rw [UInt64.lt_iff_toNat_lt, f3, f4, e1]; omega
        have p1 : (primaryAgain h1).primaryLba = 1 := by
          show (if h1.currentLba < h1.backupLba then h1.currentLba else h1.backupLba) = 1
          rw [if_pos hlt, f3]
        have p2 : (primaryAgain h1).backupLba = h1.backupLba := by
          show (if h1.currentLba < h1.backupLba then h1.backupLba else h1.currentLba) = _
          rw [if_pos hlt]
        have p3 : (primaryAgain h1).numParts.toNat * (primaryAgain h1).partSize.toNat = 128 * 128 := by
          show h1.numParts.toNat * h1.partSize.toNat = _
          rw [f6, f7]; rfl
        cases q with
        | header kk _ _ _ a _ _ a6 =>
          refine .header k h1 (by rw [p1, p2, f4, e1]; omega) (fun _ => by rw [p3]; decide) (by rw [p3]; exact harr) ⟨?_, ?_⟩ (fun _ => ?_) ?_
          · rw [p2, f4]; omega
          · show max h1.firstUsable.toNat (2 + k) ≤ max h1.lastUsable.toNat _
            rw [f1, f2]; omega
          · show (primaryAgain h1).primaryLba.toNat ≠ _
            rw [p1, e1]; decide
          · refine ⟨a6.signature, a6.revision, a6.size, a6.zeros, ?_, ?_, ?_, ?_, rfl, ?_, rfl, rfl⟩
            · rw [f3]; exact p1.symm
            · exact p2.symm
            · show _ = max h1.firstUsable.toNat (2 + k)
              rw [f1]; omega
            · show _ = max h1.lastUsable.toNat _
              rw [p2, f4, f2]; omega
            · show _ = ((primaryAgain h1).primaryLba.toNat + 1) % 2 ^ 64
              rw [p1, f5]; rfl
      have hm1 : 2 * s.config.lbSize.usize + k * s.config.lbSize.usize ≤ (B + 1) * s.config.lbSize.usize := by
        rw [← Nat.add_mul]; exact Nat.mul_le_mul_right _ (by omega)
      have hm2 : (h.lastUsable.toNat + 1) * s.config.lbSize.usize + k * s.config.lbSize.usize ≤ (B + 1) * s.config.lbSize.usize := by
        rw [← Nat.add_mul]; exact Nat.mul_le_mul_right _ (by omega)
      have e2 : (2 : UInt64).toNat = 2 := rfl
      refine ⟨rfl, hagain, ?_, by rw [f6, f7]; decide, (fun hn => by cases hn), ?_⟩
      · show slotOf s.config.lbSize h1 _ < _
        rw [slotOf_eq]
        unfold Header.arrayStart
        rw [f5, f6, f7, e128, e2]; omega
      · rintro _ ⟨⟩
        refine ⟨hro, q3, ?_⟩
        show slotOf s.config.lbSize h2 _ < _
        rw [slotOf_eq]
        unfold Header.arrayStart
        rw [g2, g3, g4, e128]; omega
  rcases hz : updatePartitions m t fresh s with ⟨x, s1⟩
  have hu := (c87_update m s s1 h t fresh x r.header r.works.faults r.works.pos hlen64).mp hz
  cases hu with
  | zero p hp => exact absurd hp (h0 p)
  | refused _ a => rw [r.count] at a; omega
  | goes r1 s' _ _ hr =>
    obtain ⟨rfl, h1, h2, a, b⟩ := fin hr
    exact ⟨s1, h1, h2, rfl, a, b⟩

/-- **C128**, update: on such a device `update_partitions` with at most 128 entries succeeds, but keeps the usable range: it still ends where it did
before the device was cut off, and the array of the backup header is expected behind it. -/
theorem c128_update (r : Shrunk s h k B B') (hro : s.config.readonlyBackup = false) (h0 : ∀ p, (0, p) ∉ t) (hlen : t.length ≤ 128) (fresh : Uuid) :
    ∃ s1 h1 h2, updatePartitions m t fresh s = (.ok (), s1) ∧ Unfit s h B' t s1 h1 h2 := by
  obtain ⟨s1, h1, h2, a, b, -⟩ := shrunk_built (m := m) r hro h0 hlen fresh
  exact ⟨s1, h1, h2, a, b⟩

theorem shrunk_blocks (r : Shrunk s h k B B') : k * s.config.lbSize.usize = 16384 := by
  have h1 := r.sane.arrays.enough
  have h2 := r.sane.arrays.minimal
  rw [r.count] at h1 h2
  generalize s.config.lbSize = lb at h1 h2 ⊢
  cases lb with
  | lb512 =>
    have e : LbSize.lb512.usize = 512 := rfl
    rw [e] at h1 h2 ⊢
    have := h2 32 (by decide)
    omega
  | lb4096 =>
    have e : LbSize.lb4096.usize = 4096 := rfl
    rw [e] at h1 h2 ⊢
    have := h2 4 (by decide)
    omega

/-- **C128**, stuck: so, if that array reaches behind the device, and the device cannot grow, no table with a free slot can be written. -/
theorem c128_stuck (r : Shrunk s h k B B') (hro : s.config.readonlyBackup = false) (h0 : ∀ p, (0, p) ∉ t) (hlen : t.length ≤ 128)
    (hfree : (Spec.used t).length < 128) (hfix : s.device.cap = s.device.data.length) (hend : B' < h.lastUsable.toNat + k) (fresh : Uuid) :
    ∃ s1, updatePartitions m t fresh s = (.ok (), s1) ∧ (writeInplace m s1).1 ≠ .ok () := by
  obtain ⟨s1, h1, h2, a, b, w⟩ := shrunk_built (m := m) r hro h0 hlen fresh
  refine ⟨s1, a, fun hok => ?_⟩
  have hx : writeInplace m s1 = (.ok (), (writeInplace m s1).2) := Prod.ext hok rfl
  have hwk := Dev.works_frame.writeInplace m s1 (by rw [b.device]; exact r.works)
  have hl := hwk.1.length
  have e128 : (128 : UInt32).toNat = 128 := rfl
  have hf := (image_run w).ok hx
  rw [b.table, List.take_of_length_le (by rw [b.count.1, e128]; omega)] at hf
  rw [hwk.2, hf, b.config, b.device, hfix] at hl
  have hmem : zeroW s.config.lbSize h2 (Spec.used t).length ∈ writePlan s.config.lbSize h1 (some h2) (Spec.used t) s.device.data := by
    unfold writePlan arrayPlan
    simp
  have hz : (zeroW s.config.lbSize h2 (Spec.used t).length).1 + (zeroW s.config.lbSize h2 (Spec.used t).length).2.length =
      (h.lastUsable.toNat + 1) * s.config.lbSize.usize + 128 * 128 := by
    unfold zeroW Header.arrayStart
    simp only [zeros, List.length_replicate, b.entry.2, b.count.2, e128, b.start.2]
    omega
  have hne : (zeroW s.config.lbSize h2 (Spec.used t).length).2 ≠ [] := by
    intro hn
    have := congrArg List.length hn
    unfold zeroW at this
    simp only [zeros, List.length_replicate, b.entry.2, b.count.2, e128, List.length_nil] at this
    omega
  have hge := length_applyWrites_ge (data := s.device.data) hmem hne
  have hlt : s.device.data.length < (B' + 2) * s.config.lbSize.usize := by
    have := Nat.lt_mul_div_succ s.device.data.length (lb_pos s.config.lbSize)
    rw [r.last, Nat.mul_comm] at this
    exact this
  have hm : (B' + 2) * s.config.lbSize.usize ≤ (h.lastUsable.toNat + 1 + k) * s.config.lbSize.usize := Nat.mul_le_mul_right _ (by omega)
  rw [Nat.add_mul (h.lastUsable.toNat + 1), shrunk_blocks r] at hm
  omega

/-- **C128**, overlap: if just the last block was cut off, every table of at most 128 entries is written without an error, but the backup header is
written over the last block of its own array: the disk is opened also if only valid headers are wanted, but once the primary header is lost, opening
fails or finds a partition that is really the backup header. -/
theorem c128_overlap (r : Shrunk s h k B B') (hw : s.config.writable = true) (hro : s.config.readonlyBackup = false) (h0 : ∀ p, (0, p) ∉ t)
    (hlen : t.length ≤ 128) (hfix : s.device.cap = s.device.data.length)
    (hend : B' = h.lastUsable.toNat + k) (fresh : Uuid) :
    ∃ s1 s2, updatePartitions m t fresh s = (.ok (), s1) ∧ writeInplace m s1 = (.ok (), s2) ∧
      (∀ m' cfg' d', cfg'.lbSize = s.config.lbSize → d'.Works → d'.data = s2.device.data → (m' = .release ∨ d'.data.length < 2 ^ 38) →
        ∃ s3, (openFromDevice m' cfg' d').1 = .ok s3) ∧
      ∀ m' cfg' d', cfg'.lbSize = s.config.lbSize → d'.Works → d'.data.length = s2.device.data.length →
        (∀ i, 2 * s.config.lbSize.usize ≤ i → byteAt d'.data i = byteAt s2.device.data i) → ¬ PrimaryValid s.config.lbSize d'.data →
        ∀ s3 d3, openFromDevice m' cfg' d' = (.ok s3, d3) → ∃ id p, (id, p) ∈ s3.partitions ∧ id.toNat + s.config.lbSize.usize / 128 = 129 ∧
          EntryAt d'.data (B' * s.config.lbSize.usize) p ∧ ValidAt d'.data (B' * s.config.lbSize.usize) := by
  obtain ⟨s1, h1, h2, a, b, w⟩ := shrunk_built (m := m) r hro h0 hlen fresh
  obtain ⟨hB64, hkB⟩ := sane_bounds r.sane
  have hk := shrunk_blocks r
  have hf := r.sane.first
  have hus := r.sane.usable
  have hl := r.sane.last
  have e128 : (128 : UInt32).toNat = 128 := rfl
  have e2 : (2 : UInt64).toNat = 2 := rfl
  have e1 : (1 : UInt64).toNat = 1 := rfl
  have hpos := lb_le s.config.lbSize
  have hfits : (B' + 1) * s.config.lbSize.usize ≤ s.device.data.length := by rw [← r.last]; exact Nat.div_mul_le_self _ _
  have hlen64 := Nat.lt_of_le_of_lt r.works.length r.works.cap
  obtain ⟨c1, c2, c3⟩ := b.lbas
  obtain ⟨c4, c5⟩ := b.start
  obtain ⟨c6, c7⟩ := b.count
  obtain ⟨c8, c9⟩ := b.entry
  have hm1 : (2 + k) * s.config.lbSize.usize ≤ (B' + 1) * s.config.lbSize.usize := Nat.mul_le_mul_right _ (by omega)
  have hm2 : (h.lastUsable.toNat + 1 + k) * s.config.lbSize.usize = (B' + 1) * s.config.lbSize.usize := by rw [hend]; congr 1; omega
  have hm3 : 3 * s.config.lbSize.usize ≤ (B' + 1) * s.config.lbSize.usize := Nat.mul_le_mul_right _ (by omega)
  have hm4 : (B' + 1) * s.config.lbSize.usize = B' * s.config.lbSize.usize + s.config.lbSize.usize := by rw [Nat.add_mul, Nat.one_mul]
  rw [Nat.add_mul, hk] at hm1 hm2
  have hu : (Spec.used s1.partitions).length ≤ 128 := by rw [b.table]; exact (used_length_le _).trans hlen
  have hok := c88_succeeds m s1 h1 h1 (some h2) w (by rw [b.config]; exact hw) (by rw [b.device]; exact r.works.faults)
    (by rw [b.device]; exact r.works.length) (by rw [b.config, b.device]; omega) (by rw [b.device]; exact hlen64)
    (by intro hc; have := congrArg UInt64.toNat hc; rw [c1, c2, e1] at this; omega)
    (by rw [b.config, b.device]
        refine ⟨?_, ?_⟩
        · unfold slotOf
          rw [c4, c6, c8, e128, e2]; omega
        · rw [c1, e1]; omega)
    (by rintro _ ⟨⟩
        rw [b.config, b.device]
        refine ⟨?_, ?_⟩
        · unfold slotOf
          rw [c5, c7, c9, e128]; omega
        · rw [c3]; exact hfits)
    (by rw [c6]; exact hu)
  rcases hx : writeInplace m s1 with ⟨x, s2⟩
  rw [hx] at hok
  simp only at hok
  subst hok
  have hle : s.device.data.length = s2.device.data.length := by
    have hwk := Dev.works_frame.writeInplace m s1 (by rw [b.device]; exact r.works)
    rw [hx] at hwk
    have q1 : s2.device.data.length ≤ s2.device.cap := hwk.1.length
    have q2 : s1.device.data.length ≤ s2.device.data.length := by rw [(image_run w).ok hx]; exact length_applyWrites _ _
    have q3 : s2.device.cap = s1.device.cap := hwk.2
    rw [b.device] at q2 q3
    omega
  have himg := (image_run w).ok hx
  rw [b.config, b.device, List.take_of_length_le (by rw [c6]; exact hu)] at himg
  unfold writePlan backupW at himg
  simp only [Option.toList, List.map_cons, List.map_nil] at himg
  generalize arrayPlan s.config.lbSize h1 (some h2) (Spec.used s1.partitions) = A at himg
  simp only [applyWrites_append, applyWrites_cons, applyWrites_nil] at himg
  have hYl := length_applyWrites s.device.data A
  generalize applyWrites s.device.data A = Y at himg hYl
  generalize hX : patchW Y (headerW s.config.lbSize h2 Y) = X at himg
  have bl2 : (headerW s.config.lbSize h2 Y).2.length = s.config.lbSize.usize := Header.block_length _ _ _
  have bl1 : (headerW s.config.lbSize h1 X).2.length = s.config.lbSize.usize := Header.block_length _ _ _
  have bo2 : (headerW s.config.lbSize h2 Y).1 = B' * s.config.lbSize.usize := by unfold headerW; rw [c3]
  have bo1 : (headerW s.config.lbSize h1 X).1 = s.config.lbSize.usize := by unfold headerW; rw [c1, e1, Nat.one_mul]
  have hF1 : slice s2.device.data s.config.lbSize.usize s.config.lbSize.usize = (headerW s.config.lbSize h1 X).2 := by
    refine slice_eq_of_byteAt (by omega) bl1 fun i hi => ?_
    rw [himg, byteAt_patchW, if_pos (by rw [bo1, bl1]; omega), bo1]
    congr 1; omega
  have hF2 : slice s2.device.data (B' * s.config.lbSize.usize) s.config.lbSize.usize = (headerW s.config.lbSize h2 Y).2 := by
    refine slice_eq_of_byteAt (by omega) bl2 fun i hi => ?_
    rw [himg, byteAt_patchW, if_neg (by rw [bo1, bl1]; omega), ← hX, byteAt_patchW, if_pos (by rw [bo2, bl2]; omega), bo2]
    congr 1; omega
  have hF3 : slice X (2 * s.config.lbSize.usize) 16384 = slice s2.device.data (2 * s.config.lbSize.usize) 16384 := by
    have hXl : s.device.data.length ≤ X.length := by rw [← hX]; exact hYl.trans (length_patchW _ _)
    refine slice_congr (by omega) (by omega) fun i q1 q2 => ?_
    rw [himg, byteAt_patchW, if_neg (by rw [bo1, bl1]; omega)]
  have sg1 := built_sig w.primary
  have sg2 := built_sig (w.some h2 rfl).2.1
  obtain ⟨v1, g1⟩ := ((readHeaderAt_spec _ _).1 _).mp (read_block sg1.1 sg1.2 (by omega) hF1)
  obtain ⟨v2, g2⟩ := ((readHeaderAt_spec _ _).1 _).mp (read_block sg2.1 sg2.2 (by omega) hF2)
  have hlo : ∀ {D : Bytes}, D.length = s2.device.data.length → lastBlockOffset s.config.lbSize D = B' * s.config.lbSize.usize := by
    intro D hD
    unfold lastBlockOffset
    rw [hD, ← hle, r.last, Nat.add_sub_cancel]
  refine ⟨s1, s2, a, hx, ?_, ?_⟩
  · intro m' cfg' d' hlb hwk hd he
    rw [c84_succeeds m' cfg' d' hwk.faults hwk.pos (by rw [hd, ← hle]; exact hlen64) he, hlb, hd]
    refine ⟨_, .inl ⟨by rw [hlb]; exact v1, by rw [hlb]; exact g1, fun _ => ⟨by rw [hlb]; omega, by rw [hlb, hlo rfl]; exact v2⟩⟩, ?_, ?_, ?_, ?_⟩
    · show h1.partSize.toNat = 128
      rw [c8]; rfl
    · show h1.partStart.toNat * _ < _
      rw [c4, e2]; omega
    · show 0 < h1.numParts.toNat → h1.partStart.toNat * _ + 128 * h1.numParts.toNat ≤ _
      rw [c4, e2, c6, e128]; omega
    · show crc32 (slice _ (h1.partStart.toNat * _) (128 * h1.numParts.toNat)) = crc32 (slice X (h1.arrayStart _) h1.arrayLen)
      unfold Header.arrayStart Header.arrayLen
      rw [c4, e2, c6, c8, e128]
      exact congrArg _ hF3.symm
  · intro m' cfg' d' hlb hwk hd hby hnv s3 d3 ho
    have hn := hlo hd
    have hsl : slice d'.data (B' * s.config.lbSize.usize) 92 = slice s2.device.data (B' * s.config.lbSize.usize) 92 :=
      slice_congr (by omega) (by omega) fun i q1 q2 => hby i (by
        have : 2 * s.config.lbSize.usize ≤ B' * s.config.lbSize.usize := Nat.mul_le_mul_right _ (by omega)
        omega)
    obtain ⟨vc, gc⟩ := valid_congr hsl (by omega) (by omega)
    rcases c84_any m' cfg' d' hwk.faults hwk.pos (by rw [hd, ← hle]; exact hlen64) with hop | ⟨-, hp, -⟩
    · rw [ho] at hop
      cases hop with
      | disk H _ hg hr _ _ _ =>
        rcases hg with ⟨q, -⟩ | ⟨-, -, -, q⟩
        · rw [hlb] at q; exact absurd q hnv
        · rw [hlb, hn] at q
          have q := (gc H).mpr q
          have z1 : H.partStart.toNat = h.lastUsable.toNat + 1 := by rw [q.start, ← g2.start]; exact c5
          have z2 : H.numParts.toNat = 128 := by rw [q.count, ← g2.count]; show h2.numParts.toNat = _; rw [c7]; rfl
          cases hr with
          | table _ _ _ _ _ _ hfound hall =>
            rw [z1, z2, hlb] at hfound hall
            have hid : ((129 - s.config.lbSize.usize / 128).toUInt32).toNat + s.config.lbSize.usize / 128 = 129 := by
              generalize s.config.lbSize = lb
              cases lb <;> rfl
            generalize (129 - s.config.lbSize.usize / 128).toUInt32 = id at hid
            have hdv : s.config.lbSize.usize / 128 * 128 = s.config.lbSize.usize := by
              generalize s.config.lbSize = lb
              cases lb <;> rfl
            have h4096 : s.config.lbSize.usize ≤ 4096 := by
              generalize s.config.lbSize = lb
              cases lb <;> decide
            have hat : (h.lastUsable.toNat + 1) * s.config.lbSize.usize + 128 * (id.toNat - 1) = B' * s.config.lbSize.usize := by omega
            have v' := vc.mp v2
            obtain ⟨p, hp⟩ := hall id (by omega) (by omega) ⟨0, by decide, by
              rw [hat, Nat.add_zero]
              have := congrArg (fun l => byteAt l 0) v'.signature
              simp only [byteAt_slice] at this
              rw [if_pos (by decide), Nat.add_zero] at this
              rw [this]; decide⟩
            have := (hfound id p hp).2.2.2
            rw [hat] at this
            exact ⟨id, p, hp, hid, this, v'⟩
    · rw [ho] at hp; cases hp

/-- **C128**, fits: if there is space for the array between the usable range and the new end of the device, passing the table of the disk to
`update_partitions` and writing it gives a disk by the rules on the smaller device, with the same partitions and their data. -/
theorem c128_fits (hwk : d.Works) (hlen : d.data.length < 2 ^ 60) (u : Uefi cfg.lbSize d.data 128 k B) (e : CutOff cfg.lbSize d d' B')
    (hfit : num d.data (1 * cfg.lbSize.usize + 48) 8 + k + 1 ≤ B') (hw : cfg.writable = true) (hro : cfg.readonlyBackup = false)
    {d2 : Dev} (hok : openFromDevice m cfg d' = (.ok s, d2)) (fresh : Uuid) :
    ∃ s1 s2 h1, updatePartitions m s.partitions fresh s = (.ok (), s1) ∧ s1.tryHeader = .ok h1 ∧ h1.lastUsable.toNat + k + 1 = B' ∧
      writeInplace m s1 = (.ok (), s2) ∧ Uefi cfg.lbSize s2.device.data 128 k B' ∧
      (∀ i, num d.data (1 * cfg.lbSize.usize + 40) 8 * cfg.lbSize.usize ≤ i → i < (num d.data (1 * cfg.lbSize.usize + 48) 8 + 1) * cfg.lbSize.usize →
        byteAt s2.device.data i = byteAt d.data i) ∧
      ∀ m' cfg', cfg'.lbSize = cfg.lbSize → ∃ s3 d3, openFromDevice m' cfg' s2.device = (.ok s3, d3) ∧ s3.guid = s.guid ∧
        Numbered (Spec.used s.partitions) s3.partitions := by
  obtain ⟨s0, d1, h0, b, eo, -, -, -, -, -⟩ := open_uefi (m := m) hwk.faults hwk.pos (by omega) u
  have hl' : (B' + 1) * cfg.lbSize.usize ≤ d'.data.length := by rw [← e.last]; exact Nat.div_mul_le_self _ _
  have hq := u.usable
  obtain ⟨-, a⟩ := c128_opens (m := m) hwk hlen u e ((Nat.mul_le_mul_right _ (by omega)).trans hl') eo
  obtain ⟨a1, a2, a3, a4, a5, a6, a7, a8⟩ := a s d2 hok
  obtain ⟨h, v, hh⟩ := steady_open (m := m) hwk hlen u eo
  have hcnt : countFor s.partitions = 128 := by
    have := v.entries
    rw [← a1] at this
    unfold countFor; omega
  have hla : h.lastUsable.toNat = num d.data (1 * cfg.lbSize.usize + 48) 8 := hh.last
  have hf : h.firstUsable.toNat = num d.data (1 * cfg.lbSize.usize + 40) 8 := hh.first
  have r : Stretch s h k k B B' s.partitions := by
    refine ⟨?_, by rw [a5, ← v.config]; exact v.sane.sane, by rw [a6]; exact Nat.lt_of_le_of_lt e.works.length e.works.cap,
      by rw [a5, a6]; exact e.last, a7.faults, a7.pos, by rw [hcnt]; decide, by rw [hcnt, a5]; exact u.array, v.sane.sane.first, by omega⟩
    have := v.sane.header
    rw [header_ok_iff] at this ⊢
    rw [a4]
    exact this
  obtain ⟨s1, s2, h1, b1, b2, b3, b4, b5, b6, b7⟩ := refit (m := m) r (by rw [a1]; exact v.table) v.count (by rw [a1]; exact v.entries)
    (fun i p hm => (v.ids i p (by rw [← a1]; exact hm)).1) (by rw [a5]; exact hw) (by rw [a5]; exact hro) a7 fresh
  rw [a5] at b5 b6 b7
  obtain ⟨z, hz⟩ := e.less
  refine ⟨s1, s2, h1, b1, b2, b3, b4, b5, fun i c1 c2 => ?_, b7⟩
  rw [b6 i (by rw [hf]; exact c1) (by rw [hla]; exact c2), a6, hz, byteAt_append, if_pos]
  have : (num d.data (1 * cfg.lbSize.usize + 48) 8 + 1) * cfg.lbSize.usize ≤ (B' + 1) * cfg.lbSize.usize := Nat.mul_le_mul_right _ (by omega)
  omega

/-- **C128**, plain: nor can the disk be written as it is: the backup header belongs behind the device. -/
theorem c128_plain (r : Shrunk s h k B B') (hro : s.config.readonlyBackup = false) (hfix : s.device.cap = s.device.data.length) :
    (writeInplace m s).1 ≠ .ok () := by
  intro hok
  obtain ⟨hB64, hkB⟩ := sane_bounds r.sane
  have hcut := r.cut
  have hl := r.sane.last
  have hsm := r.small
  have hen := r.sane.arrays.enough
  rw [r.count] at hen
  have e128 : (128 : UInt32).toNat = 128 := rfl
  have e2 : (2 : UInt64).toNat = 2 := rfl
  have hb1 : Built m s.config.lbSize (primaryAgain h) (.ok (rebuiltP k B h)) := (c86_build _ _ _ _).mp (primaryOf_sane m r.sane)
  have hb2 : Built m s.config.lbSize (backupFrom (rebuiltP k B h)) (.ok (rebuiltB k B h)) := by
    have := backupOf_sane m r.sane
    unfold backupOf at this
    rw [(backup_built rfl hb1).1] at this
    exact (c86_build _ _ _ _).mp this
  have hm1 : 2 * s.config.lbSize.usize + k * s.config.lbSize.usize ≤ (B + 1) * s.config.lbSize.usize := by
    rw [← Nat.add_mul]; exact Nat.mul_le_mul_right _ (by omega)
  have hm2 : (B - k) * s.config.lbSize.usize + k * s.config.lbSize.usize ≤ (B + 1) * s.config.lbSize.usize := by
    rw [← Nat.add_mul]; exact Nat.mul_le_mul_right _ (by omega)
  have p1 : (rebuiltP k B h).partStart.toNat = 2 := rfl
  have p2 : (rebuiltB k B h).partStart.toNat = B - k := ofNat64 (by omega)
  have p3 : (rebuiltP k B h).numParts.toNat = 128 := r.count
  have p4 : (rebuiltB k B h).numParts.toNat = 128 := r.count
  have p5 : (rebuiltP k B h).partSize = 128 := rfl
  have p6 : (rebuiltB k B h).partSize = 128 := rfl
  have p7 : (rebuiltB k B h).currentLba.toNat = B := ofNat64 hB64
  have w : WriteHeaders m s h (rebuiltP k B h) (some (rebuiltB k B h)) := by
    refine ⟨r.header, hb1, ?_, by rw [p3, p5]; decide, (fun hn => by cases hn), ?_⟩
    · rw [slotOf_eq]
      unfold Header.arrayStart
      rw [p1, p3, p5, e128]; omega
    · rintro _ ⟨⟩
      refine ⟨hro, hb2, ?_⟩
      rw [slotOf_eq]
      unfold Header.arrayStart
      rw [p2, p4, p6, e128]; omega
  have hx : writeInplace m s = (.ok (), (writeInplace m s).2) := Prod.ext hok rfl
  have hwk := Dev.works_frame.writeInplace m s r.works
  have hlw := hwk.1.length
  have hf := (image_run w).ok hx
  rw [hwk.2, hf, hfix] at hlw
  generalize rebuiltB k B h = b at w p7 hlw
  generalize (Spec.used s.partitions).take (rebuiltP k B h).numParts.toNat = parts at hlw
  have hmem : headerW s.config.lbSize b (applyWrites s.device.data (arrayPlan s.config.lbSize (rebuiltP k B h) (some b) parts)) ∈
      writePlan s.config.lbSize (rebuiltP k B h) (some b) parts s.device.data := by
    unfold writePlan backupW
    simp
  have hge := length_applyWrites_ge (data := s.device.data) hmem (Header.block_ne_nil _ _ _)
  have hlt : s.device.data.length < (B' + 2) * s.config.lbSize.usize := by
    have := Nat.lt_mul_div_succ s.device.data.length (lb_pos s.config.lbSize)
    rw [r.last, Nat.mul_comm] at this
    exact this
  have hm : (B' + 2) * s.config.lbSize.usize ≤ (B + 1) * s.config.lbSize.usize := Nat.mul_le_mul_right _ (by omega)
  unfold headerW at hge
  simp only [Header.block_length, p7] at hge
  rw [Nat.add_mul B, Nat.one_mul] at hm
  omega

end

/-- A disk of 100 blocks, with the usable blocks 34 to 66, is cut off. -/
theorem cut100 (m : Mode) {L B' : Nat} (hL : L / 512 = B' + 1) (hlo : 34 ≤ B') (hhi : L < 51200) :
    ∃ s0 d' s h, writeInplace m (madeDisk (GptConfig.new.setWritable true) dev100 32 99 Uuid.nil) = (.ok (), s0) ∧
    CutOff .lb512 s0.device d' B' ∧ (openFromDevice m (GptConfig.new.setWritable true) d').1 = .ok s ∧ Shrunk s h 32 99 B' ∧ h.lastUsable.toNat = 66 ∧
    s.device.cap = s.device.data.length ∧ s.config = GptConfig.new.setWritable true ∧ s.partitions = [] := by
  have hl : dev100.data.length = 51200 := dev100_length
  have hwk : dev100.Works := ⟨rfl, by show 51200 < 2 ^ 64; decide, Nat.le_of_eq hl, by show 0 < 2 ^ 64; decide⟩
  have hB : dev100.data.length / (GptConfig.new.setWritable true).lbSize.usize = 99 + 1 := by rw [hl]; rfl
  have hs := madeDisk_sane (cfg := GptConfig.new.setWritable true) (d := dev100) (k := 32) (B := 99) (g := Uuid.nil) (by rw [hl]; decide) enough512 hB
    (by decide)
  have hok := c62_write_succeeds m _ _ 32 99 hs rfl (Nat.zero_le _) rfl (hs.fits.trans (show dev100.data.length ≤ 51200 by rw [hl]))
  have hwk1 := Dev.works_frame.writeInplace m (madeDisk (GptConfig.new.setWritable true) dev100 32 99 Uuid.nil) hwk
  rcases hx : writeInplace m (madeDisk (GptConfig.new.setWritable true) dev100 32 99 Uuid.nil) with ⟨r, s0⟩
  rw [hx] at hok hwk1
  simp only at hok
  subst hok
  have hlen : s0.device.data.length = dev100.data.length := (write_ok hs hx).length
  have hl0 : (madeDisk (GptConfig.new.setWritable true) dev100 32 99 Uuid.nil).device.data.length = 51200 := hl
  have u := c116_written hs (tidy_nil _) rfl (by rw [hl0]; rfl) (show 128 + 1 < 2 ^ 25 by decide) hx
  have hl1 : s0.device.data.length = 51200 := hlen.trans hl
  obtain ⟨st, dt, H, eo, eH, hf, hla, hp0⟩ : ∃ st dt H, openFromDevice m (GptConfig.new.setWritable true) s0.device = (.ok st, dt) ∧
      st.tryHeader = .ok H ∧ H.firstUsable = 34 ∧ H.lastUsable = 66 ∧ st.partitions = [] := by
    obtain ⟨b, p, e⟩ := open_written (m' := m) (cfg := GptConfig.new.setWritable true) (d := s0.device) hs hx rfl
      hwk1.1.faults hwk1.1.pos rfl (fun h => nomatch h)
    exact ⟨_, _, _, e, rfl, rfl, rfl, rfl⟩
  clear hx hs hlen
  have hwk1 := hwk1.1
  have u' : Uefi (GptConfig.new.setWritable true).lbSize s0.device.data 128 32 99 := u
  obtain ⟨h', v', hh'⟩ := steady_open hwk1 (by rw [hl1]; decide) u' eo
  obtain rfl : H = h' := Except.ok.inj (eH.symm.trans (header_try v'.sane.header))
  have hf' := hh'.first
  have hla' := hh'.last
  rw [hf] at hf'
  rw [hla] at hla'
  have e34 : (34 : UInt64).toNat = 34 := rfl
  have e66 : (66 : UInt64).toNat = 66 := rfl
  have hl2 : (s0.device.data.take L).length = L := by rw [List.length_take, hl1]; omega
  have e : CutOff (GptConfig.new.setWritable true).lbSize s0.device ⟨s0.device.data.take L, 0, L, [], []⟩ B' := by
    refine ⟨⟨rfl, by show L < 2 ^ 64; omega, ?_, by show 0 < 2 ^ 64; decide⟩, ⟨s0.device.data.drop L, (List.take_append_drop _ _).symm⟩, ?_⟩
    · show (s0.device.data.take L).length ≤ L
      rw [hl2]
    · show (s0.device.data.take L).length / _ = _
      rw [hl2]
      exact hL
  have hcap : (⟨s0.device.data.take L, 0, L, [], []⟩ : Dev).cap = (s0.device.data.take L).length := hl2.symm
  have hdd : (⟨s0.device.data.take L, 0, L, [], []⟩ : Dev).data = s0.device.data.take L := rfl
  generalize (⟨s0.device.data.take L, 0, L, [], []⟩ : Dev) = d' at e hcap hdd
  rw [← hdd] at hcap hl2
  obtain ⟨o1, o2⟩ := c128_opens hwk1 (by rw [hl1]; decide) u' e (by rw [← hf', hl2, e34]; show 34 * 512 ≤ L; omega) eo
  obtain ⟨s, hs⟩ := o1.mpr (fun h => nomatch h)
  rcases ho : openFromDevice m (GptConfig.new.setWritable true) d' with ⟨x, d2⟩
  rw [ho] at hs
  simp only at hs
  subst hs
  obtain ⟨h, r, hh, -, hc, hcp, hda, hlp, h0⟩ := c128_shrunk hwk1 (by rw [hl1]; decide) u' e (by rw [← hf', e34]; exact hlo)
    (by rw [← hla', e66]; omega) ho
  exact ⟨s0, d', s, h, rfl, e, by rw [ho], r, by rw [hh.last, ← hla']; rfl, by rw [hcp, hda, hcap], hc, (o2 s d2 ho).1.trans hp0⟩

/-- Cut off behind block 59, it cannot be written; without its last block only, it can, with the backup header in its array. -/
example (m : Mode) : (∃ s s1 h, Shrunk s h 32 99 59 ∧ (writeInplace m s).1 ≠ .ok () ∧
    updatePartitions m s.partitions Uuid.nil s = (.ok (), s1) ∧ (writeInplace m s1).1 ≠ .ok ()) ∧
    ∃ s s1 s2 h, Shrunk s h 32 99 98 ∧ (writeInplace m s).1 ≠ .ok () ∧
    updatePartitions m s.partitions Uuid.nil s = (.ok (), s1) ∧ writeInplace m s1 = (.ok (), s2) := by
  constructor
  · obtain ⟨-, -, s, h, -, -, -, r, hl, hfix, hc, hp⟩ := cut100 m (L := 30720) (B' := 59) (by decide) (by decide) (by decide)
    have hro : s.config.readonlyBackup = false := by rw [hc]; rfl
    obtain ⟨s1, a, b⟩ := c128_stuck (m := m) (t := s.partitions) r hro (by rw [hp]; exact fun _ h => nomatch h) (by rw [hp]; decide) (by rw [hp]; decide) hfix
      (by rw [hl]; decide) Uuid.nil
    exact ⟨s, s1, h, r, c128_plain r hro hfix, a, b⟩
  · obtain ⟨-, -, s, h, -, -, -, r, hl, hfix, hc, hp⟩ := cut100 m (L := 50688) (B' := 98) (by decide) (by decide) (by decide)
    have hro : s.config.readonlyBackup = false := by rw [hc]; rfl
    obtain ⟨s1, s2, a, b, -⟩ := c128_overlap (m := m) (t := s.partitions) r (by rw [hc]; rfl) hro (by rw [hp]; exact fun _ h => nomatch h) (by rw [hp]; decide) hfix
      (by rw [hl]) Uuid.nil
    exact ⟨s, s1, s2, h, r, c128_plain r hro hfix, a, b⟩

/-- A disk on a device of 51300 bytes, i.e. 100 blocks and a part of one, loses this part. -/
example (m : Mode) (z : Bytes) (hz : z.length = 51300) : ∃ s0 d' s s1 s2, writeInplace m (madeDisk (GptConfig.new.setWritable true)
    ⟨z, 0, 51300, [], []⟩ 32 99 Uuid.nil) = (.ok (), s0) ∧ s0.device.data.length = 51300 ∧ d'.data.length = 51200 ∧
    CutOff .lb512 s0.device d' 99 ∧ (openFromDevice m (GptConfig.new.setWritable true) d').1 = .ok s ∧
    updatePartitions m s.partitions Uuid.nil s = (.ok (), s1) ∧ writeInplace m s1 = (.ok (), s2) ∧ Uefi .lb512 s2.device.data 128 32 99 := by
  have hl : (⟨z, 0, 51300, [], []⟩ : Dev).data.length = 51300 := hz
  have hwk : (⟨z, 0, 51300, [], []⟩ : Dev).Works := ⟨rfl, by show 51300 < 2 ^ 64; decide, Nat.le_of_eq hl, by show 0 < 2 ^ 64; decide⟩
  have hcap : (⟨z, 0, 51300, [], []⟩ : Dev).cap = 51300 := rfl
  generalize (⟨z, 0, 51300, [], []⟩ : Dev) = dev at hl hwk hcap
  have hB : dev.data.length / (GptConfig.new.setWritable true).lbSize.usize = 99 + 1 := by rw [hl]; rfl
  have hs := madeDisk_sane (cfg := GptConfig.new.setWritable true) (d := dev) (k := 32) (B := 99) (g := Uuid.nil) (by rw [hl]; decide) enough512 hB
    (by decide)
  have hok := c62_write_succeeds m _ _ 32 99 hs rfl (Nat.zero_le _) hwk.faults (hs.fits.trans hwk.length)
  have hwk1 := Dev.works_frame.writeInplace m (madeDisk (GptConfig.new.setWritable true) dev 32 99 Uuid.nil) hwk
  rcases hx : writeInplace m (madeDisk (GptConfig.new.setWritable true) dev 32 99 Uuid.nil) with ⟨r, s0⟩
  rw [hx] at hok hwk1
  simp only at hok
  subst hok
  have hlen : s0.device.data.length = dev.data.length := (write_ok hs hx).length
  have u := c116_written hs (tidy_nil _) rfl hB (show 128 + 1 < 2 ^ 25 by decide) hx
  have hl1 : s0.device.data.length = 51300 := hlen.trans hl
  clear hx hs hlen
  have hwk1 : s0.device.Works := hwk1.1
  have u' : Uefi (GptConfig.new.setWritable true).lbSize s0.device.data 128 32 99 := u
  have hl2 : (s0.device.data.take 51200).length = 51200 := by rw [List.length_take, hl1]; decide
  have e : CutOff (GptConfig.new.setWritable true).lbSize s0.device ⟨s0.device.data.take 51200, 0, 51200, [], []⟩ 99 := by
    refine ⟨⟨rfl, by show 51200 < 2 ^ 64; decide, ?_, by show 0 < 2 ^ 64; decide⟩, ⟨s0.device.data.drop 51200, (List.take_append_drop _ _).symm⟩, ?_⟩
    · show (s0.device.data.take 51200).length ≤ 51200
      rw [hl2]
    · show (s0.device.data.take 51200).length / _ = _
      rw [hl2]
      rfl
  have hdd : (⟨s0.device.data.take 51200, 0, 51200, [], []⟩ : Dev).data.length = 51200 := hl2
  generalize (⟨s0.device.data.take 51200, 0, 51200, [], []⟩ : Dev) = d' at e hdd
  obtain ⟨st, dt, h, b, eo, -⟩ := c116_opens (cfg := GptConfig.new.setWritable true) m hwk1 u'
  have q1 := u'.usable
  have q2 := u'.behind
  obtain ⟨o1, o2⟩ := c128_opens hwk1 (by rw [hl1]; decide) u' e (by
    rw [hdd]
    have : num s0.device.data (1 * (GptConfig.new.setWritable true).lbSize.usize + 40) 8 * 512 ≤ 100 * 512 := Nat.mul_le_mul_right _ (by omega)
    exact this) eo
  obtain ⟨s, hs⟩ := o1.mpr (fun h => nomatch h)
  rcases ho : openFromDevice m (GptConfig.new.setWritable true) d' with ⟨x, d2⟩
  rw [ho] at hs
  simp only at hs
  subst hs
  obtain ⟨s1, s2, h1, a, b, c, w, u2, -⟩ := c128_fits hwk1 (by rw [hl1]; decide) u' e (by omega) rfl rfl ho Uuid.nil
  exact ⟨s0, d', s, s1, s2, rfl, hl1, hdd, e, by rw [ho], a, w, u2⟩

end Gpt
