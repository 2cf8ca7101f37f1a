import Verif.Props.Reserve
import Verif.Props.Halves
import Verif.Props.Opens
/-!
# C127: disks on a device that has grown
-/

namespace Gpt

open Spec GptDisk

/-- The device `d'` is `d` with more bytes at its end, and `B'` is its last whole block. -/
structure Spec.Enlarged (lb : LbSize) (d d' : Dev) (B' : Nat) : Prop where
  works : d'.Works
  more : ∃ z, d'.data = d.data ++ z
  last : d'.data.length / lb.usize = B' + 1

/-- A sane header with the backup header in block `B` on a working device with last block `B'`, where the table `t` asks for slots in `k'`
blocks, for which there is space between the usable range and both ends of the device. -/
structure Spec.Stretch (s : GptDisk) (h : Header) (k k' B B' : Nat) (t : PMap) : Prop where
  header : s.header (ε := Empty) = .ok h
  sane : SaneHeader s.config.lbSize k B h
  length : s.device.data.length < 2 ^ 64
  last : s.device.data.length / s.config.lbSize.usize = B' + 1
  faults : s.device.faults = []
  pos : s.device.pos < 2 ^ 64
  fits : countFor t * 128 < 2 ^ 32
  blocks : JustEnough s.config.lbSize (countFor t * 128) k'
  front : 2 + k' ≤ h.firstUsable.toNat
  behind : h.lastUsable.toNat + k' + 1 ≤ B'

theorem valid_congr {c c' : Bytes} {off : Nat} (h : slice c' off 92 = slice c off 92) (hl : off + 92 ≤ c.length) (hl' : off + 92 ≤ c'.length) :
    (ValidAt c off ↔ ValidAt c' off) ∧ ∀ h, HeaderAt c off h ↔ HeaderAt c' off h := by
  have key : ∀ {i w : Nat}, i + w ≤ 92 → slice c' (off + i) w = slice c (off + i) w := by
    intro i w hi
    rw [← slice_slice (n := 92) hi, h, slice_slice hi]
  have k0 : ∀ {w : Nat}, w ≤ 92 → slice c' off w = slice c off w := fun hw => key (i := 0) (by omega)
  have nk : ∀ {i w : Nat}, i + w ≤ 92 → num c' (off + i) w = num c (off + i) w := fun hi => num_congr (key hi)
  have hwc : withoutCrc c' off = withoutCrc c off := by
    unfold withoutCrc
    rw [k0 (by decide), key (by decide)]
  refine ⟨⟨fun ⟨a, b, e⟩ => ⟨hl', by rw [k0 (by decide)]; exact b, by rw [nk (by decide), hwc]; exact e⟩,
    fun ⟨a, b, e⟩ => ⟨hl, by rw [← k0 (by decide)]; exact b, by rw [← nk (by decide), ← hwc]; exact e⟩⟩, fun h => ?_⟩
  constructor
  · rintro ⟨a1, a2, a3, a4, a5, a6, a7, a8, a9, a10, a11, a12, a13, a14, a15⟩
    exact ⟨by rw [k0 (by decide)]; exact a1, by rw [nk (by decide)]; exact a2, by rw [nk (by decide)]; exact a3, by rw [nk (by decide)]; exact a4,
      by rw [nk (by decide)]; exact a5, by rw [nk (by decide)]; exact a6, by rw [nk (by decide)]; exact a7, by rw [nk (by decide)]; exact a8,
      by rw [nk (by decide)]; exact a9, by rw [nk (by decide)]; exact a10, by rw [key (by decide)]; exact a11, by rw [nk (by decide)]; exact a12,
      by rw [nk (by decide)]; exact a13, by rw [nk (by decide)]; exact a14, by rw [nk (by decide)]; exact a15⟩
  · rintro ⟨a1, a2, a3, a4, a5, a6, a7, a8, a9, a10, a11, a12, a13, a14, a15⟩
    exact ⟨by rw [← k0 (by decide)]; exact a1, by rw [← nk (by decide)]; exact a2, by rw [← nk (by decide)]; exact a3, by rw [← nk (by decide)]; exact a4,
      by rw [← nk (by decide)]; exact a5, by rw [← nk (by decide)]; exact a6, by rw [← nk (by decide)]; exact a7, by rw [← nk (by decide)]; exact a8,
      by rw [← nk (by decide)]; exact a9, by rw [← nk (by decide)]; exact a10, by rw [← key (by decide)]; exact a11, by rw [← nk (by decide)]; exact a12,
      by rw [← nk (by decide)]; exact a13, by rw [← nk (by decide)]; exact a14, by rw [← nk (by decide)]; exact a15⟩

section
variable {m : Mode} {cfg : GptConfig} {n k k' B B' : Nat} {d d' : Dev} {s s1 : GptDisk} {h h1 : Header} {t : PMap}

/-- Opening a device that agrees with one with a disk by the rules in the primary header and the primary array. -/
theorem front_opens {L : Nat} (hwk : d.Works) (hlen : d.data.length < 2 ^ 60) (u : Uefi cfg.lbSize d.data n k B) (hwk' : d'.Works)
    (hL : L ≤ d.data.length) (hL' : L ≤ d'.data.length) 
    (hag : ∀ off w, off + w ≤ L → (cfg.lbSize.usize ≤ off ∧ off + w ≤ cfg.lbSize.usize + 92 ∨
      num d.data (1 * cfg.lbSize.usize + 72) 8 * cfg.lbSize.usize ≤ off ∧ off + w ≤ num d.data (1 * cfg.lbSize.usize + 72) 8 * cfg.lbSize.usize + 128 * n) →
      slice d'.data off w = slice d.data off w)
    (hfr : num d.data (1 * cfg.lbSize.usize + 40) 8 * cfg.lbSize.usize ≤ L)
    {d1 : Dev} (hok : openFromDevice m cfg d = (.ok s, d1)) :
    ((∃ s', (openFromDevice m cfg d').1 = .ok s') ↔ (cfg.onlyValidHeaders = true → BackupValid cfg.lbSize d'.data)) ∧
    ∀ s' d2, openFromDevice m cfg d' = (.ok s', d2) →
      s'.partitions = s.partitions ∧ s'.guid = s.guid ∧ s'.primaryHeader = s.primaryHeader ∧ s'.tryHeader = s.tryHeader ∧ s'.config = cfg ∧
      s'.device.data = d'.data ∧ s'.device.Works ∧ s'.device.cap = d'.cap := by
  obtain ⟨h1, h2, c1, c2, -, -, eo⟩ := open_headers (m := m) (cfg := cfg) hwk'.faults hwk'.pos (Nat.lt_of_le_of_lt hwk'.length hwk'.cap)
  obtain ⟨s0, d0, h, b, eo0, hp, -, ht, hh, -⟩ := open_uefi (m := m) hwk.faults hwk.pos (by omega) u
  obtain ⟨rfl, rfl⟩ : s0 = s ∧ d0 = d1 := by rw [hok] at eo0; cases eo0; exact ⟨rfl, rfl⟩
  obtain ⟨hx, d3, -, -, -, ht3, hg3, -, -, -, hd3, hr3⟩ := openFromDevice_ok hok
  obtain rfl : hx = h := Except.ok.inj (ht3.symm.trans ht)
  obtain ⟨-, h128, -, -, hcrc, htab⟩ := fileReadPartitions_ok hr3
  rw [hd3] at hcrc htab
  have hn : hx.numParts.toNat = n := hh.count.trans u.primary.count
  have q1 := u.front
  have q2 := u.usable
  have q3 := u.behind
  have hst : hx.partStart.toNat = num d.data (1 * cfg.lbSize.usize + 72) 8 := hh.start
  have hul := u.length
  have h512 : 512 ≤ cfg.lbSize.usize := by cases cfg.lbSize <;> decide
  have hen := u.array.enough
  have hl2 : 2 * cfg.lbSize.usize ≤ num d.data (1 * cfg.lbSize.usize + 40) 8 * cfg.lbSize.usize := Nat.mul_le_mul_right _ (by omega)
  have hin : hx.partStart.toNat * cfg.lbSize.usize + 128 * hx.numParts.toNat ≤ L := by
    have a1 : (hx.partStart.toNat + k) * cfg.lbSize.usize ≤ num d.data (1 * cfg.lbSize.usize + 40) 8 * cfg.lbSize.usize :=
      Nat.mul_le_mul_right _ (by omega)
    rw [Nat.add_mul] at a1
    rw [hn]
    omega
  have hlen' := Nat.lt_of_le_of_lt hwk'.length hwk'.cap
  have hval := valid_congr (c := d.data) (c' := d'.data) (off := cfg.lbSize.usize) (hag _ _ (by omega) (.inl (by omega))) (by omega) (by omega)
  have r1 : h1 = .ok hx := (c1 hx).mpr ⟨hval.1.mp (by have := u.primary.valid; rw [Nat.one_mul] at this; exact this),
    (hval.2 hx).mp (by rw [Nat.one_mul] at hh; exact hh)⟩
  subst r1
  have p2 : BackupValid cfg.lbSize d'.data ↔ ∃ h, h2 = .ok h :=
    ⟨fun hv => by obtain ⟨h, hh⟩ := validAt_header hv.2; exact ⟨h, (c2 h).mpr ⟨hv, hh⟩⟩, fun ⟨h, hh⟩ => ((c2 h).mp hh).1⟩
  obtain ⟨p, hr⟩ := fileReadPartitions_nil (m := m) (h := hx) (lb := cfg.lbSize) (d := d') hwk'.faults (by omega) h128 (by omega)
    (.inr (by have := u.small; omega))
  have hsl : slice d'.data (hx.partStart.toNat * cfg.lbSize.usize) (128 * hx.numParts.toNat) =
      slice d.data (hx.partStart.toNat * cfg.lbSize.usize) (128 * hx.numParts.toNat) := hag _ _ hin (.inr (by rw [hst, hn]; omega))
  have htb : tableAt d'.data (hx.partStart.toNat * cfg.lbSize.usize) hx.numParts.toNat 0 =
      tableAt d.data (hx.partStart.toNat * cfg.lbSize.usize) hx.numParts.toNat 0 :=
    tableAt_congr _ _ fun j _ hj => hag _ _ (by omega) (.inr (by rw [hst]; omega))
  rw [hsl, if_pos hcrc, htb, ← htab] at hr
  have hrest : openRest m cfg (.ok hx) h2 hx d' = (.ok (GptDisk.mk cfg { d' with pos := p } hx.diskGuid (.ok hx) h2 s0.partitions false), { d' with pos := p }) := by
    unfold openRest
    simp only [M.bind_apply, M.mapErr_apply, M.get_apply, M.pure_apply, hr]
    rfl
  have hsel : ∀ h, selectHeader cfg.onlyValidHeaders (.ok hx) h2 = .ok h ↔ h = hx ∧ (cfg.onlyValidHeaders = true → ∃ k, h2 = .ok k) := by
    intro h
    rw [(select_spec (b := cfg.onlyValidHeaders) (h1 := .ok hx) (h2 := h2)).1 h]
    constructor
    · rintro (⟨a, b⟩ | ⟨-, ⟨e, a⟩, -⟩)
      · exact ⟨(Except.ok.inj a).symm, b⟩
      · cases a
    · rintro ⟨rfl, b⟩
      exact .inl ⟨rfl, b⟩
  constructor
  · rw [p2, eo]
    constructor
    · rintro ⟨s', hs⟩
      cases hc : selectHeader cfg.onlyValidHeaders (.ok hx) h2 with
      | ok h' => exact ((hsel h').mp hc).2
      | error e => rw [hc] at hs; cases hs
    · intro hb
      rw [(hsel hx).mpr ⟨rfl, hb⟩]
      simp only
      rw [hrest]
      exact ⟨_, rfl⟩
  · intro s' d2 hok'
    have hwk2 := Dev.works_frame.openFromDevice m cfg d' hwk'
    rw [eo] at hok' hwk2
    cases hc : selectHeader cfg.onlyValidHeaders (.ok hx) h2 with
    | error e => rw [hc] at hok'; cases hok'
    | ok h' =>
      obtain ⟨rfl, -⟩ := (hsel h').mp hc
      rw [hc] at hok' hwk2
      simp only at hok' hwk2
      rw [hrest] at hok' hwk2
      obtain ⟨a, -⟩ := Prod.mk.inj hok'
      obtain rfl := Res.ok.inj a
      exact ⟨rfl, hg3.symm, hp.symm, ht.symm, rfl, rfl, hwk2.1, hwk2.2⟩

/-- **C127**, open: a disk by the rules whose device has grown is opened as before, with the same partitions; if only valid headers are wanted,
this needs a header in the new last block, where nobody has put one. -/
theorem c127_opens (hwk : d.Works) (hlen : d.data.length < 2 ^ 60) (u : Uefi cfg.lbSize d.data n k B) (e : Enlarged cfg.lbSize d d' B')
    {d1 : Dev} (hok : openFromDevice m cfg d = (.ok s, d1)) :
    ((∃ s', (openFromDevice m cfg d').1 = .ok s') ↔ (cfg.onlyValidHeaders = true → BackupValid cfg.lbSize d'.data)) ∧
    ∀ s' d2, openFromDevice m cfg d' = (.ok s', d2) →
      s'.partitions = s.partitions ∧ s'.guid = s.guid ∧ s'.primaryHeader = s.primaryHeader ∧ s'.tryHeader = s.tryHeader ∧ s'.config = cfg ∧
      s'.device.data = d'.data ∧ s'.device.Works ∧ s'.device.cap = d'.cap := by
  obtain ⟨z, hz⟩ := e.more
  have q1 := u.front
  have q2 := u.usable
  have q3 := u.behind
  exact front_opens hwk hlen u e.works (Nat.le_refl _) (by rw [hz, List.length_append]; omega)
    (fun off w h _ => by rw [hz]; exact slice_append_left h) ((Nat.mul_le_mul_right _ (by omega)).trans u.length) hok

/-- What is known of an opened disk on the larger device. -/
theorem enlarged_steady (hwk : d.Works) (hlen : d.data.length < 2 ^ 60) (u : Uefi cfg.lbSize d.data n k B) (e : Enlarged cfg.lbSize d d' B')
    {s' : GptDisk} {d2 : Dev} (hok : openFromDevice m cfg d' = (.ok s', d2)) :
    B ≤ B' ∧ ∃ h, SaneDisk s' h k B ∧ h.numParts.toNat = n ∧ Tidy h s'.partitions ∧ s'.config = cfg ∧ s'.device.data = d'.data ∧
      s'.device.Works ∧ s'.device.cap = d'.cap ∧ h.diskGuid = s'.guid ∧ s'.partitions.length ≤ n ∧
      HeaderAt d.data (1 * cfg.lbSize.usize) h ∧ ∀ i p, (i, p) ∈ s'.partitions → 1 ≤ i.toNat := by
  obtain ⟨s, d1, h0, b, eo, -, -, -, -, -⟩ := open_uefi (m := m) hwk.faults hwk.pos (by omega) u
  obtain ⟨-, a⟩ := c127_opens (m := m) hwk hlen u e eo
  obtain ⟨a1, a2, a3, a4, a5, a6, a7, a8⟩ := a s' d2 hok
  obtain ⟨h, v, hh⟩ := steady_open (m := m) hwk hlen u eo
  obtain ⟨z, hz⟩ := e.more
  have hll : d.data.length ≤ d'.data.length := by rw [hz, List.length_append]; omega
  have hBB : B ≤ B' := by
    have := Nat.div_le_div_right (c := cfg.lbSize.usize) hll
    rw [u.blocks, e.last] at this
    omega
  have hs := v.sane
  have hl := Nat.lt_of_le_of_lt e.works.length e.works.cap
  have hgd : s.guid = h.diskGuid := by
    obtain ⟨hx, d3, -, -, -, ht3, hg3, -⟩ := openFromDevice_ok eo
    obtain rfl : hx = h := Except.ok.inj (ht3.symm.trans (header_try hs.header))
    exact hg3
  refine ⟨hBB, h, ⟨?_, by rw [a5, ← v.config]; exact hs.sane, ?_, by rw [a6]; exact hl⟩, v.count, by rw [a1]; exact v.table, a5, a6, a7, a8,
    by rw [a2, hgd], by rw [a1]; exact v.entries, hh, fun i p hm => (v.ids i p (by rw [← a1]; exact hm)).1⟩
  · have := hs.header
    rw [header_ok_iff] at this ⊢
    rw [a4]
    exact this
  · have := hs.fits
    rw [v.config, v.length] at this
    rw [a5, a6]
    omega

theorem stretch_init (r : Stretch s h k k' B B' t) (fresh : Uuid) :
    ∃ s1 h1, initHeaders m fresh (s.withParts t) = (.ok (), s1) ∧ Resized s h k' B' t s1 h1 := by
  have hlastU := r.behind
  have hfront := r.front
  have hus := r.sane.usable
  have hpos := lb_pos s.config.lbSize
  have hB := r.last
  have hfits : (B' + 1) * s.config.lbSize.usize ≤ s.device.data.length := by
    rw [← hB]; exact Nat.div_mul_le_self _ _
  have hB64 : B' < 2 ^ 64 := by
    have a1 := r.length
    have a2 : (B' + 1) * 1 ≤ (B' + 1) * s.config.lbSize.usize := Nat.mul_le_mul_left _ hpos
    omega
  have hlast : lastBlock s.device.data.length s.config.lbSize = B' := by unfold lastBlock; omega
  have hfind := findBackupLba_nil (lb := s.config.lbSize) r.faults r.pos r.length
  rw [hlast, if_neg (by rw [Nat.not_lt, ← Nat.le_div_iff_mul_le hpos]; omega)] at hfind
  have hN : (max32 (UInt32.ofNat t.length) minNumParts).toNat = countFor t := by
    rw [max32_toNat, UInt32.toNat_ofNat']
    show max (t.length % 2 ^ 32) 128 = max 128 (t.length % 2 ^ 32)
    omega
  generalize hn : max32 (UInt32.ofNat t.length) minNumParts = n at hN
  generalize hg : ({ h with diskGuid := s.guid, numParts := n, currentLba := 1, backupLba := UInt64.ofNat B' } : Header) = g
  have hsane : SaneHeader s.config.lbSize k' B' g := by
    subst hg
    obtain ⟨a1, a2, a3, a4, a5, a6, a7⟩ := r.sane
    exact ⟨a1, by show n.toNat * 128 < _; rw [hN]; exact r.fits, by show JustEnough _ (n.toNat * 128) _; rw [hN]; exact r.blocks,
      .inl ⟨rfl, ofNat64 hB64⟩, r.front, a6, r.behind⟩
  have hb : (s.withParts t).initBuilder (UInt64.ofNat B') fresh = (HeaderBuilder.fromHeader g).setPrimary true := by
    subst hg
    unfold initBuilder HeaderBuilder.fromMaybeHeader
    rw [show (s.withParts t).tryHeader = .ok h from header_try r.header]
    simp only
    unfold HeaderBuilder.setPrimary HeaderBuilder.setDiskGuid HeaderBuilder.setBackupLba HeaderBuilder.setNumParts HeaderBuilder.fromHeader
    simp only [HeaderBuilder.mk.injEq, true_and, and_true]
    have e1 : (1 : UInt64).toNat = 1 := rfl
    have hlt : (1 : UInt64) < UInt64.ofNat B' := UInt64.lt_iff_toNat_lt.mpr (by rw [ofNat64 hB64, e1]; omega)
    obtain ⟨hB64', hkB⟩ := sane_bounds r.sane
    rw [if_pos hlt, if_pos hlt]
    refine ⟨rfl, ?_, rfl, hn⟩
    apply UInt64.toNat_inj.mp
    rcases r.sane.lbas with ⟨e1', e2⟩ | ⟨e1', e2⟩
    · rw [if_pos (UInt64.lt_iff_toNat_lt.mpr (by omega)), e1']
      rfl
    · rw [if_neg (fun hc => by have := UInt64.lt_iff_toNat_lt.mp hc; omega), e2]
      rfl
  have hbuild : ((s.withParts t).initBuilder (UInt64.ofNat B') fresh).build m s.config.lbSize = .ok (rebuiltP k' B' g) := by
    rw [hb]
    exact primaryOf_sane m hsane
  refine ⟨_, rebuiltP k' B' g, initHeaders_eq (s := s.withParts t) hfind hbuild (fun _ => backupOf_sane m hsane), ?_⟩
  have e : (rebuiltP k' B' g).lastUsable.toNat = B' - k' - 1 := ofNat64 (by omega)
  have ef : g.firstUsable = h.firstUsable := by subst hg; rfl
  have en : g.numParts = n := by subst hg; rfl
  have eg : g.diskGuid = s.guid := by subst hg; rfl
  obtain ⟨a1, a2, a3, a4, a5, a6, a7⟩ := hsane
  refine ⟨⟨rfl, ⟨rfl, a2, a3, .inl ⟨rfl, ofNat64 hB64⟩, a5, ?_, ?_⟩, hfits, r.length⟩, by rw [← hN, ← en]; rfl, ef, ?_, eg, rfl, rfl, rfl⟩
  · rw [e]; show g.firstUsable.toNat ≤ _; rw [ef]; omega
  · rw [e]; omega
  · rw [e]; omega

/-- **C127**, update: `update_partitions` on a larger device succeeds and gives headers for the whole of it: the backup header belongs to the new
last block, and the usable range reaches up to the array in front of it. -/
theorem c127_update (r : Stretch s h k k' B B' t) (h0 : PMap.get t 0 = none)
    (hperm : s.config.changePartitionCount = true ∨ countFor t ≤ h.numParts.toNat) (fresh : Uuid) :
    ∃ s1 h1, updatePartitions m t fresh s = (.ok (), s1) ∧ Resized s h k' B' t s1 h1 := by
  rw [updatePartitions_eq h0 (header_try r.header) fun hw => ?_]
  · exact stretch_init r fresh
  · rcases hperm with hp | hp
    · exact hp
    · rw [wouldChange_iff, UInt32.toNat_ofNat'] at hw
      unfold countFor at hp
      omega

/-- Update, write and open again. -/
theorem refit (r : Stretch s h k k B B' s.partitions) (ht : Tidy h s.partitions) (hn : h.numParts.toNat = 128) (hlp : s.partitions.length ≤ 128)
    (hids : ∀ i p, (i, p) ∈ s.partitions → 1 ≤ i.toNat) (hw : s.config.writable = true) (hro : s.config.readonlyBackup = false)
    (hwk : s.device.Works) (fresh : Uuid) :
    ∃ s1 s2 h1, updatePartitions m s.partitions fresh s = (.ok (), s1) ∧ s1.tryHeader = .ok h1 ∧ h1.lastUsable.toNat + k + 1 = B' ∧
      writeInplace m s1 = (.ok (), s2) ∧ Uefi s.config.lbSize s2.device.data 128 k B' ∧
      (∀ i, h.firstUsable.toNat * s.config.lbSize.usize ≤ i → i < (h.lastUsable.toNat + 1) * s.config.lbSize.usize →
        byteAt s2.device.data i = byteAt s.device.data i) ∧
      ∀ m' cfg', cfg'.lbSize = s.config.lbSize → ∃ s3 d3, openFromDevice m' cfg' s2.device = (.ok s3, d3) ∧ s3.guid = s.guid ∧
        Numbered (Spec.used s.partitions) s3.partitions := by
  have hcnt : countFor s.partitions = 128 := by unfold countFor; omega
  have hbl := r.last
  have hbe := r.behind
  have h0 : PMap.get s.partitions 0 = none := PMap.get_none_iff.mpr fun p hm => absurd (hids 0 p hm) (by decide)
  obtain ⟨s1, h1, eu, q⟩ := c127_update (m := m) r h0 (.inr (by rw [hcnt, hn])) fresh
  have hused : (Spec.used s.partitions).length ≤ 128 := (used_length_le _).trans hlp
  obtain ⟨s2, ew, u2, hb⟩ := c125_write (m := m) q ht hro hw (by rw [hcnt]; exact hused)
    (by rw [hcnt]; decide) hwk.faults ((by rw [← hbl]; exact Nat.div_mul_le_self _ _ : (B' + 1) * s.config.lbSize.usize ≤ _).trans hwk.length) hbl hbe
  rw [hcnt] at u2
  have hwk3 := Dev.works_frame.writeInplace m s1 (by rw [q.device]; exact hwk)
  rw [ew] at hwk3
  refine ⟨s1, s2, h1, eu, header_try q.sane.header, q.last, ew, u2, hb, fun m' cfg' hlb => ?_⟩
  have hl3 : 3 * s.config.lbSize.usize ≤ s2.device.data.length := by
    have q1 := u2.front
    have q2 := u2.usable
    have q3 := u2.behind
    exact (Nat.mul_le_mul_right _ (by omega)).trans u2.length
  obtain ⟨b, p, eo⟩ := open_written (m' := m') (cfg := cfg') (d := s2.device) q.sane ew rfl hwk3.1.faults hwk3.1.pos
    (by rw [q.config]; exact hlb) (fun _ => ⟨by rw [hlb]; exact hl3, by
      rw [hlb]
      have : lastBlockOffset s.config.lbSize s2.device.data = B' * s.config.lbSize.usize := by unfold lastBlockOffset; rw [u2.blocks, Nat.add_sub_cancel]
      rw [this]; exact u2.backup.valid⟩)
  refine ⟨_, _, eo, q.guid, ?_⟩
  rw [q.table]
  exact numbered_numberFrom (by omega)

/-- **C127**, whole: opening a disk by the rules with 128 slots on the larger device, passing its own table to `update_partitions` and writing
it succeeds. This gives a disk by the rules that fills the larger device, with the same partitions and their data, for every configuration. -/
theorem c127_whole (hwk : d.Works) (hlen : d.data.length < 2 ^ 60) (u : Uefi cfg.lbSize d.data 128 k B) (e : Enlarged cfg.lbSize d d' B')
    (hw : cfg.writable = true) (hro : cfg.readonlyBackup = false) {d2 : Dev} (hok : openFromDevice m cfg d' = (.ok s, d2)) (fresh : Uuid) :
    ∃ s1 s2 h1, updatePartitions m s.partitions fresh s = (.ok (), s1) ∧ s1.tryHeader = .ok h1 ∧ h1.lastUsable.toNat + k + 1 = B' ∧
      writeInplace m s1 = (.ok (), s2) ∧ Uefi cfg.lbSize s2.device.data 128 k B' ∧
      (∀ i, num d.data (1 * cfg.lbSize.usize + 40) 8 * cfg.lbSize.usize ≤ i → i < (num d.data (1 * cfg.lbSize.usize + 48) 8 + 1) * cfg.lbSize.usize →
        byteAt s2.device.data i = byteAt d.data i) ∧
      ∀ m' cfg', cfg'.lbSize = cfg.lbSize → ∃ s3 d3, openFromDevice m' cfg' s2.device = (.ok s3, d3) ∧ s3.guid = s.guid ∧
        Numbered (Spec.used s.partitions) s3.partitions := by
  obtain ⟨hBB, h, hs, hn, ht, hc, hd, hwk2, hcap, -, hlp, hh, hids⟩ := enlarged_steady hwk hlen u e hok
  have hcnt : countFor s.partitions = 128 := by unfold countFor; omega
  have hl := hs.sane.last
  have r : Stretch s h k k B B' s.partitions := by
    refine ⟨hs.header, hs.sane, hs.length, by rw [hc, hd]; exact e.last, hwk2.faults, hwk2.pos, by rw [hcnt]; decide, ?_, hs.sane.first, by omega⟩
    rw [hcnt, hc]
    exact u.array
  obtain ⟨s1, s2, h1, b1, b2, b3, b4, b5, b6, b7⟩ := refit (m := m) r ht hn hlp hids (by rw [hc]; exact hw) (by rw [hc]; exact hro) hwk2 fresh
  rw [hc] at b5 b6 b7
  obtain ⟨z, hz⟩ := e.more
  refine ⟨s1, s2, h1, b1, b2, b3, b4, b5, fun i c1 c2 => ?_, b7⟩
  have hf : h.firstUsable.toNat = num d.data (1 * cfg.lbSize.usize + 40) 8 := hh.first
  have hla : h.lastUsable.toNat = num d.data (1 * cfg.lbSize.usize + 48) 8 := hh.last
  rw [b6 i (by rw [hf]; exact c1) (by rw [hla]; exact c2), hd, hz, byteAt_append, if_pos]
  have hul := u.length
  have : (num d.data (1 * cfg.lbSize.usize + 48) 8 + 1) * cfg.lbSize.usize ≤ (B + 1) * cfg.lbSize.usize := Nat.mul_le_mul_right _ (by omega)
  omega

/-- **C127**, plain: if the disk is written without this, it stays as it was: the usable range ends where the smaller device did, and the new last
block is not written, so that opening with only valid headers fails as before. -/
theorem c127_plain (hwk : d.Works) (hlen : d.data.length < 2 ^ 60) (u : Uefi cfg.lbSize d.data n k B) (e : Enlarged cfg.lbSize d d' B')
    (hlt : B < B') (hw : cfg.writable = true) {d2 : Dev} (hok : openFromDevice m cfg d' = (.ok s, d2)) :
    ∃ s1 h1, writeInplace m s = (.ok (), s1) ∧ s1.tryHeader = .ok h1 ∧ h1.lastUsable.toNat + k + 1 = B ∧ h1.backupLba.toNat = B ∧
      (∀ i, (B + 1) * cfg.lbSize.usize ≤ i → byteAt s1.device.data i = byteAt d'.data i) ∧
      (BackupValid cfg.lbSize s1.device.data ↔ BackupValid cfg.lbSize d'.data) ∧
      ∀ m' cfg', cfg'.lbSize = cfg.lbSize → cfg'.onlyValidHeaders = true → ¬ BackupValid cfg.lbSize d'.data →
        ∀ s3, (openFromDevice m' cfg' s1.device).1 ≠ .ok s3 := by
  obtain ⟨hBB, h, hs, hn, ht, hc, hd, hwk2, hcap, -, hlp, hh, hids⟩ := enlarged_steady hwk hlen u e hok
  have hroom : (Spec.used s.partitions).length ≤ h.numParts.toNat := by rw [hn]; exact (used_length_le _).trans hlp
  have hwr := write_nil (m := m) hs (by rw [hc]; exact hw) hroom hwk2.faults (hs.fits.trans hwk2.length)
  have hwk3 := Dev.works_frame.writeInplace m s hwk2
  have hconf := c32_confined m s h k B hs
  rcases hx : writeInplace m s with ⟨x, s1⟩
  rw [hx] at hwr hwk3 hconf
  simp only at hwr hconf
  subst hwr
  obtain ⟨h1, a1, a2, a3, a4⟩ := c125_lost hs hx
  obtain ⟨hB64, hkB⟩ := sane_bounds hs.sane
  have hbytes : ∀ i, (B + 1) * cfg.lbSize.usize ≤ i → byteAt s1.device.data i = byteAt d'.data i := by
    intro i hi
    have e0 := hs.sane.arrays.enough
    rw [hn, hc] at e0
    have q1 : (2 + k) * cfg.lbSize.usize = 2 * cfg.lbSize.usize + k * cfg.lbSize.usize := Nat.add_mul ..
    have q2 : (B - k) * cfg.lbSize.usize + k * cfg.lbSize.usize = B * cfg.lbSize.usize := by rw [← Nat.add_mul]; congr 1; omega
    have q3 : (B + 1) * cfg.lbSize.usize = B * cfg.lbSize.usize + cfg.lbSize.usize := by rw [Nat.add_mul, Nat.one_mul]
    have q5 : (2 + k) * cfg.lbSize.usize ≤ (B - k) * cfg.lbSize.usize := Nat.mul_le_mul_right _ (by omega)
    rw [← hd]
    refine (hconf i ?_ ?_).1
    · rw [hc, hn]; unfold InPrimary; omega
    · rw [hc, hn]; unfold InBackup; omega
  have hl1 : s1.device.data.length = d'.data.length := by rw [(write_ok hs hx).length, hd]
  have hlbo : lastBlockOffset cfg.lbSize s1.device.data = lastBlockOffset cfg.lbSize d'.data := by unfold lastBlockOffset; rw [hl1]
  have hoff : lastBlockOffset cfg.lbSize d'.data = B' * cfg.lbSize.usize := by unfold lastBlockOffset; rw [e.last, Nat.add_sub_cancel]
  have hfit : B' * cfg.lbSize.usize + cfg.lbSize.usize ≤ d'.data.length := by
    have := Nat.div_mul_le_self d'.data.length cfg.lbSize.usize
    rw [e.last, Nat.add_mul, Nat.one_mul] at this
    exact this
  have h512 : 512 ≤ cfg.lbSize.usize := by cases cfg.lbSize <;> decide
  have hle : (B + 1) * cfg.lbSize.usize ≤ B' * cfg.lbSize.usize := Nat.mul_le_mul_right _ hlt
  have hbv : BackupValid cfg.lbSize s1.device.data ↔ BackupValid cfg.lbSize d'.data := by
    unfold BackupValid
    rw [hlbo, hl1, hoff]
    have := (valid_congr (c := s1.device.data) (c' := d'.data) (off := B' * cfg.lbSize.usize) (by
      refine slice_eq_of_byteAt (by omega) (slice_length_of_le (by omega)) fun j hj => ?_
      rw [byteAt_slice, if_pos hj]
      exact (hbytes (B' * cfg.lbSize.usize + j) (by omega)).symm) (by omega) (by omega)).1
    rw [this]
  have hbk : h1.backupLba.toNat = B := by
    have w := write_ok hs hx
    have := header_try a1.header
    unfold GptDisk.tryHeader at this
    rw [w.primary] at this
    obtain rfl := Except.ok.inj this
    exact ofNat64 hB64
  refine ⟨s1, h1, rfl, header_try a1.header, a4, hbk, hbytes, hbv, fun m' cfg' hlb hv hno s3 hs3 => ?_⟩
  obtain ⟨g1, g2, -, c2, -, -, eo⟩ := open_headers (m := m') (cfg := cfg') hwk3.1.faults hwk3.1.pos (Nat.lt_of_le_of_lt hwk3.1.length hwk3.1.cap)
  rw [eo] at hs3
  cases hsel : selectHeader cfg'.onlyValidHeaders g1 g2 with
  | error x => rw [hsel] at hs3; cases hs3
  | ok g =>
    rcases (select_spec.1 g).mp hsel with ⟨-, b⟩ | ⟨b, -⟩
    · obtain ⟨b, hb⟩ := b hv
      have := ((c2 b).mp hb).1
      rw [hlb] at this
      exact hno (hbv.mp this)
    · rw [hv] at b; cases b

end

/-- A disk of 100 blocks is put on a device of 120 blocks: the backup moves to block 119 (or, without `update_partitions`, stays in block 99). -/
example (m : Mode) : ∃ s0 d' s s1 s2 h1 t1 g1, writeInplace m (madeDisk (GptConfig.new.setWritable true) dev100 32 99 Uuid.nil) = (.ok (), s0) ∧
    Enlarged .lb512 s0.device d' 119 ∧ (openFromDevice m (GptConfig.new.setWritable true) d').1 = .ok s ∧
    updatePartitions m s.partitions Uuid.nil s = (.ok (), s1) ∧ s1.tryHeader = .ok h1 ∧ h1.lastUsable.toNat = 86 ∧
    writeInplace m s1 = (.ok (), s2) ∧ Uefi .lb512 s2.device.data 128 32 119 ∧
    writeInplace m s = (.ok (), t1) ∧ t1.tryHeader = .ok g1 ∧ g1.lastUsable.toNat = 66 ∧ g1.backupLba.toNat = 99 := by
  have hl : dev100.data.length = 51200 := dev100_length
  have hwk : dev100.Works := ⟨rfl, by show 51200 < 2 ^ 64; decide, Nat.le_of_eq hl, by show 0 < 2 ^ 64; decide⟩
  have hB : dev100.data.length / (GptConfig.new.setWritable true).lbSize.usize = 99 + 1 := by rw [hl]; rfl
  have hs := madeDisk_sane (cfg := GptConfig.new.setWritable true) (d := dev100) (k := 32) (B := 99) (g := Uuid.nil) (by rw [hl]; decide) enough512 hB
    (by decide)
  have hok := c62_write_succeeds m _ _ 32 99 hs rfl (Nat.zero_le _) rfl (hs.fits.trans (show dev100.data.length ≤ 51200 by rw [hl]))
  have hwk1 := Dev.works_frame.writeInplace m (madeDisk (GptConfig.new.setWritable true) dev100 32 99 Uuid.nil) hwk
  rcases hx : writeInplace m (madeDisk (GptConfig.new.setWritable true) dev100 32 99 Uuid.nil) with ⟨r, s0⟩
  rw [hx] at hok hwk1
  simp only at hok
  subst hok
  have hlen : s0.device.data.length = dev100.data.length := (write_ok hs hx).length
  have hl0 : (madeDisk (GptConfig.new.setWritable true) dev100 32 99 Uuid.nil).device.data.length = 51200 := hl
  have u := c116_written hs (tidy_nil _) rfl (by rw [hl0]; rfl) (show 128 + 1 < 2 ^ 25 by decide) hx
  have hl1 : s0.device.data.length = 51200 := hlen.trans hl
  clear hx hs hlen
  have hwk1 := hwk1.1
  obtain ⟨z, hz⟩ : ∃ z : Bytes, z.length = 10240 := ⟨zeros 10240, zeros_length _⟩
  have hl2 : (s0.device.data ++ z).length = 61440 := by rw [List.length_append, hl1, hz]
  have e : Enlarged (GptConfig.new.setWritable true).lbSize s0.device ⟨s0.device.data ++ z, 0, 61440, [], []⟩ 119 := by
    refine ⟨⟨rfl, by show 61440 < 2 ^ 64; decide, ?_, by show 0 < 2 ^ 64; decide⟩, ⟨z, rfl⟩, ?_⟩
    · show (s0.device.data ++ z).length ≤ 61440
      rw [hl2]
    · show (s0.device.data ++ z).length / _ = _
      rw [hl2]
      rfl
  have u' : Uefi (GptConfig.new.setWritable true).lbSize s0.device.data 128 32 99 := u
  obtain ⟨st, dt, h, b, eo, -⟩ := c116_opens (cfg := GptConfig.new.setWritable true) m hwk1 u'
  obtain ⟨o1, -⟩ := c127_opens hwk1 (by rw [hl1]; decide) u' e eo
  obtain ⟨s, hs⟩ := o1.mpr (fun h => nomatch h)
  generalize hd' : (⟨s0.device.data ++ z, 0, 61440, [], []⟩ : Dev) = d' at e hs
  rcases ho : openFromDevice m (GptConfig.new.setWritable true) d' with ⟨x, d2⟩
  rw [ho] at hs
  simp only at hs
  subst hs
  obtain ⟨s1, s2, h1, a, b, c, w, u2, -⟩ := c127_whole hwk1 (by rw [hl1]; decide) u' e rfl rfl ho Uuid.nil
  obtain ⟨t1, g1, p1, p2, p3, p4, -⟩ := c127_plain hwk1 (by rw [hl1]; decide) u' e (by decide) rfl ho
  exact ⟨s0, d', s, s1, s2, h1, t1, g1, rfl, e, by rw [ho], a, b, by omega, w, u2, p1, p2, by omega, p4⟩

end Gpt
