import Verif.Props.Rewrite
import Verif.Props.Opens
/-!
# Writing repairs a damaged copy: C97

`open_from_device` falls back to the copy that is left (src/lib.rs:269-308); `write_inplace` rebuilds both headers from the one in
use and writes both arrays (src/lib.rs:865-960). So opening a disk of which one copy was destroyed and writing it back restores it.
-/

namespace Gpt

open Spec GptDisk

namespace GptDisk

section
variable {s s' : GptDisk} {h : Header} {k B : Nat}

/-- In the primary structures the final content does not depend on what was there, nor on whether the backup is written. -/
theorem finalByte_primary {lb : LbSize} {ph : Header} {bh bh' : Option Header} {ps : List Partition} {oB oH : Nat} {data data' : Bytes}
    {i : Nat} (hi : InPrimary lb ph.numParts.toNat i) :
    finalByte lb ph bh ps oB oH data i = finalByte lb ph bh' ps oB oH data' i := by
  obtain ⟨h1, h2⟩ := hi
  unfold finalByte InP
  by_cases hc : i < 2 * lb.usize
  · rw [if_pos ⟨h1, hc⟩, if_pos ⟨h1, hc⟩]
  · have n1 : ¬ (lb.usize ≤ i ∧ i < 2 * lb.usize) := by omega
    have n2 : 2 * lb.usize ≤ i ∧ i < 2 * lb.usize + ph.numParts.toNat * 128 := by omega
    rw [if_neg n1, if_neg n1, if_pos n2, if_pos n2]

/-- In the backup structures the final content does not depend on what was there. -/
theorem finalByte_backup {lb : LbSize} {ph b : Header} {ps : List Partition} {data data' : Bytes} {i : Nat}
    (hi : InBackup lb ph.numParts.toNat k B i) :
    finalByte lb ph (some b) ps ((B - k) * lb.usize) (B * lb.usize) data i =
      finalByte lb ph (some b) ps ((B - k) * lb.usize) (B * lb.usize) data' i := by
  unfold InBackup at hi
  rw [Nat.add_mul, Nat.one_mul] at hi
  unfold finalByte
  split
  · rfl
  · split
    · rfl
    · dsimp only
      split
      · rfl
      · rename_i h3
        rw [if_pos (by omega), if_pos (by omega)]

/-- A backup header that was written is sane. -/
theorem Written.saneBackup (hs : SaneDisk s h k B) (c : UInt32) :
    SaneHeader s.config.lbSize k B ((rebuiltB k B h).sealed c) := by
  obtain ⟨hB, hkB⟩ := sane_bounds hs.sane
  have hf := hs.sane.first
  have hu := hs.sane.usable
  have hl := hs.sane.last
  have e : ((rebuiltB k B h).sealed c).lastUsable.toNat = B - k - 1 := ofNat64 (by omega)
  refine ⟨rfl, hs.sane.count, hs.sane.arrays, .inr ⟨ofNat64 hB, rfl⟩, hf, ?_, ?_⟩
  · rw [e]
    show h.firstUsable.toNat ≤ _
    omega
  · rw [e]; omega

/-- The header `H` in use after opening describes the layout that was written: writing puts the content that was written into the
structures of the copies it writes and leaves every other byte. -/
theorem rewrite_restores {m : Mode} {cfg : GptConfig} {d : Dev} {h1 h2 : Except HeaderError Header} {H : Header} (m2 : Mode)
    (hs : SaneDisk s h k B) (hok : writeInplace m s = (.ok (), s')) (hro : s.config.readonlyBackup = false)
    (hlen : d.data.length = s'.device.data.length) (hlb : cfg.lbSize = s.config.lbSize)
    (hnames : ∀ p ∈ Spec.used s.partitions, Clean p.name.toList) (hf : d.faults = [])
    (hw : cfg.writable = true) (hcap : (B + 1) * cfg.lbSize.usize ≤ d.cap)
    (hH : (openedState cfg d h1 h2 H (Spec.used s.partitions)).header (ε := Empty) = .ok H)
    (hsane : SaneHeader s.config.lbSize k B H) (hP : rebuiltP k B H = rebuiltP k B h) :
    ∃ s3, writeInplace m2 (openedState cfg d h1 h2 H (Spec.used s.partitions)) = (.ok (), s3) ∧
      s3.device.data.length = s'.device.data.length ∧
      (∀ i, InPrimary s.config.lbSize h.numParts.toNat i → byteAt s3.device.data i = byteAt s'.device.data i) ∧
      (∀ i, cfg.readonlyBackup = false → InBackup s.config.lbSize h.numParts.toNat k B i →
        byteAt s3.device.data i = byteAt s'.device.data i) ∧
      (∀ i, ¬ InPrimary s.config.lbSize h.numParts.toNat i →
        (cfg.readonlyBackup = false → ¬ InBackup s.config.lbSize h.numParts.toNat k B i) →
        byteAt s3.device.data i = byteAt d.data i) := by
  have w := write_ok hs hok
  have hN : H.numParts = h.numParts := congrArg (f := Header.numParts) (a₁ := rebuiltP k B H) (a₂ := rebuiltP k B h) hP
  have hBk : rebuiltB k B H = rebuiltB k B h := by unfold rebuiltB; rw [hP]
  have hused := used_numberFrom 0 (Spec.used s.partitions) fun p hp => used_isUsed hp
  have hs2 : SaneDisk (openedState cfg d h1 h2 H (Spec.used s.partitions)) H k B := by
    refine ⟨hH, ?_, ?_, ?_⟩
    · show SaneHeader cfg.lbSize k B H
      rw [hlb]; exact hsane
    · show (B + 1) * cfg.lbSize.usize ≤ d.data.length
      rw [hlb, hlen, w.length]; exact hs.fits
    · show d.data.length < _
      rw [hlen, w.length]; exact hs.length
  have hok2 := c62_write_succeeds m2 _ H k B hs2 hw (by
    show (Spec.used (numberFrom 0 (Spec.used s.partitions))).length ≤ _
    rw [hused, List.length_map, hN]; exact w.room) hf hcap
  rcases hx : writeInplace m2 (openedState cfg d h1 h2 H (Spec.used s.partitions)) with ⟨r, s3⟩
  rw [hx] at hok2
  simp only at hok2
  subst hok2
  have w2 := write_ok hs2 hx
  have hb : ∀ i, byteAt s3.device.data i = finalByte s.config.lbSize (rebuiltP k B h) (bakOf cfg k B h) (Spec.used s.partitions)
      ((B - k) * s.config.lbSize.usize) (B * s.config.lbSize.usize) d.data i := by
    intro i
    rw [w2.bytes i]
    show finalByte cfg.lbSize (rebuiltP k B H) (bakOf cfg k B H) (Spec.used (numberFrom 0 (Spec.used s.partitions)))
      ((B - k) * cfg.lbSize.usize) (B * cfg.lbSize.usize) d.data i = _
    have : bakOf cfg k B H = bakOf cfg k B h := by unfold bakOf; rw [hBk]
    rw [hused, finalByte_stored hnames, hP, hlb, this]
  refine ⟨s3, rfl, w2.length.trans hlen, fun i hi => ?_, fun i hc hi => ?_, fun i h1 h2 => ?_⟩
  · rw [hb, w.bytes]
    exact finalByte_primary (ph := rebuiltP k B h) hi
  · rw [hb, w.bytes]
    have e1 : bakOf cfg k B h = some (rebuiltB k B h) := by unfold bakOf; rw [hc]; rfl
    have e2 : bakOf s.config k B h = some (rebuiltB k B h) := by unfold bakOf; rw [hro]; rfl
    rw [e1, e2]
    exact finalByte_backup (ph := rebuiltP k B h) hi
  · rw [hb]
    exact finalByte_outside h1 h2

end

end GptDisk

/-! ## C97 -/

/-- **C97**, the primary copy destroyed. After a successful write of both copies on a device whose last block is the backup LBA,
anything may happen outside the backup array and the backup header block, as long as the primary header is left invalid. Opening
the device writable and writing succeeds, and the primary header block and array have again the bytes that were written; every byte
outside the copies is as it was found. -/
theorem c97_from_backup (m m1 m2 : Mode) (s s' : GptDisk) (h : Header) (k B : Nat) (cfg : GptConfig) (d : Dev)
    (hs : SaneDisk s h k B) (hok : writeInplace m s = (.ok (), s')) (hro : s.config.readonlyBackup = false)
    (hB : s.device.data.length / s.config.lbSize.usize = B + 1)
    (hlen : d.data.length = s'.device.data.length)
    (hsame : ∀ i, InBackup s.config.lbSize h.numParts.toNat k B i → byteAt d.data i = byteAt s'.device.data i)
    (hinv : ¬ PrimaryValid s.config.lbSize d.data) (hf : d.faults = []) (hp : d.pos < 2 ^ 64)
    (hlb : cfg.lbSize = s.config.lbSize) (hv : cfg.onlyValidHeaders = false) (hw : cfg.writable = true)
    (hcap : (B + 1) * cfg.lbSize.usize ≤ d.cap) (hnames : ∀ p ∈ Spec.used s.partitions, Clean p.name.toList) :
    ∃ s2 d2 s3, openFromDevice m1 cfg d = (.ok s2, d2) ∧ writeInplace m2 s2 = (.ok (), s3) ∧
      s3.device.data.length = s'.device.data.length ∧
      (∀ i, InPrimary s.config.lbSize h.numParts.toNat i ∨ InBackup s.config.lbSize h.numParts.toNat k B i →
        byteAt s3.device.data i = byteAt s'.device.data i) ∧
      (∀ i, ¬ InPrimary s.config.lbSize h.numParts.toNat i → ¬ InBackup s.config.lbSize h.numParts.toNat k B i →
        byteAt s3.device.data i = byteAt d.data i) := by
  have w := write_ok hs hok
  obtain ⟨r1, r2⟩ := (w.regions hs).backup hro
  have g := geo_sane hs.sane hs.fits s.config
  obtain ⟨hB', hkB⟩ := sane_bounds hs.sane
  have q1 := g.sep
  have q2 := g.sepB
  have q3 := g.fits
  have hn : (rebuiltP k B h).numParts = h.numParts := rfl
  have hnb : (rebuiltB k B h).numParts = h.numParts := rfl
  rw [hn] at q1 q2
  have hlen1 := hs.length
  have hlen2 := w.length
  rw [← slice_congr (by omega) (by omega) (fun i h1 h2 => hsame i (.inr ⟨h1, by rw [Nat.add_mul, Nat.one_mul]; omega⟩))] at r1
  rw [← slice_congr (by omega) (by omega) (fun i h1 h2 => hsame i (.inl ⟨h1, h2⟩))] at r2
  obtain ⟨e, p, eq⟩ := open_backup (m := m1) (cfg := cfg) (d := d) (P := rebuiltB k B h) (ps := Spec.used s.partitions) (B := B)
    (oB := (B - k) * s.config.lbSize.usize) hf hp
    (by omega) rfl rfl (by rw [hlb]; show (UInt64.ofNat (B - k)).toNat * _ = _; rw [ofNat64 (by omega)]) rfl hs.sane.count w.room
    (fun p hp => used_isUsed hp) (by rw [hnb]; omega) (by omega) (by rw [hlb, hlen, hlen2]; exact hB)
    (by rw [hlb]; exact r1) r2 (by rw [hlb]; exact hinv) hv
  obtain ⟨s3, e3, l3, b1, b2, b3⟩ := rewrite_restores (m := m) (d := { d with pos := p }) (cfg := cfg) (h1 := .error e)
    (h2 := .ok ((rebuiltB k B h).sealed (crc32 (tableBytes (Spec.used s.partitions) h.numParts.toNat))))
    (H := (rebuiltB k B h).sealed (crc32 (tableBytes (Spec.used s.partitions) h.numParts.toNat))) m2 hs hok hro hlen hlb hnames hf hw hcap
    rfl (Written.saneBackup hs _) rfl
  refine ⟨_, _, s3, eq, e3, l3, ?_, fun i h1 h2 => b3 i h1 fun _ => h2⟩
  intro i hi
  by_cases hc : InPrimary s.config.lbSize h.numParts.toNat i
  · exact b1 i hc
  · have hi := hi.resolve_left hc
    cases hcr : cfg.readonlyBackup with
    | false => exact b2 i hcr hi
    | true =>
      rw [b3 i hc (fun h => by rw [hcr] at h; cases h)]
      exact hsame i hi

/-- **C97**, damage to the primary copy only: the device is again, byte for byte, what was written. -/
theorem c97_primary_restored (m m1 m2 : Mode) (s s' : GptDisk) (h : Header) (k B : Nat) (cfg : GptConfig) (d : Dev)
    (hs : SaneDisk s h k B) (hok : writeInplace m s = (.ok (), s')) (hro : s.config.readonlyBackup = false)
    (hB : s.device.data.length / s.config.lbSize.usize = B + 1)
    (hlen : d.data.length = s'.device.data.length)
    (hsame : ∀ i, ¬ InPrimary s.config.lbSize h.numParts.toNat i → byteAt d.data i = byteAt s'.device.data i)
    (hinv : ¬ PrimaryValid s.config.lbSize d.data) (hf : d.faults = []) (hp : d.pos < 2 ^ 64)
    (hlb : cfg.lbSize = s.config.lbSize) (hv : cfg.onlyValidHeaders = false) (hw : cfg.writable = true)
    (hcap : (B + 1) * cfg.lbSize.usize ≤ d.cap) (hnames : ∀ p ∈ Spec.used s.partitions, Clean p.name.toList) :
    ∃ s2 d2 s3, openFromDevice m1 cfg d = (.ok s2, d2) ∧ writeInplace m2 s2 = (.ok (), s3) ∧
      s3.device.data = s'.device.data := by
  have g := geo_sane hs.sane hs.fits s.config
  obtain ⟨-, hkB⟩ := sane_bounds hs.sane
  have q1 : 2 * s.config.lbSize.usize + h.numParts.toNat * 128 ≤ (B - k) * s.config.lbSize.usize := g.sep
  have q2 : (B - k) * s.config.lbSize.usize ≤ B * s.config.lbSize.usize := Nat.mul_le_mul_right _ (by omega)
  obtain ⟨s2, d2, s3, e2, e3, l3, b1, b2⟩ := c97_from_backup m m1 m2 s s' h k B cfg d hs hok hro hB hlen
    (fun i hi => hsame i fun hc => by unfold InPrimary at hc; unfold InBackup at hi; omega) hinv hf hp hlb hv hw hcap hnames
  refine ⟨s2, d2, s3, e2, e3, bytes_ext l3 fun i _ => ?_⟩
  by_cases hc : InPrimary s.config.lbSize h.numParts.toNat i ∨ InBackup s.config.lbSize h.numParts.toNat k B i
  · exact b1 i hc
  · rw [not_or] at hc
    rw [b2 i hc.1 hc.2]
    exact hsame i hc.1

/-- **C97**, the backup copy destroyed. After a successful write of both copies, anything may happen outside the primary header
block and array. Opening the device writable and writing succeeds, and both copies have again the bytes that were written (if the
backup is written: `readonly_backup` off); every byte outside the copies is as it was found. -/
theorem c97_from_primary (m m1 m2 : Mode) (s s' : GptDisk) (h : Header) (k B : Nat) (cfg : GptConfig) (d : Dev)
    (hs : SaneDisk s h k B) (hok : writeInplace m s = (.ok (), s')) (hro : s.config.readonlyBackup = false)
    (hlen : d.data.length = s'.device.data.length)
    (hsame : ∀ i, InPrimary s.config.lbSize h.numParts.toNat i → byteAt d.data i = byteAt s'.device.data i)
    (hf : d.faults = []) (hp : d.pos < 2 ^ 64)
    (hlb : cfg.lbSize = s.config.lbSize) (hv : cfg.onlyValidHeaders = false) (hw : cfg.writable = true)
    (hcr : cfg.readonlyBackup = false)
    (hcap : (B + 1) * cfg.lbSize.usize ≤ d.cap) (hnames : ∀ p ∈ Spec.used s.partitions, Clean p.name.toList) :
    ∃ s2 d2 s3, openFromDevice m1 cfg d = (.ok s2, d2) ∧ writeInplace m2 s2 = (.ok (), s3) ∧
      s3.device.data.length = s'.device.data.length ∧
      (∀ i, InPrimary s.config.lbSize h.numParts.toNat i ∨ InBackup s.config.lbSize h.numParts.toNat k B i →
        byteAt s3.device.data i = byteAt s'.device.data i) ∧
      (∀ i, ¬ InPrimary s.config.lbSize h.numParts.toNat i → ¬ InBackup s.config.lbSize h.numParts.toNat k B i →
        byteAt s3.device.data i = byteAt d.data i) := by
  have w := write_ok hs hok
  have r := w.regions hs
  have g := geo_sane hs.sane hs.fits s.config
  have q1 := g.sep
  have q2 := g.sepB
  have q3 := g.fits
  have hn : (rebuiltP k B h).numParts = h.numParts := rfl
  rw [hn] at q1 q2
  have hlen1 := hs.length
  have hlen2 := w.length
  have r1 := r.head
  have r2 := r.array
  rw [← slice_congr (by omega) (by omega) (fun i h1 h2 => hsame i ⟨h1, by omega⟩)] at r1
  rw [← slice_congr (by omega) (by omega) (fun i h1 h2 => hsame i ⟨by omega, h2⟩)] at r2
  obtain ⟨h2, p, -, eq⟩ := open_primary (m := m1) (cfg := cfg) (d := d) (P := rebuiltP k B h) (ps := Spec.used s.partitions) hf hp
    (by omega) rfl rfl rfl rfl hs.sane.count w.room (fun p hp => used_isUsed hp) (by rw [hlb, hn]; omega) (by rw [hlb]; exact r1)
    (by rw [hlb]; exact r2) (fun hc => by rw [hv] at hc; cases hc)
  obtain ⟨s3, e3, l3, b1, b2, b3⟩ := rewrite_restores (m := m) (d := { d with pos := p }) (cfg := cfg)
    (h1 := .ok ((rebuiltP k B h).sealed (crc32 (tableBytes (Spec.used s.partitions) h.numParts.toNat)))) (h2 := h2)
    (H := (rebuiltP k B h).sealed (crc32 (tableBytes (Spec.used s.partitions) h.numParts.toNat))) m2 hs hok hro hlen hlb hnames hf hw hcap
    rfl (w.sane hs _) rfl
  exact ⟨_, _, s3, eq, e3, l3, fun i hi => hi.elim (b1 i) (b2 i hcr), fun i h1 h2 => b3 i h1 fun _ => h2⟩

/-- **C97**, damage to the backup copy only: the device is again, byte for byte, what was written. -/
theorem c97_backup_restored (m m1 m2 : Mode) (s s' : GptDisk) (h : Header) (k B : Nat) (cfg : GptConfig) (d : Dev)
    (hs : SaneDisk s h k B) (hok : writeInplace m s = (.ok (), s')) (hro : s.config.readonlyBackup = false)
    (hlen : d.data.length = s'.device.data.length)
    (hsame : ∀ i, ¬ InBackup s.config.lbSize h.numParts.toNat k B i → byteAt d.data i = byteAt s'.device.data i)
    (hf : d.faults = []) (hp : d.pos < 2 ^ 64)
    (hlb : cfg.lbSize = s.config.lbSize) (hv : cfg.onlyValidHeaders = false) (hw : cfg.writable = true)
    (hcr : cfg.readonlyBackup = false)
    (hcap : (B + 1) * cfg.lbSize.usize ≤ d.cap) (hnames : ∀ p ∈ Spec.used s.partitions, Clean p.name.toList) :
    ∃ s2 d2 s3, openFromDevice m1 cfg d = (.ok s2, d2) ∧ writeInplace m2 s2 = (.ok (), s3) ∧
      s3.device.data = s'.device.data := by
  have g := geo_sane hs.sane hs.fits s.config
  obtain ⟨-, hkB⟩ := sane_bounds hs.sane
  have q1 : 2 * s.config.lbSize.usize + h.numParts.toNat * 128 ≤ (B - k) * s.config.lbSize.usize := g.sep
  have q2 : (B - k) * s.config.lbSize.usize ≤ B * s.config.lbSize.usize := Nat.mul_le_mul_right _ (by omega)
  obtain ⟨s2, d2, s3, e2, e3, l3, b1, b2⟩ := c97_from_primary m m1 m2 s s' h k B cfg d hs hok hro hlen
    (fun i hi => hsame i fun hc => by unfold InPrimary at hi; unfold InBackup at hc; omega) hf hp hlb hv hw hcr hcap hnames
  refine ⟨s2, d2, s3, e2, e3, bytes_ext l3 fun i _ => ?_⟩
  by_cases hc : InPrimary s.config.lbSize h.numParts.toNat i ∨ InBackup s.config.lbSize h.numParts.toNat k B i
  · exact b1 i hc
  · rw [not_or] at hc
    rw [b2 i hc.1 hc.2]
    exact hsame i hc.2

/-- **C97**, the limit: damage to the primary array alone, with the primary header left valid, is not repaired. However intact the
backup copy is, opening refuses the device when the checksum of the array is wrong. -/
theorem c97_array_refused (m m1 : Mode) (s s' : GptDisk) (h : Header) (k B : Nat) (cfg : GptConfig) (d : Dev)
    (hs : SaneDisk s h k B) (hok : writeInplace m s = (.ok (), s')) (hlen : d.data.length = s'.device.data.length)
    (hsame : ∀ i, s.config.lbSize.usize ≤ i → i < 2 * s.config.lbSize.usize → byteAt d.data i = byteAt s'.device.data i)
    (hsum : crc32 (slice d.data (2 * s.config.lbSize.usize) (h.numParts.toNat * 128)) ≠
      crc32 (slice s'.device.data (2 * s.config.lbSize.usize) (h.numParts.toNat * 128)))
    (hf : d.faults = []) (hp : d.pos < 2 ^ 64) (he : m1 = .release ∨ d.data.length < 2 ^ 38)
    (hlb : cfg.lbSize = s.config.lbSize) (hv : cfg.onlyValidHeaders = true → BackupValid cfg.lbSize d.data) :
    (openFromDevice m1 cfg d).1 = .err (.io (.other "partition table CRC mismatch")) := by
  have w := write_ok hs hok
  have r := w.regions hs
  have g := geo_sane hs.sane hs.fits s.config
  have q1 := g.sep
  have q2 := g.sepB
  have q3 := g.fits
  have hn : (rebuiltP k B h).numParts = h.numParts := rfl
  rw [hn] at q1 q2
  have hlen1 := hs.length
  have hlen2 := w.length
  have r1 := r.head
  rw [← slice_congr (by omega) (by omega) (fun i h1 h2 => hsame i h1 (by omega))] at r1
  have hread := read_block (h := rebuiltP k B h) rfl rfl (by omega) r1
  obtain ⟨v1, v2⟩ := ((readHeaderAt_spec _ _).1 _).mp hread
  rw [r.array] at hsum
  have hg : Governs cfg d.data ((rebuiltP k B h).sealed (crc32 (tableBytes (Spec.used s.partitions) h.numParts.toNat))) := by
    refine .inl ⟨?_, ?_, hv⟩
    · rw [hlb]; exact v1
    · rw [hlb]; exact v2
  have h1 := (open_value (m := m1) (cfg := cfg) hf hp (by omega) he).1 _ hg
  have e2 : (2 : UInt64).toNat = 2 := rfl
  have hs2 : ((rebuiltP k B h).sealed (crc32 (tableBytes (Spec.used s.partitions) h.numParts.toNat))).partStart.toNat = 2 := rfl
  have hn2 : ((rebuiltP k B h).sealed (crc32 (tableBytes (Spec.used s.partitions) h.numParts.toNat))).numParts = h.numParts := rfl
  have : arrayResult ((rebuiltP k B h).sealed (crc32 (tableBytes (Spec.used s.partitions) h.numParts.toNat))) cfg.lbSize d.data =
      .err (.other "partition table CRC mismatch") := by
    unfold arrayResult
    rw [hs2, hn2, hlb, if_neg (by omega), if_neg (fun hc => hc rfl), if_neg (by omega), if_pos]
    rw [Nat.mul_comm 128]
    exact hsum
  rw [this] at h1
  exact h1

theorem smallDisk_clean : ∀ p ∈ Spec.used (smallDisk [(1, smallPart)]).partitions, Clean p.name.toList := by
  intro p hp
  have hu : Spec.used (smallDisk [(1, smallPart)]).partitions = [smallPart] := by decide
  rw [hu, List.mem_singleton] at hp
  subst hp
  exact clean_of_storable ⟨by decide, by decide⟩

/-- The first 600 bytes of the primary structures of the written small disk, among them the signature, are overwritten by `z`;
opening and writing brings the written bytes back. -/
example (m m1 m2 : Mode) (z : Bytes) (hz : z.length = 600) (hbad : z.take 8 ≠ Spec.signature) :
    ∃ s' s2 d2 s3, writeInplace m (smallDisk [(1, smallPart)]) = (.ok (), s') ∧
    openFromDevice m1 (GptConfig.new.setWritable true) ⟨patch s'.device.data 512 z, 0, 5120, [], []⟩ = (.ok s2, d2) ∧
    writeInplace m2 s2 = (.ok (), s3) ∧ s3.device.data = s'.device.data := by
  obtain ⟨s', hw, hlen, hl⟩ := smallDisk_written m [(1, smallPart)] (by decide)
  have hpl : (patch s'.device.data 512 z).length = 5120 := by rw [patch_length]; omega
  obtain ⟨s2, d2, s3, e⟩ := c97_primary_restored m m1 m2 (smallDisk [(1, smallPart)]) s' smallHeader 1 9
    (GptConfig.new.setWritable true) ⟨patch s'.device.data 512 z, 0, 5120, [], []⟩ (smallDisk_sane _) hw rfl (by rw [hl]; rfl)
    (by rw [hlen]; exact hpl) (fun i hi => byteAt_patch_outside (by
      have hi : ¬ (512 ≤ i ∧ i < 2 * 512 + 4 * 128) := hi
      omega)) (fun hv => by
      have := hv.signature
      rw [show (smallDisk [(1, smallPart)]).config.lbSize.usize = 512 from rfl] at this
      refine hbad (Eq.trans (Eq.symm ?_) this)
      refine slice_eq_of_byteAt (by show 512 + 8 ≤ (patch _ _ _).length; omega) (by rw [List.length_take]; omega) fun i hi => ?_
      rw [byteAt_patch_inside (by omega) (by omega), byteAt_take, if_pos hi, Nat.add_sub_cancel_left])
    rfl (by show 0 < 2 ^ 64; decide) rfl rfl rfl (by show 10 * 512 ≤ 5120; decide) smallDisk_clean
  exact ⟨s', s2, d2, s3, hw, e⟩

/-- The primary array of the written small disk is replaced by `z`, of another checksum. -/
example (m m1 : Mode) (z : Bytes) (hz : z.length = 512)
    (hne : ∀ s', writeInplace m (smallDisk [(1, smallPart)]) = (.ok (), s') → crc32 z ≠ crc32 (slice s'.device.data 1024 512)) :
    ∃ s', writeInplace m (smallDisk [(1, smallPart)]) = (.ok (), s') ∧
    (openFromDevice m1 GptConfig.new ⟨patch s'.device.data 1024 z, 0, 5120, [], []⟩).1 =
      .err (.io (.other "partition table CRC mismatch")) := by
  obtain ⟨s', hw, hlen, hl⟩ := smallDisk_written m [(1, smallPart)] (by decide)
  have hpl : (patch s'.device.data 1024 z).length = 5120 := by rw [patch_length]; omega
  refine ⟨s', hw, c97_array_refused m m1 (smallDisk [(1, smallPart)]) s' smallHeader 1 9 GptConfig.new
    ⟨patch s'.device.data 1024 z, 0, 5120, [], []⟩ (smallDisk_sane _) hw (by rw [hlen]; exact hpl)
    (fun i h1 h2 => byteAt_patch_outside (.inl h2)) ?_ rfl (by show 0 < 2 ^ 64; decide)
    (.inr (by show (patch _ _ _).length < _; omega)) rfl (fun hc => by cases hc)⟩
  have e : slice (patch s'.device.data 1024 z) 1024 512 = z := by
    have := slice_patch_self s'.device.data 1024 z
    rwa [hz] at this
  show crc32 (slice (patch s'.device.data 1024 z) 1024 512) ≠ crc32 (slice s'.device.data 1024 512)
  rw [e]
  exact hne s' hw

/-- The last block of the written small disk, the backup header, is overwritten by anything. -/
example (m m1 m2 : Mode) (z : Bytes) (hz : z.length = 512) :
    ∃ s' s2 d2 s3, writeInplace m (smallDisk [(1, smallPart)]) = (.ok (), s') ∧
    openFromDevice m1 (GptConfig.new.setWritable true) ⟨patch s'.device.data (9 * 512) z, 0, 5120, [], []⟩ = (.ok s2, d2) ∧
    writeInplace m2 s2 = (.ok (), s3) ∧ s3.device.data = s'.device.data := by
  obtain ⟨s', hw, hlen, hl⟩ := smallDisk_written m [(1, smallPart)] (by decide)
  obtain ⟨s2, d2, s3, e⟩ := c97_backup_restored m m1 m2 (smallDisk [(1, smallPart)]) s' smallHeader 1 9
    (GptConfig.new.setWritable true) ⟨patch s'.device.data (9 * 512) z, 0, 5120, [], []⟩ (smallDisk_sane _) hw rfl
    (by show (patch _ _ _).length = _; rw [patch_length]; omega) (fun i hi => byteAt_patch_outside (by
      have hi : ¬ (((9 - 1) * 512 ≤ i ∧ i < (9 - 1) * 512 + 4 * 128) ∨ (9 * 512 ≤ i ∧ i < (9 + 1) * 512)) := hi
      omega))
    rfl (by show 0 < 2 ^ 64; decide) rfl rfl rfl rfl (by show 10 * 512 ≤ 5120; decide) smallDisk_clean
  exact ⟨s', s2, d2, s3, hw, e⟩

end Gpt
