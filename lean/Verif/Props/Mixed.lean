import Verif.Props.Crash
import Verif.Props.Rewrite
/-!
# An interrupted update shows the old table or the new one: C68
-/

namespace Gpt

open Spec GptDisk

/-! ## Torn header blocks -/

theorem validAt_slice {data : Bytes} {off : Nat} (hv : ValidAt data off) : ValidAt (slice data off 92) 0 := by
  have hf := hv.fits
  have hl : (slice data off 92).length = 92 := by rw [slice_length]; omega
  obtain ⟨h, hh⟩ := validAt_header hv
  have hr : readHeaderAt data off = .ok h := ((readHeaderAt_spec _ _).1 h).mpr ⟨hv, hh⟩
  rw [readHeaderAt_ok] at hr
  have : readHeaderAt (slice data off 92) 0 = .ok h := by
    rw [readHeaderAt_ok]
    refine ⟨by omega, ?_⟩
    rw [← hr.2]
    congr 1
    refine slice_eq_of_byteAt (by omega) hl fun i hi => ?_
    rw [Nat.zero_add]
  exact (((readHeaderAt_spec _ _).1 h).mp this).1

/-- The first `c` bytes of a header replaced by those of another header with the same fields up to the two checksums: if the
result is a valid header, it is one of the two. -/
theorem torn_header {old final d : Bytes} {off c : Nat} (vo : ValidAt old off) (vf : ValidAt final off) (vd : ValidAt d off)
    (hsame : ∀ i, i < 16 ∨ (20 ≤ i ∧ i < 88) → byteAt final (off + i) = byteAt old (off + i))
    (ht : ∀ i, i < 92 → byteAt d (off + i) = if i < c then byteAt final (off + i) else byteAt old (off + i)) :
    (∀ i, i < 92 → byteAt d (off + i) = byteAt old (off + i)) ∨ (∀ i, i < 92 → byteAt d (off + i) = byteAt final (off + i)) := by
  have key : ∀ {a : Bytes} (k : Nat), ValidAt a off → (k + 4 ≤ 16 ∨ k = 16 ∨ 20 ≤ k) →
      (∀ i, i < 92 → (i < k ∨ k + 4 ≤ i) → byteAt d (off + i) = byteAt a (off + i)) →
      ∀ i, i < 92 → byteAt d (off + i) = byteAt a (off + i) := by
    intro a k va hk hout i hi
    by_contra hne
    refine c08_corruption (slice a off 92) (slice d off 92) 0 k (validAt_slice va)
      (by have := va.fits; have := vd.fits; rw [slice_length, slice_length]; omega) hk ?_ ⟨i, by omega, by omega, ?_⟩ (validAt_slice vd)
    · intro j hj
      rw [byteAt_slice, byteAt_slice]
      split
      · exact hout j (by assumption) (by omega)
      · rfl
    · rw [byteAt_slice, byteAt_slice, if_pos hi, if_pos hi]
      exact hne
  by_cases hc : c ≤ 88
  · refine .inl (key 16 vo (by omega) fun i hi ho => ?_)
    rw [ht i hi]
    split
    · exact hsame i (by omega)
    · rfl
  · refine .inr (key 88 vf (by omega) fun i hi ho => ?_)
    rw [ht i hi, if_pos (by omega)]

theorem byteAt_block_same (h : Header) (hs : h.signature.length = 8) (p q : UInt32) (lb : LbSize) (i : Nat)
    (hi : i < 16 ∨ (20 ≤ i ∧ i < 88) ∨ 92 ≤ i) : byteAt (h.block p lb) i = byteAt (h.block q lb) i := by
  have e : ∀ c, (h.fieldBytes c).length = 92 := fun c => Header.fieldBytes_length hs c
  unfold Header.block
  rw [byteAt_resize, byteAt_resize]
  split
  · have o : ∀ c, byteAt (h.encode c) i = byteAt (h.fieldBytes c) i := by
      intro c
      unfold Header.encode
      rw [byteAt_patch_outside]
      rw [le32_length]
      omega
    rw [o, o]
    have hs' : ∀ c, h.fieldBytes c = (h.fieldBytes 0).take 88 ++ le32 c := by
      intro c
      unfold Header.fieldBytes
      rw [List.take_left' (by simp [hs])]
    rw [hs' p, hs' q, byteAt_append, byteAt_append]
    have hl : ((h.fieldBytes 0).take 88).length = 88 := by rw [List.length_take, e]; rfl
    rw [hl]
    split
    · rfl
    · rw [byteAt_of_length_le (by rw [le32_length]; omega), byteAt_of_length_le (by rw [le32_length]; omega)]
  · rfl

/-- Two contents of an area that differ but have the same CRC-32. -/
def Spec.Collision (a b : Bytes) : Prop := a ≠ b ∧ crc32 a = crc32 b

/-- The primary header block comes last. -/
theorem mem_order_head {lb k B n u c : Nat} {backup : Bool} (h1 : 2 * lb ≤ (B - k) * lb) (h2 : 2 * lb ≤ B * lb) :
    ∃ c', ∀ i, i < lb → (lb + i ∈ (writeOrder lb k B n u backup).take c ↔ i < c') := by
  unfold writeOrder
  generalize hP : (List.range u).flatMap (fun j => span (2 * lb + 128 * j) 128 ++
    if backup then span ((B - k) * lb + 128 * j) 128 else []) ++ span (2 * lb + 128 * u) (128 * (n - u)) ++
    (if backup then span ((B - k) * lb + 128 * u) (128 * (n - u)) ++ span (B * lb) lb else []) = P
  have hge : ∀ x ∈ P, 2 * lb ≤ x := by
    intro x hx
    subst hP
    simp only [List.mem_append, List.mem_flatMap, List.mem_range, span, List.mem_range'_1] at hx
    rcases hx with (⟨j, -, hx | hx⟩ | hx) | hx
    · omega
    · split at hx
      · rw [List.mem_range'_1] at hx; omega
      · cases hx
    · omega
    · split at hx
      · simp only [List.mem_append, List.mem_range'_1] at hx; omega
      · cases hx
  refine ⟨c - P.length, fun i hi => ?_⟩
  rw [List.take_append, List.mem_append]
  constructor
  · rintro (hx | hx)
    · have := hge _ (List.mem_of_mem_take hx)
      omega
    · obtain ⟨j, hj, e⟩ := List.mem_iff_getElem.mp hx
      rw [List.length_take] at hj
      rw [List.getElem_take, List.getElem_range'] at e
      omega
  · intro hx
    right
    refine List.mem_iff_getElem.mpr ⟨i, by rw [List.length_take, List.length_range']; omega, ?_⟩
    rw [List.getElem_take, List.getElem_range']
    omega

section
variable {m m' m'' : Mode} {s s1 s2 : GptDisk} {h : Header} {k B : Nat} {cfg : GptConfig} {d : Dev}

/-- What opening finds after an interrupted update of a written disk. -/
theorem update_cut (hs : SaneDisk s h k B) (hw1 : writeInplace m s = (.ok (), s1))
    (hro : s.config.readonlyBackup = false) (hB : s.device.data.length / s.config.lbSize.usize = B + 1)
    (hh : s2.header (ε := Empty) = s1.header) (hc : s2.config = s1.config) (hd2 : s2.device.data = s1.device.data)
    (hroom : (Spec.used s2.partitions).length ≤ h.numParts.toNat)
    (hd : d.data = (writeInplace m' s2).2.device.data) (hf : d.faults = []) (hp : d.pos < 2 ^ 64)
    (hlb : cfg.lbSize = s.config.lbSize) (ho : cfg.onlyValidHeaders = false) :
    (∃ s3 d3, openFromDevice m'' cfg d = (.ok s3, d3) ∧ s3.guid = h.diskGuid ∧
      (Numbered (Spec.used s.partitions) s3.partitions ∨ Numbered (Spec.used s2.partitions) s3.partitions ∨
        Collision (slice d.data (2 * s.config.lbSize.usize) (h.numParts.toNat * 128))
          (slice s1.device.data (2 * s.config.lbSize.usize) (h.numParts.toNat * 128))) ∧
      (slice d.data s.config.lbSize.usize s.config.lbSize.usize = slice s1.device.data s.config.lbSize.usize s.config.lbSize.usize →
        crc32 (slice d.data (2 * s.config.lbSize.usize) (h.numParts.toNat * 128)) =
          crc32 (slice s1.device.data (2 * s.config.lbSize.usize) (h.numParts.toNat * 128)))) ∨
    ((openFromDevice m'' cfg d).1 = .err (.io (.other "partition table CRC mismatch")) ∧
      slice d.data s.config.lbSize.usize s.config.lbSize.usize = slice s1.device.data s.config.lbSize.usize s.config.lbSize.usize ∧
      crc32 (slice d.data (2 * s.config.lbSize.usize) (h.numParts.toNat * 128)) ≠
        crc32 (slice s1.device.data (2 * s.config.lbSize.usize) (h.numParts.toNat * 128))) := by
  have w := write_ok hs hw1
  have r := w.regions hs
  have g := geo_sane hs.sane hs.fits s.config
  have hsep := g.sep
  have hsepB := g.sepB
  have hcount := hs.sane.count
  have hs1 := w.saneDisk hs
  have hs2 : SaneDisk s2 ((rebuiltP k B h).sealed (Gpt.crc32 (tableBytes (Spec.used s.partitions) h.numParts.toNat))) k B := by
    refine ⟨hh.trans hs1.header, ?_, ?_, ?_⟩
    · rw [hc]; exact hs1.sane
    · rw [hc, hd2]; exact hs1.fits
    · rw [hd2]; exact hs1.length
  have hroom1 := w.room
  have hlen1 := w.length
  have hlen := hs.length
  have hcfg : s2.config = s.config := hc.trans w.rest.config
  have hpos := lb_le s.config.lbSize
  have hlend : d.data.length = s.device.data.length := by rw [hd, write_length m' hs2, hd2, hlen1]
  have hnp : (rebuiltP k B h).numParts = h.numParts := rfl
  rw [hnp] at hsep hsepB
  have hfits := g.fits
  have hl1 : s1.device.data.length = d.data.length := by omega
  by_cases hhead : ∀ i, s.config.lbSize.usize ≤ i → i < 2 * s.config.lbSize.usize → byteAt d.data i = byteAt s1.device.data i
  · have hblk : slice d.data s.config.lbSize.usize s.config.lbSize.usize =
        slice s1.device.data s.config.lbSize.usize s.config.lbSize.usize :=
      slice_congr (by omega) (by omega) fun i h1 h2 => hhead i h1 (by omega)
    by_cases harr : slice d.data (2 * s.config.lbSize.usize) (h.numParts.toNat * 128) =
        slice s1.device.data (2 * s.config.lbSize.usize) (h.numParts.toNat * 128)
    · obtain ⟨h2, p, -, e⟩ := open_primary (m := m'') (cfg := cfg) (d := d) (P := rebuiltP k B h) (ps := Spec.used s.partitions) hf hp
        (by omega) rfl rfl rfl rfl hcount w.room (fun p hp => used_isUsed hp) (by rw [hlb, hnp]; omega)
        (by rw [hlb, hblk]; exact r.head) (by rw [hlb]; exact harr.trans r.array) (fun hv => by rw [ho] at hv; cases hv)
      exact .inl ⟨_, _, e, rfl, .inl (numbered_numberFrom (by omega)), fun _ => by rw [harr]⟩
    · have hread := read_block (h := rebuiltP k B h) (data := d.data) rfl rfl (by omega) (hblk.trans r.head)
      obtain ⟨h1, h2, e1, e2, e3⟩ := openFromDevice_nil m'' cfg hf hp (by omega)
      rw [← hlb, ← e1, ofExcept_ok] at hread
      have hsel : selectHeader cfg.onlyValidHeaders h1 h2 =
          .ok ((rebuiltP k B h).sealed (crc32 (tableBytes (Spec.used s.partitions) h.numParts.toNat))) := by
        rw [select_spec.1, ho, hread]
        exact .inl ⟨rfl, by simp⟩
      have e2' : (2 : UInt64).toNat = 2 := rfl
      obtain ⟨p, e⟩ := fileReadPartitions_nil (m := m'') (h := (rebuiltP k B h).sealed (crc32 (tableBytes (Spec.used s.partitions) h.numParts.toNat)))
        (lb := cfg.lbSize) hf (by show (2 : UInt64).toNat * _ < _; rw [hlb, e2']; omega) rfl
        (by show (2 : UInt64).toNat * _ + 128 * h.numParts.toNat ≤ _; rw [hlb, e2']; omega) (.inr (by show h.numParts.toNat < _; omega))
      change fileReadPartitions m'' _ cfg.lbSize d = (if crc32 (slice d.data ((2 : UInt64).toNat * _) (128 * h.numParts.toNat)) =
        crc32 (tableBytes (Spec.used s.partitions) h.numParts.toNat) then _ else _, _) at e
      rw [hlb, e2', Nat.mul_comm 128, ← r.array] at e
      rw [e3, hsel]
      simp only
      unfold openRest
      rw [hlb]
      by_cases hcrc : crc32 (slice d.data (2 * s.config.lbSize.usize) (h.numParts.toNat * 128)) =
          crc32 (slice s1.device.data (2 * s.config.lbSize.usize) (h.numParts.toNat * 128))
      · rw [if_pos hcrc, r.array] at e
        simp only [M.bind_apply, M.mapErr_apply, e, M.get_apply, M.pure_apply]
        exact .inl ⟨_, _, rfl, rfl, .inr (.inr ⟨harr, hcrc⟩), fun _ => hcrc⟩
      · rw [if_neg hcrc, r.array] at e
        refine .inr ⟨?_, hblk, hcrc⟩
        rw [M.bind_apply, M.mapErr_apply, e]
        rfl
  · left
    push Not at hhead
    obtain ⟨sd, hsd⟩ := undisturbed_writes m' hs2 (by rw [hcfg]; exact w.writable) hroom
    have wd := write_ok (undisturbed_sane hs2) hsd
    have rd := wd.regions (undisturbed_sane hs2)
    have hnew := c42_new_partial m' m'' s2 sd _ k B cfg d hs2 hsd hd hf hp (by rw [hcfg]; exact hlb) ho
      (by rw [hlb, hd2]; exact hhead)
    have hblock : (∀ i, cfg.lbSize.usize ≤ i → i < 2 * cfg.lbSize.usize → byteAt d.data i = byteAt sd.device.data i) ∨
        ¬ PrimaryValid cfg.lbSize d.data := by
      by_cases hv : PrimaryValid cfg.lbSize d.data
      · left
        obtain ⟨c, -, hcut⟩ := c65_only m' m' s2 sd _ k B hs2 hsd
        rw [← hd, hd2, hcfg] at hcut
        obtain ⟨c', hc'⟩ := mem_order_head (lb := s.config.lbSize.usize) (k := k) (B := B) (n := h.numParts.toNat)
          (u := (Spec.used s2.partitions).length) (c := c) (backup := !s.config.readonlyBackup) (by omega) (by omega)
        have rdh : slice sd.device.data s.config.lbSize.usize s.config.lbSize.usize =
            (rebuiltP k B h).block (crc32 (tableBytes (Spec.used s2.partitions) h.numParts.toNat)) s.config.lbSize := by
          have := rd.head
          rw [show (undisturbed s2).config = s.config from hcfg] at this
          exact this
        have hls : sd.device.data.length = d.data.length := by
          have := wd.length
          have : (undisturbed s2).device.data.length = s1.device.data.length := by rw [← hd2]; rfl
          omega
        have vo := (((readHeaderAt_spec _ _).1 _).mp (read_block (h := rebuiltP k B h) (data := s1.device.data) rfl rfl (by omega) r.head)).1
        have vf := (((readHeaderAt_spec _ _).1 _).mp (read_block (h := rebuiltP k B h) (data := sd.device.data) rfl rfl (by omega) rdh)).1
        rw [PrimaryValid, hlb] at hv
        have hby : ∀ {data : Bytes} {c : UInt32}, slice data s.config.lbSize.usize s.config.lbSize.usize =
            (rebuiltP k B h).block c s.config.lbSize → ∀ i, i < s.config.lbSize.usize →
            byteAt data (s.config.lbSize.usize + i) = byteAt ((rebuiltP k B h).block c s.config.lbSize) i := by
          intro data c e i hi
          rw [← e, byteAt_slice, if_pos hi]
        have hsame : ∀ i, i < s.config.lbSize.usize → i < 16 ∨ (20 ≤ i ∧ i < 88) ∨ 92 ≤ i →
            byteAt sd.device.data (s.config.lbSize.usize + i) = byteAt s1.device.data (s.config.lbSize.usize + i) := by
          intro i hi ho
          rw [hby rdh i hi, hby r.head i hi]
          exact byteAt_block_same _ rfl _ _ _ _ ho
        have htorn : ∀ i, i < s.config.lbSize.usize → byteAt d.data (s.config.lbSize.usize + i) =
            if i < c' then byteAt sd.device.data (s.config.lbSize.usize + i) else byteAt s1.device.data (s.config.lbSize.usize + i) := by
          intro i hi
          rw [hcut]
          exact if_congr (hc' i hi) rfl rfl
        rcases torn_header vo vf hv (fun i hi => hsame i (by omega) (by omega)) (fun i hi => htorn i (by omega)) with hall | hall
        · exfalso
          obtain ⟨i, i1, i2, i3⟩ := hhead
          obtain ⟨j, rfl⟩ := Nat.exists_eq_add_of_le i1
          by_cases hj : j < 92
          · exact i3 (hall j hj)
          · rw [htorn j (by omega), hsame j (by omega) (by omega)] at i3
            exact i3 (ite_self _)
        · intro i i1 i2
          rw [hlb] at i1 i2
          obtain ⟨j, rfl⟩ := Nat.exists_eq_add_of_le i1
          by_cases hj : j < 92
          · exact hall j hj
          · rw [htorn j (by omega), hsame j (by omega) (by omega)]
            exact ite_self _
      · exact .inr hv
    obtain ⟨s3, d3, e, hn, hg⟩ := hnew (hblock.imp (fun a => a) fun a => ⟨a, by rw [hcfg]; exact hro, by rw [hcfg, hd2, hlen1]; exact hB⟩)
    refine ⟨s3, d3, e, hg, .inr (.inl hn), fun hsl => ?_⟩
    obtain ⟨i, i1, i2, i3⟩ := hhead
    exfalso
    have := congrArg (fun l => byteAt l (i - s.config.lbSize.usize)) hsl
    simp only [byteAt_slice, if_pos (show i - s.config.lbSize.usize < s.config.lbSize.usize by omega), Nat.add_sub_cancel' i1] at this
    exact i3 this

end

/-- Whatever opens with some configuration opens with the lenient one. -/
theorem open_lenient {m : Mode} {cfg : GptConfig} {d d' : Dev} {s : GptDisk} (hopen : openFromDevice m cfg d = (.ok s, d')) :
    ∃ s', openFromDevice m { cfg with onlyValidHeaders := false } d = (.ok s', d') ∧ s'.partitions = s.partitions := by
  obtain ⟨h1, h2, e1, e2, e3⟩ := openFromDevice_any m cfg d
  obtain ⟨k1, k2, f1, f2, f3⟩ := openFromDevice_any m { cfg with onlyValidHeaders := false } d
  have inj : ∀ {x y : Except HeaderError Header}, Res.ofExcept x = Res.ofExcept y → x = y := by
    intro x y h
    cases x <;> cases y <;> simp [Res.ofExcept] at h <;> rw [h]
  obtain rfl := inj (f1.trans e1.symm)
  obtain rfl := inj (f2.trans e2.symm)
  rw [hopen] at e3
  rw [f3]
  rcases hx : selectHeader cfg.onlyValidHeaders k1 k2 with _ | x
  · rw [hx] at e3; cases e3
  · rw [hx] at e3
    have hsel : selectHeader false k1 k2 = .ok x := by
      rw [select_spec.1] at hx ⊢
      rcases hx with hx | hx
      · exact .inl ⟨hx.1, by simp⟩
      · exact .inr ⟨rfl, hx.2⟩
    rw [hsel]
    obtain ⟨h3, -⟩ := openRest_ok e3.symm
    refine ⟨⟨{ cfg with onlyValidHeaders := false }, d', x.diskGuid, k1, k2, s.partitions, false⟩, ?_, rfl⟩
    show openRest m _ k1 k2 x _ = _
    unfold openRest
    simp only [M.bind_apply, M.mapErr_apply, h3, M.get_apply, M.pure_apply]
    rfl

/-! ## C68 -/

/-- `s` has been written and is `s1` now, with a backup in the last block. `s2` is `s1` with any other table that fits, on any device
with the same content. The write of `s2` came to any end, and `d` is what is left on the device. -/
structure Spec.CutUpdate (m m' : Mode) (s s1 s2 : GptDisk) (h : Header) (k B : Nat) (d : Dev) : Prop where
  sane : SaneDisk s h k B
  written : writeInplace m s = (.ok (), s1)
  backup : s.config.readonlyBackup = false
  last : s.device.data.length / s.config.lbSize.usize = B + 1
  header : s2.header (ε := Empty) = s1.header
  config : s2.config = s1.config
  content : s2.device.data = s1.device.data
  room : (Spec.used s2.partitions).length ≤ h.numParts.toNat
  left : d.data = (writeInplace m' s2).2.device.data
  faults : d.faults = []
  pos : d.pos < 2 ^ 64

/-- The full statement of C68: if the device can be opened after an interrupted update, its table is the old one or the new one. -/
def C68 : Prop :=
  ∀ (m m' m'' : Mode) (s s1 s2 s3 : GptDisk) (h : Header) (k B : Nat) (cfg : GptConfig) (d d3 : Dev),
    CutUpdate m m' s s1 s2 h k B d → cfg.lbSize = s.config.lbSize → openFromDevice m'' cfg d = (.ok s3, d3) →
    Numbered (Spec.used s.partitions) s3.partitions ∨ Numbered (Spec.used s2.partitions) s3.partitions

/-- **C68** but for checksum collisions. If the device can be opened after an interrupted update (with any configuration), its table is
the old one, or the new one, or the primary array on the device differs from the old one but has the same CRC-32. In particular a
half-written primary header is never taken for a header with a third content. -/
theorem c68_partial (m m' m'' : Mode) (s s1 s2 s3 : GptDisk) (h : Header) (k B : Nat) (cfg : GptConfig) (d d3 : Dev)
    (hu : CutUpdate m m' s s1 s2 h k B d) (hlb : cfg.lbSize = s.config.lbSize)
    (hopen : openFromDevice m'' cfg d = (.ok s3, d3)) :
    Numbered (Spec.used s.partitions) s3.partitions ∨ Numbered (Spec.used s2.partitions) s3.partitions ∨
      Collision (slice d.data (2 * s.config.lbSize.usize) (h.numParts.toNat * 128))
        (slice s1.device.data (2 * s.config.lbSize.usize) (h.numParts.toNat * 128)) := by
  obtain ⟨s', hopen', ht⟩ := open_lenient hopen
  rcases update_cut (m'' := m'') (cfg := { cfg with onlyValidHeaders := false }) hu.sane hu.written hu.backup hu.last hu.header
    hu.config hu.content hu.room hu.left hu.faults hu.pos hlb rfl with ⟨s4, d4, e, -, hn, -⟩ | ⟨e, -⟩
  · rw [hopen'] at e
    cases e
    rw [← ht]
    exact hn
  · rw [hopen'] at e
    cases e

/-- **C68**, the other outcomes. After an interrupted update a lenient open either succeeds, and finds the same disk GUID, or fails
because the primary array does not have its checksum; there is no panic and no other error. -/
theorem c68_outcomes (m m' m'' : Mode) (s s1 s2 : GptDisk) (h : Header) (k B : Nat) (cfg : GptConfig) (d : Dev)
    (hu : CutUpdate m m' s s1 s2 h k B d) (hlb : cfg.lbSize = s.config.lbSize) (ho : cfg.onlyValidHeaders = false) :
    (∃ s3 d3, openFromDevice m'' cfg d = (.ok s3, d3) ∧ s3.guid = h.diskGuid) ∨
      (openFromDevice m'' cfg d).1 = .err (.io (.other "partition table CRC mismatch")) := by
  rcases update_cut (m'' := m'') (cfg := cfg) hu.sane hu.written hu.backup hu.last hu.header
    hu.config hu.content hu.room hu.left hu.faults hu.pos hlb ho with ⟨s4, d4, e, hg, -⟩ | ⟨e, -⟩
  · exact .inl ⟨s4, d4, e, hg⟩
  · exact .inr e

/-- **C68** and **C42** for an update, exactly: after an interrupted update a lenient open fails if and only if the primary header block
is still the old one and the primary array no longer has the checksum of the old one. Once the primary header is being written, every
cut opens. -/
theorem c68_exact (m m' m'' : Mode) (s s1 s2 : GptDisk) (h : Header) (k B : Nat) (cfg : GptConfig) (d : Dev)
    (hu : CutUpdate m m' s s1 s2 h k B d) (hlb : cfg.lbSize = s.config.lbSize) (ho : cfg.onlyValidHeaders = false) :
    (∃ s3 d3, openFromDevice m'' cfg d = (.ok s3, d3)) ↔
      ¬ (slice d.data s.config.lbSize.usize s.config.lbSize.usize = slice s1.device.data s.config.lbSize.usize s.config.lbSize.usize ∧
        crc32 (slice d.data (2 * s.config.lbSize.usize) (h.numParts.toNat * 128)) ≠
          crc32 (slice s1.device.data (2 * s.config.lbSize.usize) (h.numParts.toNat * 128))) := by
  rcases update_cut (m'' := m'') (cfg := cfg) hu.sane hu.written hu.backup hu.last hu.header
    hu.config hu.content hu.room hu.left hu.faults hu.pos hlb ho with ⟨s4, d4, e, -, -, hi⟩ | ⟨e, h1, h2⟩
  · exact ⟨fun _ hn => hn.2 (hi hn.1), fun _ => ⟨s4, d4, e⟩⟩
  · refine ⟨?_, fun hn => absurd ⟨h1, h2⟩ hn⟩
    rintro ⟨s3, d3, e'⟩
    rw [e'] at e
    cases e

/-- The partition of the small disk with another GUID, chosen such that the entries have the same CRC-32: the GUIDs differ by the
generator polynomial. -/
def twinPart : Partition := { smallPart with partGuid := ⟨5, 6, 7, 0x410671DB01000008⟩ }

theorem twin_crc : crc32 (tableBytes [twinPart, smallPart] 4) = crc32 (tableBytes [smallPart, smallPart] 4) := by decide +kernel

/-- C68 fails: two partitions are changed and the write is interrupted after the first entry. The device then opens with the new first
and the old second partition. -/
theorem c68_fails : ¬ C68 := by
  intro hc
  obtain ⟨s1, hw1, hl1, hl0⟩ := smallDisk_written .debug [(1, smallPart), (2, smallPart)] (by decide)
  have w1 := write_ok (smallDisk_sane _) hw1
  have r1 := w1.regions (smallDisk_sane _)
  have hs1 := w1.saneDisk (smallDisk_sane _)
  let s : GptDisk := { s1 with partitions := [(1, twinPart), (2, flaggedPart)] }
  have hs : SaneDisk s _ 1 9 := ⟨hs1.header, hs1.sane, hs1.fits, hs1.length⟩
  have hcfg : s.config = (smallDisk []).config := w1.rest.config
  obtain ⟨sd, hd⟩ := undisturbed_writes .debug hs (by rw [hcfg]; rfl) (by show 2 ≤ 4; decide)
  obtain ⟨fs, e, s', hw2, hcut⟩ := c65_all .debug .debug s sd _ 1 9 hs hd
    (by rw [hcfg]; show 10 * 512 ≤ s1.device.cap; rw [w1.cap]; show 10 * 512 ≤ 5120; decide) 128
  have rd := (write_ok (undisturbed_sane hs) hd).regions (undisturbed_sane hs)
  rw [hcfg] at hcut
  have harr := rd.array
  rw [show (undisturbed s).config = (smallDisk []).config from hcfg] at harr
  change slice sd.device.data 1024 512 = tableBytes [twinPart, flaggedPart] 4 at harr
  have harr1 := r1.array
  change slice s1.device.data 1024 512 = tableBytes [smallPart, smallPart] 4 at harr1
  have hhead1 := r1.head
  change slice s1.device.data 512 512 = (rebuiltP 1 9 smallHeader).block (crc32 (tableBytes [smallPart, smallPart] 4)) .lb512 at hhead1
  have hmem : ∀ i, i ∈ (writeOrder 512 1 9 4 2 true).take 128 ↔ 1024 ≤ i ∧ i < 1152 := by
    intro i
    have : (writeOrder 512 1 9 4 2 true).take 128 = span 1024 128 := by
      unfold writeOrder
      simp only [List.append_assoc, show List.range 2 = [0, 1] from rfl, List.flatMap_cons, List.flatMap_nil, List.append_nil]
      exact List.take_left' (by unfold span; simp)
    rw [this]
    unfold span
    rw [List.mem_range'_1]
  have hb : ∀ i, byteAt s'.device.data i = if 1024 ≤ i ∧ i < 1152 then byteAt sd.device.data i else byteAt s1.device.data i := by
    intro i
    have := hcut.bytes i
    change _ = if i ∈ (writeOrder 512 1 9 4 2 true).take 128 then _ else _ at this
    rw [this]
    exact if_congr (hmem i) rfl rfl
  have hsl : s'.device.data.length = 5120 := by rw [hcut.length]; exact hl1
  have hmixed : slice s'.device.data 1024 512 = tableBytes [twinPart, smallPart] 4 := by
    refine slice_eq_of_byteAt (by omega) (tableBytes_length (by decide)) fun i hi => ?_
    have e1 := byteAt_slice sd.device.data 1024 512 i
    have e2 := byteAt_slice s1.device.data 1024 512 i
    rw [if_pos hi] at e1 e2
    rw [harr] at e1
    rw [harr1] at e2
    rw [hb, ← e1, ← e2]
    unfold tableBytes
    simp only [List.flatMap_cons, List.append_assoc]
    by_cases h128 : i < 128
    · rw [if_pos (by omega), byteAt_append (twinPart.asBytes 128), byteAt_append (twinPart.asBytes 128), asBytes128_length,
        if_pos h128, if_pos h128]
    · rw [if_neg (by omega), byteAt_append (smallPart.asBytes 128), byteAt_append (twinPart.asBytes 128), asBytes128_length,
        asBytes128_length, if_neg h128, if_neg h128]
      rfl
  have hblk : slice s'.device.data 512 512 = (rebuiltP 1 9 smallHeader).block (crc32 (tableBytes [twinPart, smallPart] 4)) .lb512 := by
    rw [twin_crc, ← hhead1]
    exact slice_congr (by omega) (by omega) fun i h1 h2 => by rw [hb, if_neg (by omega)]
  obtain ⟨h2, p, -, hopen⟩ := open_primary (m := .debug) (cfg := GptConfig.new) (d := ⟨s'.device.data, 0, 5120, [], []⟩)
    (P := rebuiltP 1 9 smallHeader) (ps := [twinPart, smallPart]) rfl (by show 0 < 2 ^ 64; decide)
    (by show s'.device.data.length < 2 ^ 64; omega) rfl rfl rfl rfl (by show 4 * 128 < _; decide) (by show 2 ≤ 4; decide)
    (by
      intro p hp
      rw [List.mem_cons, List.mem_singleton] at hp
      rcases hp with rfl | rfl <;> rfl) (by show 2 * 512 + 4 * 128 ≤ s'.device.data.length; omega) hblk hmixed (fun hv => by cases hv)
  have hdiv : (smallDisk [(1, smallPart), (2, smallPart)]).device.data.length / (smallDisk [(1, smallPart), (2, smallPart)]).config.lbSize.usize = 9 + 1 := by rw [hl0]; rfl
  have hf : _ ∨ _ := hc .debug .debug .debug (smallDisk [(1, smallPart), (2, smallPart)]) s1 { s with device := { s.device with faults := fs } } _ smallHeader 1 9
    GptConfig.new ⟨s'.device.data, 0, 5120, [], []⟩ _
    ⟨smallDisk_sane _, hw1, rfl, hdiv, rfl, rfl, rfl, by show 2 ≤ 4; decide,
      by rw [hw2], rfl, by show 0 < 2 ^ 64; decide⟩ rfl hopen
  have hn : Numbered [twinPart, smallPart] (numberFrom 0 [twinPart, smallPart]) := numbered_numberFrom (by decide)
  rcases hf with hf | hf
  · obtain ⟨k, q, h1, -, h3⟩ := hf.entries 0 (by show 0 < 2; decide)
    obtain ⟨k', q', h1', -, h3'⟩ := hn.entries 0 (by show 0 < 2; decide)
    cases (Option.some.inj (h1'.symm.trans h1))
    exact absurd (h3'.guid.symm.trans h3.guid) (by decide)
  · obtain ⟨k, q, h1, -, h3⟩ := hf.entries 1 (by show 1 < 2; decide)
    obtain ⟨k', q', h1', -, h3'⟩ := hn.entries 1 (by show 1 < 2; decide)
    cases (Option.some.inj (h1'.symm.trans h1))
    exact absurd (h3'.flags.symm.trans h3.flags) (by show ¬ smallPart.flags = flaggedPart.flags; decide)

/-- The hypotheses of `c68_partial` are met, and the new table is found: the small disk is written, a flag is changed, and the second
write is not interrupted at all. -/
example (m : Mode) : ∃ s1 s2 d s3 d3, CutUpdate m m (smallDisk [(1, smallPart)]) s1 s2 smallHeader 1 9 d ∧
    Spec.used s2.partitions = [flaggedPart] ∧ openFromDevice m GptConfig.new d = (.ok s3, d3) ∧ Numbered [flaggedPart] s3.partitions := by
  obtain ⟨s1, hw1, hl1, hl0⟩ := smallDisk_written m [(1, smallPart)] (by decide)
  have w1 := write_ok (smallDisk_sane _) hw1
  have hs1 := w1.saneDisk (smallDisk_sane _)
  let s : GptDisk := { s1 with partitions := [(1, flaggedPart)] }
  have hs : SaneDisk s _ 1 9 := ⟨hs1.header, hs1.sane, hs1.fits, hs1.length⟩
  have hcfg : s.config = (smallDisk []).config := w1.rest.config
  obtain ⟨sd, hd⟩ := undisturbed_writes m hs (by rw [hcfg]; rfl) (by show 1 ≤ 4; decide)
  obtain ⟨s3, d3, h3, e, -, -, -, -, -, -, -, -, -, -, hn⟩ := c30_write_open m m (undisturbed s) sd _ 1 9 GptConfig.new
    ⟨sd.device.data, 0, 5120, [], []⟩ (undisturbed_sane hs) hd rfl rfl (by show 0 < 2 ^ 64; decide)
    (by rw [show (undisturbed s).config = (smallDisk []).config from hcfg]; rfl) (fun hc => by cases hc)
  have hdiv : (smallDisk [(1, smallPart)]).device.data.length / (smallDisk [(1, smallPart)]).config.lbSize.usize = 9 + 1 := by rw [hl0]; rfl
  refine ⟨s1, undisturbed s, _, s3, d3, ⟨smallDisk_sane _, hw1, rfl, ?_, rfl, rfl, rfl, ?_, ?_, rfl, ?_⟩, rfl, e, hn⟩
  · exact hdiv
  · show 1 ≤ 4
    decide
  · rw [hd]
  · show 0 < 2 ^ 64
    decide

end Gpt
