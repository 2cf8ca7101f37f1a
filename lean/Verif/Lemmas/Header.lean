import Verif.Lemmas.Crc
import Verif.Lemmas.Device
import Verif.Lemmas.Entry
/-!
# Header bytes: what is written and what is read
-/

namespace Gpt

namespace Header

/-- The header as the 92 bytes with a zero checksum; `fieldBytes` with the reserved word made explicit. -/
theorem fieldBytes_assoc (h : Header) (pc : UInt32) : h.fieldBytes pc =
    h.signature ++ (le16 h.revision.2 ++ (le16 h.revision.1 ++ (le32 h.headerSizeLe ++ (le32 0 ++ (le32 0 ++
    (le64 h.currentLba ++ (le64 h.backupLba ++ (le64 h.firstUsable ++ (le64 h.lastUsable ++ (h.diskGuid.toDisk ++
    (le64 h.partStart ++ (le32 h.numParts ++ (le32 h.partSize ++ le32 pc))))))))))))) := by
  simp only [fieldBytes, List.append_assoc]

theorem fieldBytes_length {h : Header} (hs : h.signature.length = 8) (pc : UInt32) : (h.fieldBytes pc).length = 92 := by
  simp [fieldBytes, hs]

/-- The 92 bytes that are stored. -/
def encode (h : Header) (pc : UInt32) : Bytes :=
  patch (h.fieldBytes pc) 16 (le32 (Gpt.crc32 (h.fieldBytes pc)))

theorem encode_length {h : Header} (hs : h.signature.length = 8) (pc : UInt32) : (h.encode pc).length = 92 := by
  rw [encode, patch_length, fieldBytes_length hs]; simp

/-- The header with its two checksums. -/
def sealed (h : Header) (pc : UInt32) : Header :=
  { h with crc32Parts := pc, crc32 := Gpt.crc32 (h.fieldBytes pc) }

theorem toBytes_eq {ε : Type} {h : Header} (hs : h.signature.length = 8) (pc : UInt32) :
    (h.toBytes pc : Res ε _) = .ok (16, h.fieldBytes pc) := by
  have hl := fieldBytes_length hs pc
  rw [toBytes, if_pos (by omega), hs, resize_of_length hl]

theorem fieldBytes_congr {h k : Header} (pc : UInt32) (h1 : h = { k with crc32 := h.crc32, crc32Parts := h.crc32Parts, reserved := h.reserved }) :
    h.fieldBytes pc = k.fieldBytes pc := by
  rw [h1]; rfl

section
variable {h : Header} (hs : h.signature.length = 8) (pc : UInt32)
include hs

theorem sl_sig : slice (h.fieldBytes pc) 0 8 = h.signature := by
  rw [fieldBytes_assoc]; exact slice_head hs
theorem sl_rev2 : slice (h.fieldBytes pc) 8 2 = le16 h.revision.2 := by
  rw [fieldBytes_assoc]
  simp only [slice_skip, hs, le16_length, Nat.le_refl]
  exact slice_head (by simp)
theorem sl_rev1 : slice (h.fieldBytes pc) 10 2 = le16 h.revision.1 := by
  rw [fieldBytes_assoc, slice_skip (by simp [hs]), slice_skip (by simp [hs]), hs]; exact slice_head (by simp)
theorem sl_size : slice (h.fieldBytes pc) 12 4 = le32 h.headerSizeLe := by
  rw [fieldBytes_assoc, slice_skip (by simp [hs]), slice_skip (by simp [hs]), slice_skip (by simp [hs]), hs]
  exact slice_head (by simp)
theorem sl_crc : slice (h.fieldBytes pc) 16 4 = le32 0 := by
  rw [fieldBytes_assoc, slice_skip (by simp [hs]), slice_skip (by simp [hs]), slice_skip (by simp [hs]),
    slice_skip (by simp [hs]), hs]
  exact slice_head (by simp)
theorem sl_res : slice (h.fieldBytes pc) 20 4 = le32 0 := by
  rw [fieldBytes_assoc]
  iterate 5 rw [slice_skip (by simp [hs])]
  rw [hs]
  exact slice_head (by simp)
theorem sl_cur : slice (h.fieldBytes pc) 24 8 = le64 h.currentLba := by
  rw [fieldBytes_assoc]
  iterate 6 rw [slice_skip (by simp [hs])]
  rw [hs]
  exact slice_head (by simp)
theorem sl_bak : slice (h.fieldBytes pc) 32 8 = le64 h.backupLba := by
  rw [fieldBytes_assoc]
  iterate 7 rw [slice_skip (by simp [hs])]
  rw [hs]
  exact slice_head (by simp)
theorem sl_first : slice (h.fieldBytes pc) 40 8 = le64 h.firstUsable := by
  rw [fieldBytes_assoc]
  iterate 8 rw [slice_skip (by simp [hs])]
  rw [hs]
  exact slice_head (by simp)
theorem sl_last : slice (h.fieldBytes pc) 48 8 = le64 h.lastUsable := by
  rw [fieldBytes_assoc]
  iterate 9 rw [slice_skip (by simp [hs])]
  rw [hs]
  exact slice_head (by simp)
theorem sl_guid : slice (h.fieldBytes pc) 56 16 = h.diskGuid.toDisk := by
  rw [fieldBytes_assoc]
  iterate 10 rw [slice_skip (by simp [hs])]
  rw [hs]
  exact slice_head (by simp)
theorem sl_start : slice (h.fieldBytes pc) 72 8 = le64 h.partStart := by
  rw [fieldBytes_assoc]
  iterate 11 rw [slice_skip (by simp [hs])]
  rw [hs]
  exact slice_head (by simp)
theorem sl_num : slice (h.fieldBytes pc) 80 4 = le32 h.numParts := by
  rw [fieldBytes_assoc]
  iterate 12 rw [slice_skip (by simp [hs])]
  rw [hs]
  exact slice_head (by simp)
theorem sl_psize : slice (h.fieldBytes pc) 84 4 = le32 h.partSize := by
  rw [fieldBytes_assoc]
  iterate 13 rw [slice_skip (by simp [hs])]
  rw [hs]
  exact slice_head (by simp)
theorem sl_pcrc : slice (h.fieldBytes pc) 88 4 = le32 pc := by
  rw [fieldBytes_assoc]
  iterate 14 rw [slice_skip (by simp [hs])]
  rw [hs]
  exact slice_zero_length (by simp)

/-- Storing the checksum leaves the other fields. -/
theorem slice_encode {a n : Nat} (hd : a + n ≤ 16 ∨ 20 ≤ a) (hb : a + n ≤ 92) :
    slice (h.encode pc) a n = slice (h.fieldBytes pc) a n := by
  have hl := fieldBytes_length hs pc
  have hl' := encode_length hs pc
  refine slice_congr (by omega) (by omega) fun i h1 h2 => ?_
  rw [encode, byteAt_patch_outside]
  simp only [le32_length]; omega

theorem slice_encode_crc : slice (h.encode pc) 16 4 = le32 (Gpt.crc32 (h.fieldBytes pc)) := by
  have := slice_patch_self (h.fieldBytes pc) 16 (le32 (Gpt.crc32 (h.fieldBytes pc)))
  rwa [le32_length] at this

/-- Zeroing the checksum again gives the bytes it was computed over. -/
theorem zeroed_encode : patch (h.encode pc) 16 (zeros 4) = h.fieldBytes pc := by
  have hl := fieldBytes_length hs pc
  have hl' := encode_length hs pc
  refine bytes_ext (by rw [patch_length, hl, hl']; simp) fun i hi => ?_
  rw [byteAt_patch]
  simp only [zeros_length]
  split
  · rename_i hr
    have := sl_crc hs pc
    have hb := byteAt_slice (h.fieldBytes pc) 16 4 (i - 16)
    rw [this, if_pos (by omega), show 16 + (i - 16) = i by omega] at hb
    rw [← hb]
    rw [byteAt_zeros]
    have h4 : i - 16 < 4 := by omega
    have : ∀ j, j < 4 → (0 : UInt8) = byteAt (le32 0) j := by decide
    exact this _ h4
  · rename_i hr
    rw [encode, byteAt_patch_outside]
    simp only [le32_length]; omega

theorem headerOfBytes_encode : headerOfBytes (h.encode pc) = { h.sealed pc with reserved := 0 } := by
  have e1 := slice_encode hs pc (a := 0) (n := 8) (by omega) (by omega)
  rw [sl_sig hs] at e1
  have e2 := rd16_eq ((slice_encode hs pc (a := 8) (n := 2) (by omega) (by omega)).trans (sl_rev2 hs pc))
  have e3 := rd16_eq ((slice_encode hs pc (a := 10) (n := 2) (by omega) (by omega)).trans (sl_rev1 hs pc))
  have e4 := rd32_eq ((slice_encode hs pc (a := 12) (n := 4) (by omega) (by omega)).trans (sl_size hs pc))
  have e5 := rd32_eq (slice_encode_crc hs pc)
  have e6 := rd32_eq ((slice_encode hs pc (a := 20) (n := 4) (by omega) (by omega)).trans (sl_res hs pc))
  have e7 := rd64_eq ((slice_encode hs pc (a := 24) (n := 8) (by omega) (by omega)).trans (sl_cur hs pc))
  have e8 := rd64_eq ((slice_encode hs pc (a := 32) (n := 8) (by omega) (by omega)).trans (sl_bak hs pc))
  have e9 := rd64_eq ((slice_encode hs pc (a := 40) (n := 8) (by omega) (by omega)).trans (sl_first hs pc))
  have e10 := rd64_eq ((slice_encode hs pc (a := 48) (n := 8) (by omega) (by omega)).trans (sl_last hs pc))
  have e11 := ofDisk_of_slice ((slice_encode hs pc (a := 56) (n := 16) (by omega) (by omega)).trans (sl_guid hs pc))
  have e12 := rd64_eq ((slice_encode hs pc (a := 72) (n := 8) (by omega) (by omega)).trans (sl_start hs pc))
  have e13 := rd32_eq ((slice_encode hs pc (a := 80) (n := 4) (by omega) (by omega)).trans (sl_num hs pc))
  have e14 := rd32_eq ((slice_encode hs pc (a := 84) (n := 4) (by omega) (by omega)).trans (sl_psize hs pc))
  have e15 := rd32_eq ((slice_encode hs pc (a := 88) (n := 4) (by omega) (by omega)).trans (sl_pcrc hs pc))
  simp only [headerOfBytes, e1, e2, e3, e4, e5, e6, e7, e8, e9, e10, e11, e12, e13, e14, e15, sealed]

end

/-- Reading the stored bytes accepts them and gives the header back. -/
theorem parse_encode {h : Header} (hs : h.signature = efiPart) (pc : UInt32) :
    parseHeader (h.encode pc) = .ok { h.sealed pc with reserved := 0 } := by
  have hl : h.signature.length = 8 := by rw [hs]; rfl
  unfold parseHeader
  have e1 := slice_encode hl pc (a := 0) (n := 8) (by omega) (by omega)
  rw [sl_sig hl, hs] at e1
  rw [if_neg (by simp [e1]), zeroed_encode hl, headerOfBytes_encode hl]
  exact if_pos rfl

end Header

/-! ## Writing -/

theorem partentryChecksum_quiet (h : Header) (lb : LbSize) : M.Pres Dev.Quiet (partentryChecksum h lb) := by
  have C := Dev.quiet_chain
  unfold partentryChecksum
  refine M.Pres.bind C (M.Pres.lift C _) fun _ => ?_
  refine M.Pres.bind C (M.Pres.mapErr _ (Dev.seekStart_quiet _)) fun _ => ?_
  refine M.Pres.bind C (M.Pres.lift C _) fun _ => ?_
  refine M.Pres.bind C (M.Pres.lift C _) fun _ => ?_
  exact M.Pres.bind C (M.Pres.mapErr _ (Dev.readExact_quiet _)) fun _ => M.Pres.pure C _

/-- The partition array a header describes, as byte range on the device. -/
def Header.arrayStart (h : Header) (lb : LbSize) : Nat := h.partStart.toNat * lb.usize
/-- See `arrayStart`. -/
def Header.arrayLen (h : Header) : Nat := h.numParts.toNat * h.partSize.toNat

theorem vecOf_ok {ε : Type} {n : UInt64} {u : Unit} : (vecOf n : Res ε Unit) = .ok u ↔ n.toNat < 2 ^ 63 := by
  unfold vecOf
  split <;> simp [*]

theorem vecOf_pos {ε : Type} {n : UInt64} (h : n.toNat < 2 ^ 63) : (vecOf n : Res ε Unit) = .ok () := if_pos h

theorem toUInt64_mul_lt (a b : UInt32) : a.toUInt64.toNat * b.toUInt64.toNat < 2 ^ 64 := by
  rw [UInt32.toNat_toUInt64, UInt32.toNat_toUInt64]
  have ha := a.toNat_lt
  have hb := b.toNat_lt
  calc a.toNat * b.toNat ≤ (2 ^ 32 - 1) * (2 ^ 32 - 1) := Nat.mul_le_mul (by omega) (by omega)
    _ < 2 ^ 64 := by decide

theorem checkedMul64_u32 (a b : UInt32) : ∃ r, checkedMul64 a.toUInt64 b.toUInt64 = some r ∧ r.toNat = a.toNat * b.toNat := by
  refine ⟨a.toUInt64 * b.toUInt64, ?_, ?_⟩
  · unfold checkedMul64; rw [if_pos (toUInt64_mul_lt a b)]
  · rw [u64_mul_toNat (toUInt64_mul_lt a b), UInt32.toNat_toUInt64, UInt32.toNat_toUInt64]

theorem checkedMul64_lb {a : UInt64} {lb : LbSize} (h : a.toNat * lb.usize < 2 ^ 64) :
    ∃ r, checkedMul64 a lb.u64 = some r ∧ r.toNat = a.toNat * lb.usize := by
  refine ⟨a * lb.u64, ?_, ?_⟩
  · unfold checkedMul64; rw [if_pos (by rw [lb_u64_toNat]; exact h)]
  · rw [u64_mul_toNat (by rw [lb_u64_toNat]; exact h), lb_u64_toNat]

theorem partentryChecksum_ok {h : Header} {lb : LbSize} {c : UInt32} {d d' : Dev}
    (hr : partentryChecksum h lb d = (.ok c, d')) :
    c = crc32 (slice d.data (h.arrayStart lb) h.arrayLen) ∧ h.arrayStart lb < 2 ^ 64 ∧
    (h.arrayLen = 0 ∨ h.arrayStart lb + h.arrayLen ≤ d.data.length) := by
  unfold partentryChecksum at hr
  simp only [M.bind_ok, M.mapErr_ok, M.lift_ok, Res.ofOption_eq_ok, M.pure_ok] at hr
  obtain ⟨st, d1, ⟨h1, e1⟩, _, d2, h2, len, d3, ⟨h3, e3⟩, _, d3', ⟨_, e3'⟩, buf, d4, h4, h5, e5⟩ := hr
  subst e1 e3 e3' e5 h5
  obtain ⟨_, e2, _⟩ := Dev.seekStart_ok h2
  subst e2
  obtain ⟨h4a, _, _, _, _, h4b⟩ := Dev.readExact_ok h4
  rw [checkedMul64_some, lb_u64_toNat] at h1
  rw [checkedMul64_some, UInt32.toNat_toUInt64, UInt32.toNat_toUInt64] at h3
  simp only [h1.2, h3.2] at h4a h4b
  exact ⟨by rw [h4a]; rfl, h1.1, h4b⟩

theorem partentryChecksum_nil {h : Header} {lb : LbSize} {d : Dev} (hf : d.faults = []) (h1 : h.arrayStart lb < 2 ^ 64)
    (h0 : h.arrayLen < 2 ^ 63) (h2 : h.arrayStart lb + h.arrayLen ≤ d.data.length) :
    partentryChecksum h lb d = (.ok (crc32 (slice d.data (h.arrayStart lb) h.arrayLen)),
      { d with pos := h.arrayStart lb + h.arrayLen }) := by
  unfold partentryChecksum
  obtain ⟨st, e1, e1'⟩ := checkedMul64_lb (a := h.partStart) (lb := lb) h1
  obtain ⟨ln, e2, e2'⟩ := checkedMul64_u32 h.numParts h.partSize
  rw [e1, e2]
  simp only [M.bind_apply, M.lift_apply, Res.ofOption_some, M.mapErr_apply]
  rw [Dev.seekStart_nil hf]
  simp only [Res.mapErr_ok]
  rw [vecOf_pos (by rw [e2']; exact h0)]
  simp only
  rw [Dev.readExact_nil (by exact hf) (by simp only [e1', e2']; exact h2)]
  simp only [Res.mapErr_ok, M.pure_apply, e1', e2']
  rfl

/-- The block a header is stored in. -/
def Header.block (h : Header) (pc : UInt32) (lb : LbSize) : Bytes := resize (h.encode pc) lb.usize

@[simp] theorem Header.block_length (h : Header) (pc : UInt32) (lb : LbSize) : (h.block pc lb).length = lb.usize :=
  resize_length ..

theorem Header.block_ne_nil (h : Header) (pc : UInt32) (lb : LbSize) : h.block pc lb ≠ [] := by
  intro e
  have h1 := h.block_length pc lb
  have h2 := lb_pos lb
  rw [e] at h1
  simp at h1; omega

theorem Header.slice_block {h : Header} (hs : h.signature.length = 8) (pc : UInt32) (lb : LbSize) :
    slice (h.block pc lb) 0 92 = h.encode pc := by
  have hl := encode_length hs pc
  have h512 := lb_le lb
  refine slice_eq_of_byteAt (by rw [block_length]; omega) hl fun i hi => ?_
  rw [block, byteAt_resize, Nat.zero_add, if_pos (by omega)]

theorem Header.byteAt_block_tail {h : Header} (hs : h.signature.length = 8) (pc : UInt32) (lb : LbSize) {i : Nat} (hi : 92 ≤ i) :
    byteAt (h.block pc lb) i = 0 := by
  have hl := encode_length hs pc
  rw [block, byteAt_resize]
  split
  · exact byteAt_of_length_le (by omega)
  · rfl

namespace Header

/-- `fileWriteHeader` on the success path. -/
theorem fileWriteHeader_ok {lba : UInt64} {lb : LbSize} {h : Header} {d : Dev} {n : Nat} {s' : Header × Dev}
    (hs : h.signature.length = 8) (hr : fileWriteHeader lba lb (h, d) = (.ok n, s')) :
    let pc := Gpt.crc32 (slice d.data (h.arrayStart lb) h.arrayLen)
    n = lb.usize ∧ s'.1 = h.sealed pc ∧ s'.2.data = patch d.data (lba.toNat * lb.usize) (h.block pc lb) ∧
    s'.2.cap = d.cap ∧ lba.toNat * lb.usize + lb.usize ≤ d.cap ∧ lba.toNat * lb.usize < 2 ^ 64 ∧
    h.arrayStart lb < 2 ^ 64 ∧ (h.arrayLen = 0 ∨ h.arrayStart lb + h.arrayLen ≤ d.data.length) ∧
    s'.2.log = d.log ++ [.write (lba.toNat * lb.usize) (h.block pc lb)] := by
  intro pc
  unfold fileWriteHeader at hr
  simp only [M.bind_ok, M.get_ok, M.modify_ok, onDev, M.zoom_ok, M.mapErr_ok, M.lift_ok, Res.ofOption_eq_ok, M.pure_ok] at hr
  obtain ⟨a, s1, ⟨ha, hs1⟩, c, s2, ⟨d2, hc, hs2⟩, u, s3, hs3, a3, s4, ⟨ha3, hs4⟩, tb, s5, hr⟩ := hr
  subst ha hs1
  obtain ⟨cp, hb⟩ := tb
  obtain ⟨⟨htb, hs5⟩, u5, s6, hs6, st, s7, ⟨hst, hs7⟩, p, s8, ⟨d8, hp, hs8⟩, u9, s9, ⟨d9, hw, hs9⟩, hn, hs'⟩ := hr
  obtain ⟨e1, e2, e3⟩ := partentryChecksum_ok hc
  have hq := partentryChecksum_quiet h lb d
  simp only at hc hp
  rw [hc] at hq
  subst hs2 hs3 ha3 hs4 hs5 hs6 hs7
  simp only at htb hp hs8
  have hl' : ({ h with crc32Parts := c } : Header).signature.length = 8 := hs
  rw [toBytes_eq hl'] at htb
  simp only [Res.ok.injEq, Prod.mk.injEq] at htb
  obtain ⟨hcp, hhb⟩ := htb
  have hfb : ({ h with crc32Parts := c } : Header).fieldBytes c = h.fieldBytes c := rfl
  rw [hfb] at hhb
  subst hcp hhb
  obtain ⟨_, hp', _⟩ := Dev.seekStart_ok hp
  subst hs8
  simp only at hw
  obtain ⟨w1, w2, w3, w4, w5⟩ := Dev.writeAll_ok hw
  have hblock : resize (patch (h.fieldBytes c) 16 (le32 (Gpt.crc32 (h.fieldBytes c)))) lb.usize = h.block c lb := rfl
  rw [hblock] at w1 w2 w4 w5
  rw [checkedMul64_some, lb_u64_toNat] at hst
  subst hs9
  subst hs'
  subst hp'
  rw [Dev.put_data, if_neg (block_ne_nil _ _ _)] at w1
  simp only at w1 w3 w4
  have hcpc : c = pc := e1
  subst hcpc
  refine ⟨?_, rfl, ?_, ?_, ?_, hst.1, e2, e3, ?_⟩
  · rw [← hn]; simp
  · simp only
    rw [w1, hq.data, hst.2]
  · simp only; rw [w3]; exact hq.cap
  · rcases w4 with e | e
    · exact absurd e (block_ne_nil _ _ _)
    · rw [hst.2, block_length] at e; rw [hq.cap] at e; exact e
  · simp only
    rw [w5, Dev.put, if_neg (block_ne_nil _ _ _)]
    have := hq.log
    simp only at this
    simp only [this, hst.2]

/-- `fileWriteHeader` succeeds without faults when array and block lie on the device. -/
theorem fileWriteHeader_nil {lba : UInt64} {lb : LbSize} {h : Header} {d : Dev}
    (hs : h.signature.length = 8) (hf : d.faults = []) (h1 : h.arrayStart lb < 2 ^ 64) (h0 : h.arrayLen < 2 ^ 63)
    (h2 : h.arrayStart lb + h.arrayLen ≤ d.data.length) (h3 : lba.toNat * lb.usize < 2 ^ 64)
    (h4 : lba.toNat * lb.usize + lb.usize ≤ d.cap) :
    ∃ s', fileWriteHeader lba lb (h, d) = (.ok lb.usize, s') ∧ s'.2.faults = [] := by
  unfold fileWriteHeader onDev
  simp only [M.bind_apply, M.get_apply, M.zoom_apply, M.modify_apply, M.lift_apply, M.mapErr_apply]
  rw [partentryChecksum_nil hf h1 h0 h2]
  simp only
  rw [toBytes_eq (by exact hs)]
  obtain ⟨st, e1, e1'⟩ := checkedMul64_lb (a := lba) (lb := lb) h3
  rw [e1]
  simp only [Res.ofOption_some]
  rw [Dev.seekStart_nil (by exact hf)]
  simp only [Res.mapErr_ok]
  rw [Dev.writeAll_nil (by exact hf) (by simp only [resize_length, e1']; exact h4)]
  simp only [Res.mapErr_ok, M.pure_apply, resize_length]
  exact ⟨_, rfl, by simp only [Dev.put_faults]; exact hf⟩

theorem fileWriteHeader_noPanic {lba : UInt64} {lb : LbSize} {s : Header × Dev} (hs : s.1.signature.length = 8)
    (h0 : s.1.arrayLen < 2 ^ 63) :
    (fileWriteHeader lba lb s).1 ≠ .panic := by
  unfold fileWriteHeader onDev
  simp only [M.bind_apply, M.get_apply, M.zoom_apply, M.modify_apply, M.lift_apply, M.mapErr_apply]
  have hnp : (partentryChecksum s.1 lb s.2).1 ≠ .panic := by
    have : M.NoPanic (partentryChecksum s.1 lb) := by
      unfold partentryChecksum
      refine M.NoPanic.bind (M.NoPanic.lift (by simp)) fun _ => ?_
      refine M.NoPanic.bind (M.NoPanic.mapErr _ (Dev.seekStart_noPanic _)) fun _ => ?_
      refine M.NoPanic.bind_lift (by simp) fun l hl => ?_
      rw [Res.ofOption_eq_ok, checkedMul64_some, UInt32.toNat_toUInt64, UInt32.toNat_toUInt64] at hl
      refine M.NoPanic.bind (M.NoPanic.lift (by rw [vecOf_pos (by rw [hl.2]; exact h0)]; simp)) fun _ => ?_
      exact M.NoPanic.bind (M.NoPanic.mapErr _ (Dev.readExact_noPanic _)) fun _ => M.NoPanic.pure _
    exact this s.2
  rcases hx : partentryChecksum s.1 lb s.2 with ⟨r, d1⟩
  rw [hx] at hnp
  cases r with
  | panic => exact absurd rfl hnp
  | err e => simp
  | ok c =>
    simp only
    rw [toBytes_eq (by exact hs)]
    simp only
    cases checkedMul64 lba lb.u64 with
    | none => simp
    | some st =>
      simp only [Res.ofOption_some]
      have h1 := Dev.seekStart_noPanic st d1
      rcases hx2 : Dev.seekStart st d1 with ⟨r2, d2⟩
      rw [hx2] at h1
      cases r2 with
      | panic => exact absurd rfl h1
      | err e => simp
      | ok _ =>
        simp only [Res.mapErr_ok]
        generalize resize _ _ = blk
        have h2 := Dev.writeAll_noPanic blk d2
        rcases hx3 : Dev.writeAll blk d2 with ⟨r3, d3⟩
        rw [hx3] at h2
        cases r3 with
        | panic => exact absurd rfl h2
        | err e => simp
        | ok _ => simp

/-- In every outcome `fileWriteHeader` only moves the bytes of its block towards the new content. -/
theorem fileWriteHeader_toward {lba : UInt64} {lb : LbSize} {h : Header} {d : Dev} (hs : h.signature.length = 8) :
    Dev.Toward (fun i => lba.toNat * lb.usize ≤ i ∧ i < lba.toNat * lb.usize + lb.usize)
      (fun i => byteAt (h.block (Gpt.crc32 (slice d.data (h.arrayStart lb) h.arrayLen)) lb) (i - lba.toNat * lb.usize))
      d (fileWriteHeader lba lb (h, d)).2.2 := by
  have C := Dev.toward_chain (fun i => lba.toNat * lb.usize ≤ i ∧ i < lba.toNat * lb.usize + lb.usize)
      (fun i => byteAt (h.block (Gpt.crc32 (slice d.data (h.arrayStart lb) h.arrayLen)) lb) (i - lba.toNat * lb.usize))
  unfold fileWriteHeader onDev
  simp only [M.bind_apply, M.get_apply, M.zoom_apply, M.modify_apply, M.lift_apply, M.mapErr_apply]
  have hq := partentryChecksum_quiet h lb d
  rcases hc : partentryChecksum h lb d with ⟨r, d1⟩
  rw [hc] at hq
  cases r with
  | panic => exact hq.toward
  | err e => exact hq.toward
  | ok c =>
    obtain ⟨e1, _, _⟩ := partentryChecksum_ok hc
    simp only
    rw [toBytes_eq (by exact hs)]
    simp only
    cases hst : checkedMul64 lba lb.u64 with
    | none => simp only [Res.ofOption_none]; exact hq.toward
    | some st =>
      rw [checkedMul64_some, lb_u64_toNat] at hst
      simp only [Res.ofOption_some]
      have h1 := Dev.seekStart_quiet st d1
      rcases hp : Dev.seekStart st d1 with ⟨r2, d2⟩
      rw [hp] at h1
      cases r2 with
      | panic => exact (hq.trans h1).toward
      | err e => exact (hq.trans h1).toward
      | ok _ =>
        obtain ⟨_, hd2, _⟩ := Dev.seekStart_ok hp
        simp only [Res.mapErr_ok]
        have hblk : resize (patch (({ h with crc32Parts := c } : Header).fieldBytes c) 16
          (le32 (Gpt.crc32 (({ h with crc32Parts := c } : Header).fieldBytes c)))) lb.usize =
            h.block (Gpt.crc32 (slice d.data (h.arrayStart lb) h.arrayLen)) lb := by
          rw [← e1]; rfl
        rw [hblk]
        have hpos : d2.pos = lba.toNat * lb.usize := by rw [hd2]; exact hst.2
        have h2 := Dev.writeAll_toward (R := fun i => lba.toNat * lb.usize ≤ i ∧ i < lba.toNat * lb.usize + lb.usize)
          (tgt := fun i => byteAt (h.block (Gpt.crc32 (slice d.data (h.arrayStart lb) h.arrayLen)) lb) (i - lba.toNat * lb.usize))
          (bs := h.block (Gpt.crc32 (slice d.data (h.arrayStart lb) h.arrayLen)) lb) (d := d2) (fun i hi => by
            rw [block_length] at hi
            rw [hpos]
            exact ⟨⟨by omega, by omega⟩, by congr 1; omega⟩)
        have h3 := C.trans _ _ _ (hq.trans h1).toward h2
        revert h3
        generalize Dev.writeAll _ d2 = x
        intro h3
        rcases x with ⟨r3, d3⟩
        cases r3 <;> exact h3

end Header

/-! ## Reading -/

theorem fileReadHeader_quiet (off : UInt64) : M.Pres Dev.Quiet (fileReadHeader off) := by
  have C := Dev.quiet_chain
  unfold fileReadHeader
  refine M.Pres.bind C (M.Pres.attempt (Dev.seekStart_quiet _)) fun _ => ?_
  exact M.Pres.bind C (M.Pres.mapErr _ (Dev.readExact_quiet _)) fun _ => M.Pres.lift C _

theorem fileReadHeader_ok {off : UInt64} {d d' : Dev} {h : Header} (hn : d.nextFault = .none)
    (hr : fileReadHeader off d = (.ok h, d')) :
    parseHeader (slice d.data off.toNat 92) = .ok h ∧ off.toNat + 92 ≤ d.data.length := by
  unfold fileReadHeader at hr
  simp only [M.bind_ok, M.mapErr_ok, M.lift_ok] at hr
  obtain ⟨_, d1, h1, b, d2, h2, h3, _⟩ := hr
  have hd1 : d1 = { d with pos := off.toNat, faults := d.faults.tail } := by
    rw [M.attempt_apply] at h1
    unfold Dev.seekStart at h1
    rw [hn] at h1
    simp only [Prod.mk.injEq] at h1
    exact h1.2.symm
  subst hd1
  obtain ⟨e1, _, _, _, _, e2⟩ := Dev.readExact_ok h2
  subst e1
  exact ⟨h3, e2.resolve_left (by omega)⟩

theorem parseHeader_noPanic (b : Bytes) : parseHeader b ≠ .panic := by
  unfold parseHeader; split
  · simp
  · split <;> simp

theorem fileReadHeader_noPanic (off : UInt64) : M.NoPanic (fileReadHeader off) := by
  unfold fileReadHeader
  refine M.NoPanic.bind (M.NoPanic.attempt (Dev.seekStart_noPanic _)) fun _ => ?_
  exact M.NoPanic.bind (M.NoPanic.mapErr _ (Dev.readExact_noPanic _)) fun _ => M.NoPanic.lift (parseHeader_noPanic _)

/-- What a fault-free header read returns. -/
def readHeaderAt (data : Bytes) (off : Nat) : Res HeaderError Header :=
  if off + 92 ≤ data.length then parseHeader (slice data off 92) else .err (.io .unexpectedEof)

theorem fileReadHeader_nil {off : UInt64} {d : Dev} (hf : d.faults = []) :
    ∃ p, fileReadHeader off d = (readHeaderAt d.data off.toNat, { d with pos := p }) := by
  unfold fileReadHeader readHeaderAt
  simp only [M.bind_apply, M.attempt_apply, M.mapErr_apply]
  rw [Dev.seekStart_nil hf]
  simp only
  by_cases hl : off.toNat + 92 ≤ d.data.length
  · rw [Dev.readExact_nil (by exact hf) (by exact hl), if_pos hl]
    simp only [Res.mapErr_ok, M.lift_apply]
    exact ⟨_, rfl⟩
  · rw [Dev.readExact_nil_err (by exact hf) (by omega) (by exact hl), if_neg hl]
    simp only [Res.mapErr_err]
    exact ⟨_, rfl⟩

theorem readHeaderAt_ok {data : Bytes} {off : Nat} {h : Header} :
    readHeaderAt data off = .ok h ↔ off + 92 ≤ data.length ∧ parseHeader (slice data off 92) = .ok h := by
  unfold readHeaderAt
  split <;> simp_all

theorem readHeaderAt_noPanic (data : Bytes) (off : Nat) : readHeaderAt data off ≠ .panic := by
  unfold readHeaderAt
  split
  · exact parseHeader_noPanic _
  · simp

theorem parseHeader_signature {b : Bytes} {h : Header} (hp : parseHeader b = .ok h) : h.signature = efiPart := by
  unfold parseHeader at hp
  split at hp
  · simp at hp
  · rename_i h1
    split at hp
    · simp only [Res.ok.injEq] at hp
      rw [← hp]
      simpa [headerOfBytes] using h1
    · simp at hp

end Gpt
