import Verif.Model.Mbr
import Verif.Lemmas.Device
import Verif.Lemmas.Entry
/-!
# The protective MBR (C06, C07, C52, C53)

The statements speak about byte positions of the buffer or the device only.
-/

namespace Gpt

/-! ## C07: MBR partition records -/

namespace PartRecord

@[simp] theorem toBytes_length (p : PartRecord) : p.toBytes.length = 16 := by
  simp [toBytes]

theorem fromBytes_toBytes (p : PartRecord) : fromBytes p.toBytes = .ok p := by
  unfold fromBytes
  rw [if_neg (by simp)]
  congr 1
  have h8 : rd32 p.toBytes 8 = p.lbStart := rd32_eq (by
    rw [toBytes, List.append_assoc, slice_skip (by simp)]; exact slice_head (by simp))
  have h12 : rd32 p.toBytes 12 = p.lbSize := rd32_eq (by
    rw [toBytes, slice_skip (by simp)]; exact slice_zero_length (by simp))
  rw [h8, h12]
  cases p
  rfl

theorem toBytes_fromBytes {b : Bytes} {p : PartRecord} (h : fromBytes b = .ok p) : p.toBytes = b := by
  unfold fromBytes at h
  split at h
  · simp at h
  · rename_i hl
    simp only [Res.ok.injEq] at h
    subst h
    have hl : b.length = 16 := by omega
    simp only [toBytes]
    rw [show le32 (rd32 b 8) = slice b 8 4 from le32_ofNat_leVal (slice_length_of_le (by omega)),
      show le32 (rd32 b 12) = slice b 12 4 from le32_ofNat_leVal (slice_length_of_le (by omega))]
    match b, hl with
    | [a0, a1, a2, a3, a4, a5, a6, a7, a8, a9, a10, a11, a12, a13, a14, a15], _ => rfl

end PartRecord

/-- **C07** (accepted buffers): exactly the buffers of 16 bytes are accepted; all others give the length error. -/
theorem c07_accepts (b : Bytes) :
    ((∃ p, PartRecord.fromBytes b = .ok p) ↔ b.length = 16) ∧
    (b.length ≠ 16 → PartRecord.fromBytes b = .err .invalidPartitionLength) := by
  unfold PartRecord.fromBytes
  constructor
  · split <;> simp_all
  · intro h; rw [if_pos h]

/-- **C07** (read after write): a record written is read back unchanged. -/
theorem c07_read_write (p : PartRecord) : PartRecord.fromBytes p.toBytes = .ok p := PartRecord.fromBytes_toBytes p

/-- **C07** (write after read): a record read is written back as the same bytes. -/
theorem c07_write_read (b : Bytes) (p : PartRecord) (h : PartRecord.fromBytes b = .ok p) : p.toBytes = b :=
  PartRecord.toBytes_fromBytes h

/-- **C07** (layout): the start and size are the little-endian numbers at bytes 8 and 12, the type is byte 4. -/
theorem c07_layout (b : Bytes) (p : PartRecord) (h : PartRecord.fromBytes b = .ok p) :
    p.bootIndicator = byteAt b 0 ∧ p.osType = byteAt b 4 ∧
    p.lbStart.toNat = leVal (slice b 8 4) ∧ p.lbSize.toNat = leVal (slice b 12 4) := by
  unfold PartRecord.fromBytes at h
  split at h
  · simp at h
  · rename_i hl
    simp only [Res.ok.injEq] at h
    subst h
    have h1 := leVal_lt (slice b 8 4)
    have h2 := leVal_lt (slice b 12 4)
    rw [slice_length_of_le (by omega)] at h1 h2
    refine ⟨rd8_eq _ _, rd8_eq _ _, ?_, ?_⟩
    · simp only [rd32, UInt32.toNat_ofNat']; omega
    · simp only [rd32, UInt32.toNat_ofNat']; omega

/-- The protective record of a 2 GiB disk, byte by byte. -/
example : (PartRecord.newProtective (some 4194303)).toBytes =
    [0, 0, 2, 0, 0xEE, 0xFF, 0xFF, 0xFF, 1, 0, 0, 0, 0xFF, 0xFF, 0x3F, 0] := by decide

/-! ## C06: the MBR -/

namespace ProtectiveMbr

@[simp] theorem toBytes_length (m : ProtectiveMbr) : m.toBytes.length = 512 := by
  simp only [toBytes, List.length_append, m.bootcode.2, m.diskSignature.2, m.signature.2, le16_length,
    PartRecord.toBytes_length]

theorem readArr_ok {ε : Type} {b : Bytes} {off n : Nat} (h : off + n ≤ b.length) :
    (readArr b off n : Res ε (ByteArr n)) = .ok ⟨slice b off n, slice_length_of_le h⟩ := by
  unfold readArr
  rw [dif_pos (slice_length_of_le h)]

/-- `from_bytes` of a buffer of the right length, without the plumbing. -/
theorem fromBytes_of_length {buf : Bytes} {lb : LbSize} (hl : buf.length = lb.usize) :
    ∃ m, m.toBytes = slice buf 0 512 ∧ m.signature.1 = slice buf 510 2 ∧
      fromBytes buf lb = if slice buf 510 2 = mbrSignature then .ok m else .err .invalidMbrSignature := by
  have h512 := lb_le lb
  have hrec : ∀ off, off + 16 ≤ 512 → ∃ p, PartRecord.fromBytes (slice buf off 16) = .ok p ∧ p.toBytes = slice buf off 16 := by
    intro off hoff
    have hl16 : (slice buf off 16).length = 16 := slice_length_of_le (by omega)
    obtain ⟨p, hp⟩ := (c07_accepts (slice buf off 16)).1.mpr hl16
    exact ⟨p, hp, PartRecord.toBytes_fromBytes hp⟩
  obtain ⟨p0, h0, t0⟩ := hrec 446 (by omega)
  obtain ⟨p1, h1, t1⟩ := hrec 462 (by omega)
  obtain ⟨p2, h2, t2⟩ := hrec 478 (by omega)
  obtain ⟨p3, h3, t3⟩ := hrec 494 (by omega)
  refine ⟨⟨⟨slice buf 0 440, slice_length_of_le (by omega)⟩, ⟨slice buf 440 4, slice_length_of_le (by omega)⟩,
    rd16 buf 444, p0, p1, p2, p3, ⟨slice buf 510 2, slice_length_of_le (by omega)⟩⟩, ?_, rfl, ?_⟩
  · simp only [toBytes, t0, t1, t2, t3]
    rw [show le16 (rd16 buf 444) = slice buf 444 2 from le16_ofNat_leVal (slice_length_of_le (by omega))]
    rw [← slice_add, ← slice_add, ← slice_add, ← slice_add, ← slice_add, ← slice_add, ← slice_add]
  · unfold fromBytes
    rw [if_neg (by simpa using hl), readArr_ok (by omega), readArr_ok (by omega), readArr_ok (by omega), h0, h1, h2, h3]
    rfl

theorem fromBytes_toBytes {m : ProtectiveMbr} (hs : m.signature.1 = mbrSignature) : fromBytes m.toBytes .lb512 = .ok m := by
  have hsl : ∀ {a b : Bytes} {n : Nat} (_ : a.length = n), slice (a ++ b) 0 n = a := fun h => slice_head h
  have e : m.toBytes = m.bootcode.1 ++ (m.diskSignature.1 ++ (le16 m.unknown ++ (m.p0.toBytes ++ (m.p1.toBytes ++
      (m.p2.toBytes ++ (m.p3.toBytes ++ m.signature.1)))))) := by simp only [toBytes, List.append_assoc]
  have b0 := m.bootcode.2
  have b1 := m.diskSignature.2
  have b2 := m.signature.2
  have s0 : slice m.toBytes 0 440 = m.bootcode.1 := by rw [e]; exact slice_head b0
  have s1 : slice m.toBytes 440 4 = m.diskSignature.1 := by
    rw [e, slice_skip (by omega), b0]; exact slice_head b1
  have s2 : slice m.toBytes 444 2 = le16 m.unknown := by
    rw [e, slice_skip (by omega), b0, slice_skip (by omega), b1]; exact slice_head (by simp)
  have q0 : slice m.toBytes 446 16 = m.p0.toBytes := by
    rw [e, slice_skip (by omega), b0, slice_skip (by omega), b1, slice_skip (by simp)]; exact slice_head (by simp)
  have q1 : slice m.toBytes 462 16 = m.p1.toBytes := by
    rw [e, slice_skip (by omega), b0, slice_skip (by omega), b1, slice_skip (by simp), slice_skip (by simp)]
    exact slice_head (by simp)
  have q2 : slice m.toBytes 478 16 = m.p2.toBytes := by
    rw [e, slice_skip (by omega), b0, slice_skip (by omega), b1, slice_skip (by simp), slice_skip (by simp),
      slice_skip (by simp)]
    exact slice_head (by simp)
  have q3 : slice m.toBytes 494 16 = m.p3.toBytes := by
    rw [e, slice_skip (by omega), b0, slice_skip (by omega), b1, slice_skip (by simp), slice_skip (by simp),
      slice_skip (by simp), slice_skip (by simp)]
    exact slice_head (by simp)
  have s3 : slice m.toBytes 510 2 = m.signature.1 := by
    rw [e, slice_skip (by omega), b0, slice_skip (by omega), b1, slice_skip (by simp), slice_skip (by simp),
      slice_skip (by simp), slice_skip (by simp), slice_skip (by simp)]
    exact slice_zero_length b2
  have hl := m.toBytes_length
  unfold fromBytes
  rw [if_neg (by rw [hl]; decide), readArr_ok (by omega), readArr_ok (by omega), readArr_ok (by omega)]
  simp only [Res.ok_bind, q0, q1, q2, q3, PartRecord.fromBytes_toBytes, s0, s1, s3, rd16_eq s2, hs, if_true]
  cases m
  simp only [Res.pure_eq, Res.ok.injEq, ProtectiveMbr.mk.injEq, true_and]
  exact Subtype.ext hs.symm

/-- MBRs obtainable through the public API (the `signature` field is private). -/
inductive Built : ProtectiveMbr → Prop where
  | new : Built ProtectiveMbr.new
  | withLbSize (n : UInt32) : Built (ProtectiveMbr.withLbSize n)
  | fromBytes {buf : Bytes} {lb : LbSize} {m : ProtectiveMbr} : ProtectiveMbr.fromBytes buf lb = .ok m → Built m
  | fromDisk {lb : LbSize} {d d' : Dev} {m : ProtectiveMbr} : ProtectiveMbr.fromDisk lb d = (.ok m, d') → Built m
  | setBootcode {m : ProtectiveMbr} (b : ByteArr 440) : Built m → Built (m.setBootcode b)
  | setDiskSignature {m : ProtectiveMbr} (b : ByteArr 4) : Built m → Built (m.setDiskSignature b)
  | setPartition {m : ProtectiveMbr} (i : Nat) (p : PartRecord) : Built m → Built (m.setPartition i p).1

theorem fromBytes_signature {buf : Bytes} {lb : LbSize} {m : ProtectiveMbr} (h : ProtectiveMbr.fromBytes buf lb = .ok m) :
    m.signature.1 = mbrSignature := by
  by_cases hl : buf.length = lb.usize
  · obtain ⟨m', _, h2, h3⟩ := fromBytes_of_length hl
    rw [h3] at h
    split at h
    · rename_i hs
      simp only [Res.ok.injEq] at h
      subst h
      rw [h2, hs]
    · simp at h
  · unfold ProtectiveMbr.fromBytes at h
    rw [if_pos hl] at h
    simp at h

theorem fromDisk_ok {lb : LbSize} {d d' : Dev} {m : ProtectiveMbr} (h : fromDisk lb d = (.ok m, d')) :
    fromBytes (slice d.data 0 lb.usize) lb = .ok m ∧ lb.usize ≤ d.data.length ∧
      d'.data = d.data ∧ d'.pos = (UInt64.ofNat d.pos).toNat ∧ d'.cap = d.cap ∧ d'.log = d.log := by
  unfold fromDisk at h
  simp only [M.bind_ok, M.mapErr_ok] at h
  obtain ⟨cur, d1, h1, _, d2, h2, buf, d3, h3, pm, d4, h4, _, d5, h5, h6⟩ := h
  obtain ⟨e1, e1', _⟩ := Dev.streamPosition_ok h1
  obtain ⟨_, e2', _⟩ := Dev.seekStart_ok h2
  obtain ⟨e3, e3d, e3p, e3c, e3l, e3b⟩ := Dev.readExact_ok h3
  obtain ⟨_, e5', _⟩ := Dev.seekStart_ok h5
  have h512 := lb_le lb
  have hd4 : d4 = d3 := by
    rw [M.attempt_apply, M.lift_apply] at h4
    cases hb : fromBytes buf lb <;> rw [hb] at h4 <;> simp at h4 <;> exact h4.2.symm
  subst hd4
  have hpm : pm = .ok m := by
    cases pm with
    | ok p => simp only [M.pure_ok] at h6; rw [h6.1]
    | error e => simp at h6
  subst hpm
  simp only [M.pure_ok, true_and] at h6
  have hb : fromBytes buf lb = .ok m := by
    rw [M.attempt_apply, M.lift_apply] at h4
    cases hb : fromBytes buf lb <;> rw [hb] at h4 <;> simp at h4
    rw [h4]
  subst e1' e2' e5' h6 e1
  simp only at e3 e3d e3b e3c e3l
  refine ⟨?_, ?_, ?_, rfl, ?_, ?_⟩
  · rw [← hb, e3]; rfl
  · rcases e3b with e | e
    · omega
    · exact Nat.le_trans (Nat.le_add_left _ _) e
  · exact e3d
  · exact e3c
  · exact e3l

theorem Built.signature {m : ProtectiveMbr} (h : Built m) : m.signature.1 = mbrSignature := by
  induction h with
  | new => rfl
  | withLbSize n => rfl
  | fromBytes h => exact fromBytes_signature h
  | fromDisk h => exact fromBytes_signature (fromDisk_ok h).1
  | setBootcode b _ ih => exact ih
  | setDiskSignature b _ ih => exact ih
  | setPartition i p _ ih =>
    rw [← ih]
    unfold ProtectiveMbr.setPartition
    split <;> rfl

end ProtectiveMbr

/-- **C06** (accepted buffers): a buffer is accepted exactly when it is one block long and bytes 510, 511 are 55 AA; the
error says which of the two failed. -/
theorem c06_accepts (buf : Bytes) (lb : LbSize) :
    ((∃ m, ProtectiveMbr.fromBytes buf lb = .ok m) ↔
      buf.length = lb.usize ∧ byteAt buf 510 = 0x55 ∧ byteAt buf 511 = 0xAA) ∧
    (buf.length ≠ lb.usize → ProtectiveMbr.fromBytes buf lb = .err .invalidMbrLength) ∧
    (buf.length = lb.usize → ¬ (byteAt buf 510 = 0x55 ∧ byteAt buf 511 = 0xAA) →
      ProtectiveMbr.fromBytes buf lb = .err .invalidMbrSignature) := by
  have hbad : buf.length ≠ lb.usize → ProtectiveMbr.fromBytes buf lb = .err .invalidMbrLength := by
    intro h; unfold ProtectiveMbr.fromBytes; rw [if_pos h]
  by_cases hl : buf.length = lb.usize
  · obtain ⟨m, _, _, h3⟩ := ProtectiveMbr.fromBytes_of_length hl
    have h512 := lb_le lb
    have hsig : slice buf 510 2 = mbrSignature ↔ byteAt buf 510 = 0x55 ∧ byteAt buf 511 = 0xAA := by
      constructor
      · intro h
        have a := byteAt_slice buf 510 2 0
        have b := byteAt_slice buf 510 2 1
        rw [h] at a b
        exact ⟨a.symm, b.symm⟩
      · rintro ⟨a, b⟩
        refine slice_eq_of_byteAt (by omega) rfl ?_
        intro i hi
        match i, hi with
        | 0, _ => exact a
        | 1, _ => exact b
    rw [h3]
    refine ⟨?_, fun h => absurd hl h, fun _ h => if_neg (by rw [hsig]; exact h)⟩
    rw [← hsig]
    split <;> simp_all
  · refine ⟨?_, hbad, fun h => absurd h hl⟩
    rw [hbad hl]
    simp [hl]

/-- **C06** (write after read): the MBR parsed from a block is written back as the first 512 bytes of that block. -/
theorem c06_write_read (buf : Bytes) (lb : LbSize) (m : ProtectiveMbr) (h : ProtectiveMbr.fromBytes buf lb = .ok m) :
    m.toBytes = slice buf 0 512 := by
  have hl := ((c06_accepts buf lb).1.mp ⟨m, h⟩).1
  obtain ⟨m', h1, _, h3⟩ := ProtectiveMbr.fromBytes_of_length hl
  rw [h3] at h
  split at h
  · simp only [Res.ok.injEq] at h; rw [← h, h1]
  · simp at h

/-- **C06** (read after write): every MBR built through the API is 512 bytes long and is read back unchanged. -/
theorem c06_read_write (m : ProtectiveMbr) (h : m.Built) :
    m.toBytes.length = 512 ∧ ProtectiveMbr.fromBytes m.toBytes .lb512 = .ok m :=
  ⟨m.toBytes_length, ProtectiveMbr.fromBytes_toBytes h.signature⟩

/-- **C06** (the four records are independent): `set_partition` replaces one record, returns the previous one, and an index
above 3 changes nothing. -/
theorem c06_set_partition (m : ProtectiveMbr) (i j : Nat) (p : PartRecord) :
    ((m.setPartition i p).2 = m.partition i) ∧
    ((m.setPartition i p).1.partition j = if i = j ∧ i < 4 then some p else m.partition j) ∧
    ((m.setPartition i p).1.bootcode = m.bootcode ∧ (m.setPartition i p).1.diskSignature = m.diskSignature) := by
  have hi : i = 0 ∨ i = 1 ∨ i = 2 ∨ i = 3 ∨ 4 ≤ i := by omega
  have hj : j = 0 ∨ j = 1 ∨ j = 2 ∨ j = 3 ∨ 4 ≤ j := by omega
  rcases hi with h | h | h | h | h
  case inr.inr.inr.inr =>
    obtain ⟨k, rfl⟩ : ∃ k, i = k + 4 := ⟨i - 4, by omega⟩
    simp [ProtectiveMbr.setPartition, ProtectiveMbr.partition]
  all_goals
    subst h
    rcases hj with h' | h' | h' | h' | h'
    case inr.inr.inr.inr =>
      obtain ⟨k, rfl⟩ : ∃ k, j = k + 4 := ⟨j - 4, by omega⟩
      simp [ProtectiveMbr.setPartition, ProtectiveMbr.partition]
      try omega
    all_goals subst h'; simp [ProtectiveMbr.setPartition, ProtectiveMbr.partition]

/-- An MBR that is not the default one and satisfies the hypothesis. -/
example : ∃ m : ProtectiveMbr, m.Built ∧ m ≠ ProtectiveMbr.new ∧
    byteAt m.toBytes 440 = 7 ∧ byteAt m.toBytes 510 = 0x55 := by
  refine ⟨(ProtectiveMbr.withLbSize 99).setDiskSignature ⟨[7, 8, 9, 10], rfl⟩,
    .setDiskSignature _ (.withLbSize 99), ?_, ?_, ?_⟩
  · intro h
    have := congrArg (fun m : ProtectiveMbr => m.diskSignature.1) h
    exact absurd this (by decide)
  · decide +kernel
  · decide +kernel

/-! ## C52: writing the MBR -/

/-- What `write` at `off` may do in every outcome. -/
theorem writeAt_toward (off : UInt64) (b : Bytes) : M.Pres
    (Dev.Toward (fun i => off.toNat ≤ i ∧ i < off.toNat + b.length) (fun i => byteAt b (i - off.toNat))) (writeAt off b) := by
  intro d
  have C := Dev.toward_chain (fun i => off.toNat ≤ i ∧ i < off.toNat + b.length) (fun i => byteAt b (i - off.toNat))
  unfold writeAt
  refine M.Pres.bind' C (Dev.streamPosition_quiet d).toward fun cur d1 h1 => ?_
  refine M.Pres.bind' C (Dev.seekStart_quiet off d1).toward fun _ d2 h2 => ?_
  obtain ⟨_, e2, _⟩ := Dev.seekStart_ok h2
  refine M.Pres.bind' C (Dev.writeAll_toward ?_) fun _ d3 _ => ?_
  · intro i hi
    rw [e2]
    refine ⟨⟨by simp, by simp only; omega⟩, by simp only; congr 1; omega⟩
  · refine M.Pres.bind' C (Dev.flush_toward _ _ d3) fun _ d4 _ => ?_
    exact M.Pres.bind' C (Dev.seekStart_quiet _ d4).toward fun _ d5 _ => C.refl _

theorem put_length {d : Dev} {bs : Bytes} (h : bs ≠ []) : (d.put bs).data.length = max d.data.length (d.pos + bs.length) := by
  rw [Dev.put_data, if_neg h, patch_length]

theorem writeAt_ok {off : UInt64} {b : Bytes} {d d' : Dev} (hb : b ≠ []) (h : writeAt off b d = (.ok (), d')) :
    d'.data = patch d.data off.toNat b ∧ d'.pos = (UInt64.ofNat d.pos).toNat ∧ d'.cap = d.cap ∧
      off.toNat + b.length ≤ d.cap := by
  unfold writeAt at h
  simp only [M.bind_ok] at h
  obtain ⟨cur, d1, h1, _, d2, h2, _, d3, h3, _, d4, h4, _, d5, h5, h6⟩ := h
  obtain ⟨e1, e1', _⟩ := Dev.streamPosition_ok h1
  obtain ⟨_, e2', _⟩ := Dev.seekStart_ok h2
  obtain ⟨e3d, e3p, e3c, e3b, _⟩ := Dev.writeAll_ok h3
  have e4 := Dev.flush_ok h4
  obtain ⟨_, e5', _⟩ := Dev.seekStart_ok h5
  simp only [M.pure_ok, true_and] at h6
  subst h6 e5' e4
  simp only
  rw [Dev.put_data, if_neg hb] at e3d
  subst e2' e1' e1
  simp only at e3d e3c e3b
  refine ⟨e3d, rfl, e3c, ?_⟩
  rcases e3b with e | e
  · exact absurd e hb
  · exact e

/-- `writeAt` succeeds on a device without faults that is large enough. -/
theorem writeAt_succeeds {off : UInt64} {b : Bytes} {d : Dev} (hf : d.faults = []) (hc : off.toNat + b.length ≤ d.cap) :
    (writeAt off b d).1 = .ok () := by
  unfold writeAt
  simp only [M.bind_apply, Dev.streamPosition_nil hf]
  rw [Dev.seekStart_nil hf]
  simp only
  rw [Dev.writeAll_nil (by exact hf) (by exact hc)]
  simp only
  rw [Dev.flush_nil (by rw [Dev.put_faults]; exact hf)]
  simp only
  rw [Dev.seekStart_nil (by simp only [Dev.put_faults]; exact hf)]
  rfl

/-- **C52** (`write_bootcode`, `write_disk_signature`, every outcome): each byte of the device is as before, or it is one of
the bytes 0..440 (resp. 440..444) and has the given value. -/
theorem c52_confined_bootcode (b : ByteArr 440) (d : Dev) (i : Nat) :
    byteAt (writeBootcode b d).2.data i = byteAt d.data i ∨
      (i < 440 ∧ byteAt (writeBootcode b d).2.data i = byteAt b.1 i) := by
  rcases (writeAt_toward 0 b.1 d).bytes i with h | h
  · exact .inl h
  · refine .inr ⟨?_, h.2⟩
    have := h.1.2
    have hb := b.2
    have h0 : (0 : UInt64).toNat = 0 := rfl
    omega

/-- **C52**, `write_disk_signature`, every outcome. -/
theorem c52_confined_disk_signature (b : ByteArr 4) (d : Dev) (i : Nat) :
    byteAt (writeDiskSignature b d).2.data i = byteAt d.data i ∨
      (440 ≤ i ∧ i < 444 ∧ byteAt (writeDiskSignature b d).2.data i = byteAt b.1 (i - 440)) := by
  rcases (writeAt_toward 440 b.1 d).bytes i with h | h
  · exact .inl h
  · have h1 := h.1
    have hb := b.2
    have h0 : (440 : UInt64).toNat = 440 := rfl
    exact .inr ⟨by omega, by omega, h.2⟩

/-- **C52** (success of the two helpers): the bytes are all written, the rest and the position are as before. -/
theorem c52_write_bootcode (b : ByteArr 440) (d d' : Dev) (hp : d.pos < 2 ^ 64) (h : writeBootcode b d = (.ok (), d')) :
    d'.data = patch d.data 0 b.1 ∧ d'.pos = d.pos := by
  have hb : b.1 ≠ [] := by intro hb; have := b.2; rw [hb] at this; simp at this
  obtain ⟨h1, h2, _⟩ := writeAt_ok hb h
  refine ⟨h1, h2.trans ?_⟩
  rw [UInt64.toNat_ofNat']; omega

/-- **C52** (success of the two helpers). -/
theorem c52_write_disk_signature (b : ByteArr 4) (d d' : Dev) (hp : d.pos < 2 ^ 64)
    (h : writeDiskSignature b d = (.ok (), d')) : d'.data = patch d.data 440 b.1 ∧ d'.pos = d.pos := by
  have hb : b.1 ≠ [] := by intro hb; have := b.2; rw [hb] at this; simp at this
  obtain ⟨h1, h2, _⟩ := writeAt_ok hb h
  refine ⟨h1, h2.trans ?_⟩
  rw [UInt64.toNat_ofNat']; omega

/-- `overwrite_lba0` is `writeAt 0` up to the error type and the returned length. -/
theorem overwriteLba0_eq (m : ProtectiveMbr) (d : Dev) :
    (m.overwriteLba0 d).2 = (writeAt 0 m.toBytes d).2 ∧
    ((m.overwriteLba0 d).1 = .ok 512 ↔ (writeAt 0 m.toBytes d).1 = .ok ()) ∧
    (∀ n, (m.overwriteLba0 d).1 = .ok n → n = 512) := by
  unfold ProtectiveMbr.overwriteLba0 writeAt
  simp only [M.bind_apply, M.mapErr_apply, M.pure_apply]
  rcases Dev.streamPosition d with ⟨r1, d1⟩
  cases r1 <;> simp only [Res.mapErr] <;> try simp
  rename_i cur
  rcases Dev.seekStart 0 d1 with ⟨r2, d2⟩
  cases r2 <;> simp only [Res.mapErr] <;> try simp
  rcases Dev.writeAll m.toBytes d2 with ⟨r3, d3⟩
  cases r3 <;> simp only [Res.mapErr] <;> try simp
  rcases Dev.flush d3 with ⟨r4, d4⟩
  cases r4 <;> simp only [Res.mapErr] <;> try simp
  rcases Dev.seekStart cur d4 with ⟨r5, d5⟩
  cases r5 <;> simp [Res.mapErr, eq_comm]

/-- **C52** (`overwrite_lba0`, every outcome): each byte is as before, or lies in 0..512 and is the MBR's byte. -/
theorem c52_confined_overwrite (m : ProtectiveMbr) (d : Dev) (i : Nat) :
    byteAt (m.overwriteLba0 d).2.data i = byteAt d.data i ∨
      (i < 512 ∧ byteAt (m.overwriteLba0 d).2.data i = byteAt m.toBytes i) := by
  rw [(overwriteLba0_eq m d).1]
  rcases (writeAt_toward 0 m.toBytes d).bytes i with h | h
  · exact .inl h
  · refine .inr ⟨?_, h.2⟩
    have := h.1.2
    have hb := m.toBytes_length
    have h0 : (0 : UInt64).toNat = 0 := rfl
    omega

/-- **C52** (`overwrite_lba0`, success). -/
theorem c52_overwrite (m : ProtectiveMbr) (d d' : Dev) (n : Nat) (hp : d.pos < 2 ^ 64)
    (h : m.overwriteLba0 d = (.ok n, d')) : n = 512 ∧ d'.data = patch d.data 0 m.toBytes ∧ d'.pos = d.pos := by
  obtain ⟨e1, e2, e3⟩ := overwriteLba0_eq m d
  rw [h] at e1 e2 e3
  have hn := e3 n rfl
  subst hn
  have hw : writeAt 0 m.toBytes d = (.ok (), d') := Prod.ext (e2.mp rfl) e1.symm
  have hb : m.toBytes ≠ [] := by intro hb; have := m.toBytes_length; rw [hb] at this; simp at this
  obtain ⟨h1, h2, _⟩ := writeAt_ok hb hw
  refine ⟨rfl, h1, h2.trans ?_⟩
  rw [UInt64.toNat_ofNat']; omega

/-- The 66 bytes `update_conservative` is responsible for. -/
theorem slice_toBytes_446 (m : ProtectiveMbr) : slice m.toBytes 446 66 =
    m.p0.toBytes ++ (m.p1.toBytes ++ (m.p2.toBytes ++ (m.p3.toBytes ++ m.signature.1))) := by
  have e : m.toBytes = (m.bootcode.1 ++ m.diskSignature.1 ++ le16 m.unknown) ++ (m.p0.toBytes ++ (m.p1.toBytes ++
      (m.p2.toBytes ++ (m.p3.toBytes ++ m.signature.1)))) := by simp only [ProtectiveMbr.toBytes, List.append_assoc]
  have hl : (m.bootcode.1 ++ m.diskSignature.1 ++ le16 m.unknown).length = 446 := by
    simp only [List.length_append, m.bootcode.2, m.diskSignature.2, le16_length]
  rw [e, slice_skip (by omega), hl]
  exact slice_zero_length (by simp [m.signature.2])

theorem byteAt_of_slice {b c : Bytes} {off n i : Nat} (h : slice b off n = c) (hi : i < n) : byteAt b (off + i) = byteAt c i := by
  rw [← h, byteAt_slice, if_pos hi]

/-- **C52** (`update_conservative`, every outcome): each byte is as before, or lies in 446..512 and is the MBR's byte. -/
theorem c52_confined_conservative (m : ProtectiveMbr) (d : Dev) (i : Nat) :
    byteAt (m.updateConservative d).2.data i = byteAt d.data i ∨
      (446 ≤ i ∧ i < 512 ∧ byteAt (m.updateConservative d).2.data i = byteAt m.toBytes i) := by
  have C := Dev.toward_chain (fun i => 446 ≤ i ∧ i < 512) (fun i => byteAt m.toBytes i)
  have hs := slice_toBytes_446 m
  have key : Dev.Toward (fun i => 446 ≤ i ∧ i < 512) (fun i => byteAt m.toBytes i) d (m.updateConservative d).2 := by
    have hq0 : slice m.toBytes 446 16 = m.p0.toBytes := by
      rw [← slice_slice (d := m.toBytes) (a := 446) (n := 66) (b := 0) (k := 16) (by omega), hs]
      exact slice_head (by simp)
    have hq1 : slice m.toBytes 462 16 = m.p1.toBytes := by
      rw [← slice_slice (d := m.toBytes) (a := 446) (n := 66) (b := 16) (k := 16) (by omega), hs, slice_skip (by simp)]
      exact slice_head (by simp)
    have hq2 : slice m.toBytes 478 16 = m.p2.toBytes := by
      rw [← slice_slice (d := m.toBytes) (a := 446) (n := 66) (b := 32) (k := 16) (by omega), hs, slice_skip (by simp),
        slice_skip (by simp)]
      exact slice_head (by simp)
    have hq3 : slice m.toBytes 494 16 = m.p3.toBytes := by
      rw [← slice_slice (d := m.toBytes) (a := 446) (n := 66) (b := 48) (k := 16) (by omega), hs, slice_skip (by simp),
        slice_skip (by simp), slice_skip (by simp)]
      exact slice_head (by simp)
    have hq4 : slice m.toBytes 510 2 = m.signature.1 := by
      rw [← slice_slice (d := m.toBytes) (a := 446) (n := 66) (b := 64) (k := 2) (by omega), hs, slice_skip (by simp),
        slice_skip (by simp), slice_skip (by simp), slice_skip (by simp)]
      exact slice_zero_length m.signature.2
    have W : ∀ (bs : Bytes) (off n : Nat) (d1 : Dev), slice m.toBytes off n = bs → bs.length = n → 446 ≤ off →
        off + n ≤ 512 → d1.pos = off →
        Dev.Toward (fun i => 446 ≤ i ∧ i < 512) (fun i => byteAt m.toBytes i) d1 (Dev.writeAll bs d1).2 := by
      intro bs off n d1 h1 h2 h3 h4 h5
      refine Dev.writeAll_toward fun i hi => ?_
      rw [h5]
      exact ⟨⟨by omega, by omega⟩, (byteAt_of_slice h1 (by omega)).symm⟩
    unfold ProtectiveMbr.updateConservative
    refine M.Pres.bind' C (Dev.streamPosition_quiet d).toward fun cur d1 h1 => ?_
    refine M.Pres.bind' C (Dev.seekStart_quiet 446 d1).toward fun _ d2 h2 => ?_
    rw [M.mapErr_ok] at h2
    obtain ⟨_, e2, _⟩ := Dev.seekStart_ok h2
    have p2 : d2.pos = 446 := by rw [e2]; rfl
    refine M.Pres.bind' C (W _ 446 16 d2 hq0 (by simp) (by omega) (by omega) p2) fun _ d3 h3 => ?_
    rw [M.mapErr_ok] at h3
    have p3 : d3.pos = 462 := by rw [(Dev.writeAll_ok h3).2.1, p2]; simp
    refine M.Pres.bind' C (W _ 462 16 d3 hq1 (by simp) (by omega) (by omega) p3) fun _ d4 h4 => ?_
    rw [M.mapErr_ok] at h4
    have p4 : d4.pos = 478 := by rw [(Dev.writeAll_ok h4).2.1, p3]; simp
    refine M.Pres.bind' C (W _ 478 16 d4 hq2 (by simp) (by omega) (by omega) p4) fun _ d5 h5 => ?_
    rw [M.mapErr_ok] at h5
    have p5 : d5.pos = 494 := by rw [(Dev.writeAll_ok h5).2.1, p4]; simp
    refine M.Pres.bind' C (W _ 494 16 d5 hq3 (by simp) (by omega) (by omega) p5) fun _ d6 h6 => ?_
    rw [M.mapErr_ok] at h6
    have p6 : d6.pos = 510 := by rw [(Dev.writeAll_ok h6).2.1, p5]; simp
    refine M.Pres.bind' C (W _ 510 2 d6 hq4 m.signature.2 (by omega) (by omega) p6) fun _ d7 h7 => ?_
    refine M.Pres.bind' C (Dev.flush_toward _ _ d7) fun _ d8 _ => ?_
    exact M.Pres.bind' C (Dev.seekStart_quiet _ d8).toward fun _ d9 _ => C.refl _
  rcases key.bytes i with h | h
  · exact .inl h
  · exact .inr ⟨h.1.1, h.1.2, h.2⟩

/-- **C52** (`update_conservative`, success): bytes 446..512 are the MBR's, everything else and the position as before. -/
theorem c52_conservative (m : ProtectiveMbr) (d d' : Dev) (n : Nat) (hp : d.pos < 2 ^ 64)
    (h : m.updateConservative d = (.ok n, d')) :
    n = 66 ∧ d'.pos = d.pos ∧ d'.data.length = max d.data.length 512 ∧
      ∀ i, byteAt d'.data i = if 446 ≤ i ∧ i < 512 then byteAt m.toBytes i else byteAt d.data i := by
  unfold ProtectiveMbr.updateConservative at h
  simp only [M.bind_ok, M.mapErr_ok] at h
  obtain ⟨cur, d1, h1, _, d2, h2, _, d3, h3, _, d4, h4, _, d5, h5, _, d6, h6, _, d7, h7, _, d8, h8, _, d9, h9, h10⟩ := h
  obtain ⟨e1, e1', _⟩ := Dev.streamPosition_ok h1
  obtain ⟨_, e2', _⟩ := Dev.seekStart_ok h2
  have hd2 : d2.pos = 446 := by rw [e2']; rfl
  have hd2d : d2.data = d.data := by rw [e2', e1']
  obtain ⟨a3, b3, _⟩ := Dev.writeAll_ok h3
  obtain ⟨a4, b4, _⟩ := Dev.writeAll_ok h4
  obtain ⟨a5, b5, _⟩ := Dev.writeAll_ok h5
  obtain ⟨a6, b6, _⟩ := Dev.writeAll_ok h6
  obtain ⟨a7, b7, _⟩ := Dev.writeAll_ok h7
  have e8 := Dev.flush_ok h8
  obtain ⟨_, e9, _⟩ := Dev.seekStart_ok h9
  simp only [M.pure_ok] at h10
  obtain ⟨hn, h10⟩ := h10
  have hl2 := m.signature.2
  simp only [hd2, PartRecord.toBytes_length] at b3
  simp only [b3, PartRecord.toBytes_length] at b4
  simp only [b4, PartRecord.toBytes_length] at b5
  simp only [b5, PartRecord.toBytes_length] at b6
  have hdata : d'.data = d7.data := by rw [h10, e9, e8]
  have ne : ∀ p : PartRecord, p.toBytes ≠ [] := fun p hb => by
    have := p.toBytes_length; rw [hb] at this; simp at this
  have ne2 : m.signature.1 ≠ [] := fun hb => by rw [hb] at hl2; simp at hl2
  refine ⟨hn.symm, ?_, ?_, ?_⟩
  · rw [h10, e9, e1]
    simp only
    rw [UInt64.toNat_ofNat']; omega
  · rw [hdata, a7, put_length ne2, a6, put_length (ne _), a5, put_length (ne _), a4, put_length (ne _), a3,
      put_length (ne _), hd2d, hd2, b3, b4, b5, b6, hl2]
    simp only [PartRecord.toBytes_length]
    omega
  · intro i
    rw [hdata]
    have hs := slice_toBytes_446 m
    have tgt : ∀ j, j < 66 → byteAt m.toBytes (446 + j) = byteAt (m.p0.toBytes ++ (m.p1.toBytes ++ (m.p2.toBytes ++
        (m.p3.toBytes ++ m.signature.1)))) j := fun j hj => byteAt_of_slice hs hj
    rw [a7, Dev.byteAt_put, a6, Dev.byteAt_put, a5, Dev.byteAt_put, a4, Dev.byteAt_put, a3, Dev.byteAt_put, hd2d, hd2,
      b3, b4, b5, b6, hl2]
    simp only [PartRecord.toBytes_length]
    by_cases hi : 446 ≤ i ∧ i < 512
    · rw [if_pos hi]
      have := tgt (i - 446) (by omega)
      rw [show 446 + (i - 446) = i by omega] at this
      rw [this]
      simp only [byteAt_append, PartRecord.toBytes_length]
      split_ifs <;> first | (exfalso; omega) | with_reducible rfl | exact congrArg (byteAt _) (by omega)
    · rw [if_neg hi]
      split_ifs <;> first | (exfalso; omega) | rfl

/-- The hypotheses are met: a fault-free device of 600 bytes positioned at 7. -/
example : ∃ (d d' : Dev) (n : Nat), d.pos = 7 ∧ d.data.length = 600 ∧ byteAt d.data 0 = 1 ∧ byteAt d.data 450 = 1 ∧
    (ProtectiveMbr.withLbSize 99).updateConservative d = (.ok n, d') ∧ byteAt d'.data 0 = 1 ∧ byteAt d'.data 450 = 0xEE := by
  have hd : ∀ d : Dev, d.faults = [] → d.cap = 600 → ∃ n, ((ProtectiveMbr.withLbSize 99).updateConservative d).1 = .ok n := by
    intro d hf hc
    unfold ProtectiveMbr.updateConservative
    have hsig : (ProtectiveMbr.withLbSize 99).signature.1.length = 2 := (ProtectiveMbr.withLbSize 99).signature.2
    have h446 : (446 : UInt64).toNat = 446 := rfl
    simp only [M.bind_apply, M.mapErr_apply, Dev.streamPosition_nil hf, Res.mapErr]
    rw [Dev.seekStart_nil hf]
    simp only [Res.mapErr]
    rw [Dev.writeAll_nil (by exact hf) (by simp [hc, h446])]
    simp only [Res.mapErr]
    rw [Dev.writeAll_nil (by simp only [Dev.put_faults, hf]) (by simp [hc, h446, Dev.put_pos, Dev.put_cap])]
    simp only [Res.mapErr]
    rw [Dev.writeAll_nil (by simp only [Dev.put_faults, hf]) (by simp [hc, h446, Dev.put_pos, Dev.put_cap])]
    simp only [Res.mapErr]
    rw [Dev.writeAll_nil (by simp only [Dev.put_faults, hf]) (by simp [hc, h446, Dev.put_pos, Dev.put_cap])]
    simp only [Res.mapErr]
    rw [Dev.writeAll_nil (by simp only [Dev.put_faults, hf]) (by simp [hc, h446, Dev.put_pos, Dev.put_cap, hsig])]
    simp only [Res.mapErr]
    rw [Dev.flush_nil (by simp only [Dev.put_faults, hf])]
    simp only [Res.mapErr]
    rw [Dev.seekStart_nil (by simp only [Dev.put_faults, hf])]
    exact ⟨_, rfl⟩
  obtain ⟨d, hpos, hdata, hcap, hf⟩ : ∃ d : Dev, d.pos = 7 ∧ d.data = List.replicate 600 1 ∧ d.cap = 600 ∧ d.faults = [] :=
    ⟨⟨_, _, _, _, []⟩, rfl, rfl, rfl, rfl⟩
  have hone : ∀ i, i < 600 → byteAt d.data i = 1 := by
    intro i hi
    rw [hdata, byteAt, List.getElem?_replicate, if_pos hi]; rfl
  obtain ⟨n, hn⟩ := hd d hf hcap
  have hrun : (ProtectiveMbr.withLbSize 99).updateConservative d = (.ok n, ((ProtectiveMbr.withLbSize 99).updateConservative d).2) :=
    Prod.ext hn rfl
  obtain ⟨_, _, _, h4⟩ := c52_conservative _ _ _ _ (by omega) hrun
  refine ⟨d, _, n, hpos, by rw [hdata]; exact List.length_replicate, hone 0 (by omega), hone 450 (by omega), hrun, ?_, ?_⟩
  · rw [h4 0, if_neg (by omega)]; exact hone 0 (by omega)
  · rw [h4 450, if_pos (by omega)]; decide +kernel

/-! ## C53: reading the MBR -/

theorem readAt_quiet (off : UInt64) (n : Nat) : M.Pres Dev.Quiet (readAt off n) := by
  unfold readAt
  have C := Dev.quiet_chain
  refine M.Pres.bind C Dev.streamPosition_quiet fun cur => ?_
  refine M.Pres.bind C (Dev.seekStart_quiet _) fun _ => ?_
  refine M.Pres.bind C (Dev.readExact_quiet _) fun _ => ?_
  exact M.Pres.bind C (Dev.seekStart_quiet _) fun _ => M.Pres.pure C _

theorem readAt_ok {off : UInt64} {n : Nat} {b : Bytes} {d d' : Dev} (h : readAt off n d = (.ok b, d')) :
    b = slice d.data off.toNat n ∧ d'.data = d.data ∧ d'.pos = (UInt64.ofNat d.pos).toNat ∧
      (n = 0 ∨ off.toNat + n ≤ d.data.length) := by
  have hq := readAt_quiet off n d
  rw [h] at hq
  unfold readAt at h
  simp only [M.bind_ok] at h
  obtain ⟨cur, d1, h1, _, d2, h2, b', d3, h3, _, d4, h4, h5⟩ := h
  obtain ⟨e1, e1', _⟩ := Dev.streamPosition_ok h1
  obtain ⟨_, e2', _⟩ := Dev.seekStart_ok h2
  obtain ⟨e3, e3d, e3p, _, _, e3b⟩ := Dev.readExact_ok h3
  obtain ⟨_, e4', _⟩ := Dev.seekStart_ok h4
  simp only [M.pure_ok] at h5
  obtain ⟨hb, h5⟩ := h5
  subst hb
  subst e2' e1'
  refine ⟨e3, hq.data, ?_, e3b⟩
  rw [h5, e4', e1]

theorem readAt_succeeds {off : UInt64} {n : Nat} {d : Dev} (hf : d.faults = []) (hl : off.toNat + n ≤ d.data.length) :
    readAt off n d = (.ok (slice d.data off.toNat n), { d with pos := (UInt64.ofNat d.pos).toNat }) := by
  unfold readAt
  simp only [M.bind_apply, Dev.streamPosition_nil hf]
  rw [Dev.seekStart_nil hf]
  simp only
  rw [Dev.readExact_nil (by exact hf) (by exact hl)]
  simp only
  rw [Dev.seekStart_nil (by exact hf)]
  rfl

/-- **C53** (content): none of the readers ever changes the device content, whatever fails. -/
theorem c53_content (lb : LbSize) (d : Dev) :
    (ProtectiveMbr.fromDisk lb d).2.data = d.data ∧ (readBootcode d).2.data = d.data ∧
    (readDiskSignature d).2.data = d.data := by
  refine ⟨?_, (readAt_quiet 0 440 d).data, (readAt_quiet 440 4 d).data⟩
  have C := Dev.quiet_chain
  have : M.Pres Dev.Quiet (ProtectiveMbr.fromDisk lb) := by
    unfold ProtectiveMbr.fromDisk
    refine M.Pres.bind C (M.Pres.mapErr _ Dev.streamPosition_quiet) fun cur => ?_
    refine M.Pres.bind C (M.Pres.mapErr _ (Dev.seekStart_quiet _)) fun _ => ?_
    refine M.Pres.bind C (M.Pres.mapErr _ (Dev.readExact_quiet _)) fun _ => ?_
    refine M.Pres.bind C (M.Pres.attempt (M.Pres.lift C _)) fun r => ?_
    refine M.Pres.bind C (M.Pres.mapErr _ (Dev.seekStart_quiet _)) fun _ => ?_
    cases r
    · exact M.Pres.throw C _
    · exact M.Pres.pure C _
  exact (this d).data

/-- **C53** (`from_disk`): a successful `from_disk` parsed the first block and restored the position. -/
theorem c53_from_disk (lb : LbSize) (d d' : Dev) (m : ProtectiveMbr) (hp : d.pos < 2 ^ 64)
    (h : ProtectiveMbr.fromDisk lb d = (.ok m, d')) :
    ProtectiveMbr.fromBytes (slice d.data 0 lb.usize) lb = .ok m ∧ d'.data = d.data ∧ d'.pos = d.pos := by
  obtain ⟨h1, _, h3, h4, _⟩ := ProtectiveMbr.fromDisk_ok h
  refine ⟨h1, h3, h4.trans ?_⟩
  rw [UInt64.toNat_ofNat']; omega

/-- **C53** (`from_disk` without faults): the result is exactly that of `from_bytes` on the first block, and the position
is restored in every case. -/
theorem c53_from_disk_exact (lb : LbSize) (d : Dev) (hf : d.faults = []) (hp : d.pos < 2 ^ 64)
    (hl : lb.usize ≤ d.data.length) :
    ProtectiveMbr.fromDisk lb d = (ProtectiveMbr.fromBytes (slice d.data 0 lb.usize) lb, d) := by
  unfold ProtectiveMbr.fromDisk
  simp only [M.bind_apply, M.mapErr_apply, Dev.streamPosition_nil hf, Res.mapErr]
  rw [Dev.seekStart_nil hf]
  simp only [Res.mapErr]
  rw [Dev.readExact_nil (by exact hf) (by simpa using hl)]
  simp only [Res.mapErr, M.attempt_apply, M.lift_apply]
  have h0 : (0 : UInt64).toNat = 0 := rfl
  have hpos : (UInt64.ofNat d.pos).toNat = d.pos := by rw [UInt64.toNat_ofNat']; omega
  rw [h0]
  have hnp : ProtectiveMbr.fromBytes (slice d.data 0 lb.usize) lb ≠ .panic := by
    have hlen : (slice d.data 0 lb.usize).length = lb.usize := slice_length_of_le (by omega)
    obtain ⟨m, _, _, h3⟩ := ProtectiveMbr.fromBytes_of_length hlen
    rw [h3]; split <;> simp
  cases hb : ProtectiveMbr.fromBytes (slice d.data 0 lb.usize) lb with
  | panic => exact absurd hb hnp
  | ok m =>
    simp only
    rw [Dev.seekStart_nil (by exact hf)]
    simp only [M.pure_apply, hpos]
  | err e =>
    simp only
    rw [Dev.seekStart_nil (by exact hf)]
    simp only [M.throw_apply, hpos]

/-- **C53** (`read_bootcode`, `read_disk_signature`): a successful read returns exactly the bytes at those positions and
restores the stream position. -/
theorem c53_read_helpers (d d' : Dev) (b : Bytes) (hp : d.pos < 2 ^ 64) :
    (readBootcode d = (.ok b, d') → b = slice d.data 0 440 ∧ b.length = 440 ∧ d'.pos = d.pos) ∧
    (readDiskSignature d = (.ok b, d') → b = slice d.data 440 4 ∧ b.length = 4 ∧ d'.pos = d.pos) := by
  have hpos : (UInt64.ofNat d.pos).toNat = d.pos := by rw [UInt64.toNat_ofNat']; omega
  constructor
  · intro h
    obtain ⟨h1, _, h3, h4⟩ := readAt_ok h
    have h4 : (0 : UInt64).toNat + 440 ≤ d.data.length := h4.resolve_left (by omega)
    exact ⟨h1, by rw [h1]; exact slice_length_of_le h4, by rw [h3, hpos]⟩
  · intro h
    obtain ⟨h1, _, h3, h4⟩ := readAt_ok h
    have h4 : (440 : UInt64).toNat + 4 ≤ d.data.length := h4.resolve_left (by omega)
    exact ⟨h1, by rw [h1]; exact slice_length_of_le h4, by rw [h3, hpos]⟩

/-- **C53** (read after write): without faults, on a device with room, what a writer wrote is read back. -/
theorem c53_read_back (d : Dev) (hf : d.faults = []) (hc : 512 ≤ d.cap) (hp : d.pos < 2 ^ 64) :
    (∀ b : ByteArr 440, ∃ d1 d2, writeBootcode b d = (.ok (), d1) ∧ readBootcode d1 = (.ok b.1, d2)) ∧
    (∀ b : ByteArr 4, ∃ d1 d2, writeDiskSignature b d = (.ok (), d1) ∧ readDiskSignature d1 = (.ok b.1, d2)) ∧
    (∀ m : ProtectiveMbr, m.Built → ∃ d1, m.overwriteLba0 d = (.ok 512, d1) ∧
      ProtectiveMbr.fromDisk .lb512 d1 = (.ok m, d1)) := by
  have key : ∀ (off : UInt64) (b : Bytes), b ≠ [] → off.toNat + b.length ≤ 512 →
      ∃ d1, writeAt off b d = (.ok (), d1) ∧ d1.faults = [] ∧ d1.data = patch d.data off.toNat b ∧ d1.pos = d.pos := by
    intro off b hb hl
    have h1 := writeAt_succeeds (off := off) (b := b) hf (by omega)
    have hw : writeAt off b d = (.ok (), (writeAt off b d).2) := Prod.ext h1 rfl
    obtain ⟨e1, e2, _⟩ := writeAt_ok hb hw
    refine ⟨_, hw, ?_, e1, ?_⟩
    · unfold writeAt
      simp only [M.bind_apply, Dev.streamPosition_nil hf]
      rw [Dev.seekStart_nil hf]
      simp only
      rw [Dev.writeAll_nil (by exact hf) (by simp only; omega)]
      simp only
      rw [Dev.flush_nil (by rw [Dev.put_faults]; exact hf)]
      simp only
      rw [Dev.seekStart_nil (by simp only [Dev.put_faults]; exact hf)]
      simp only [M.pure_apply, Dev.put_faults]
      exact hf
    · rw [e2, UInt64.toNat_ofNat']; omega
  have h0 : (0 : UInt64).toNat = 0 := rfl
  have h440 : (440 : UInt64).toNat = 440 := rfl
  refine ⟨fun b => ?_, fun b => ?_, fun m hm => ?_⟩
  · have hb : b.1 ≠ [] := by intro hb; have := b.2; rw [hb] at this; simp at this
    have hl := b.2
    obtain ⟨d1, hw, hf1, hd1, _⟩ := key 0 b.1 hb (by omega)
    refine ⟨d1, { d1 with pos := (UInt64.ofNat d1.pos).toNat }, hw, ?_⟩
    unfold readBootcode
    rw [readAt_succeeds hf1 (by rw [hd1, patch_length]; omega), hd1, h0]
    rw [show slice (patch d.data 0 b.1) 0 440 = b.1 from by
      have := slice_patch_self d.data 0 b.1; rwa [hl] at this]
  · have hb : b.1 ≠ [] := by intro hb; have := b.2; rw [hb] at this; simp at this
    have hl := b.2
    obtain ⟨d1, hw, hf1, hd1, _⟩ := key 440 b.1 hb (by omega)
    refine ⟨d1, { d1 with pos := (UInt64.ofNat d1.pos).toNat }, hw, ?_⟩
    unfold readDiskSignature
    rw [readAt_succeeds hf1 (by rw [hd1, patch_length]; omega), hd1, h440]
    rw [show slice (patch d.data 440 b.1) 440 4 = b.1 from by
      have := slice_patch_self d.data 440 b.1; rwa [hl] at this]
  · have hl := m.toBytes_length
    have hb : m.toBytes ≠ [] := by intro hb; rw [hb] at hl; simp at hl
    obtain ⟨d1, hw, hf1, hd1, hp1⟩ := key 0 m.toBytes hb (by omega)
    obtain ⟨e1, e2, e3⟩ := overwriteLba0_eq m d
    rw [hw] at e1 e2
    refine ⟨d1, Prod.ext (e2.mpr rfl) e1, ?_⟩
    rw [c53_from_disk_exact .lb512 d1 hf1 (by omega) (by rw [hd1, patch_length]; show 512 ≤ _; omega), hd1, h0]
    rw [show slice (patch d.data 0 m.toBytes) 0 LbSize.lb512.usize = m.toBytes from by
      have := slice_patch_self d.data 0 m.toBytes; rwa [hl] at this]
    rw [ProtectiveMbr.fromBytes_toBytes hm.signature]

end Gpt
