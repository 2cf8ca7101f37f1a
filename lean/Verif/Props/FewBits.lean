import Verif.Lemmas.Pairs
import Verif.Props.Straddle
import Verif.Props.Open
/-!
# A few changed bits are noticed: C113

Up to four changed bits of a header, wherever they are, make it invalid; five can pass. In a partition array two changed bits are noticed
wherever they are, and up to four if they lie within 128 bytes; three changed bits far apart can pass.
-/

namespace Gpt

open Spec

namespace Spec

/-- Bit `n` of a string of bytes, the lowest bit of a byte first. -/
def bitAt (data : Bytes) (n : Nat) : Bool := (byteAt data (n / 8)).toNat.testBit (n % 8)

/-- Of the `len` bytes from `start` on, exactly the bits in `ps` are different. The bits are counted from `start`. -/
structure Flipped (data data' : Bytes) (start len : Nat) (ps : List Nat) : Prop where
  some_bit : ps ≠ []
  once : ps.Nodup
  inside : ∀ p ∈ ps, p < 8 * len
  bits : ∀ n, n < 8 * len → bitAt data' (8 * start + n) = (bitAt data (8 * start + n) ^^ decide (n ∈ ps))

end Spec

/-! ## Sums of powers -/

/-- The sum of the powers of `x` with these exponents. -/
def xsum (es : List Nat) : BitVec 32 := es.foldr (fun e acc => xpow e ^^^ acc) 0#32

theorem xsum_cons (e : Nat) (es : List Nat) : xsum (e :: es) = xpow e ^^^ xsum es := rfl

theorem xsum_perm {a b : List Nat} (h : a.Perm b) : xsum a = xsum b := by
  induction h with
  | nil => rfl
  | cons x _ ih => rw [xsum_cons, xsum_cons, ih]
  | swap x y l => rw [xsum_cons, xsum_cons, xsum_cons, xsum_cons, ← BitVec.xor_assoc, ← BitVec.xor_assoc, BitVec.xor_comm (xpow y)]
  | trans _ _ h1 h2 => exact h1.trans h2

theorem xpow_shift {a b : Nat} (h : a ≤ b) : xpow b = crcBit^[a] (xpow (b - a)) := by
  rw [← xpow_add]
  congr 1
  omega

/-- A sum of few different powers is not zero. -/
theorem xsum_ne_zero {es : List Nat} (hne : es ≠ []) (hnd : es.Nodup)
    (h : (es.length ≤ 2 ∧ ∀ a ∈ es, ∀ b ∈ es, b - a < 2 ^ 32 - 1) ∨ (es.length ≤ 4 ∧ ∀ a ∈ es, ∀ b ∈ es, b - a < 1024)) : xsum es ≠ 0#32 := by
  have hperm : (es.mergeSort (fun a b => decide (a ≤ b))).Perm es := List.mergeSort_perm _ _
  have hsort : (es.mergeSort (fun a b => decide (a ≤ b))).Pairwise (fun a b => decide (a ≤ b) = true) :=
    List.pairwise_mergeSort (le := fun a b => decide (a ≤ b)) (by simp only [decide_eq_true_eq]; omega)
      (by simp only [Bool.or_eq_true, decide_eq_true_eq]; omega) es
  generalize es.mergeSort (fun a b => decide (a ≤ b)) = fs at hperm hsort
  rw [← xsum_perm hperm]
  have hnd' := hperm.nodup_iff.mpr hnd
  have hne' : fs ≠ [] := fun e => hne (by rw [e] at hperm; exact hperm.nil_eq.symm)
  have hlt : fs.Pairwise (· < ·) := by
    refine (hsort.and hnd').imp ?_
    intro a b hab
    have := hab.1
    simp only [decide_eq_true_eq] at this
    have := hab.2
    omega
  have h' : (fs.length ≤ 2 ∧ ∀ a ∈ fs, ∀ b ∈ fs, b - a < 2 ^ 32 - 1) ∨ (fs.length ≤ 4 ∧ ∀ a ∈ fs, ∀ b ∈ fs, b - a < 1024) := by
    rw [hperm.length_eq]
    refine h.imp (fun h => ⟨h.1, fun a ha b hb => h.2 a (hperm.mem_iff.mp ha) b (hperm.mem_iff.mp hb)⟩)
      (fun h => ⟨h.1, fun a ha b hb => h.2 a (hperm.mem_iff.mp ha) b (hperm.mem_iff.mp hb)⟩)
  clear hperm hsort hnd hne h hnd'
  have two : ∀ {a b : Nat}, a < b → b - a < 2 ^ 32 - 1 → xpow a ^^^ xpow b ≠ 0#32 := fun hab hb h0 => xpow_inj hab hb (xor_eq_zero h0)
  match fs, hne', hlt, h' with
  | [a], _, _, _ =>
    intro h0
    exact xpow_ne_zero a (by rw [← h0]; simp [xsum])
  | [a, b], _, hlt, h' =>
    intro h0
    simp only [List.pairwise_cons, List.mem_cons, List.not_mem_nil, or_false, forall_eq] at hlt
    refine two hlt.1 ?_ (by rw [← h0]; simp [xsum])
    rcases h' with h' | h'
    · exact h'.2 a (by simp) b (by simp)
    · exact Nat.lt_trans (h'.2 a (by simp) b (by simp)) (by decide)
  | [a, b, c], _, hlt, h' =>
    intro h0
    simp only [List.pairwise_cons, List.mem_cons, List.not_mem_nil, or_false, forall_eq, forall_eq_or_imp] at hlt
    obtain ⟨⟨hab, hac⟩, hbc, -⟩ := hlt
    have hc : c - a < 1024 := by
      rcases h' with h' | h'
      · exact absurd h'.1 (by simp)
      · exact h'.2 a (by simp) c (by simp)
    refine (xpow_free (b := b - a) (c := c - a) (by omega) (by omega) hc).1 (crcBit_iterate_inj a ?_)
    rw [crcBit_iterate_xor, crcBit_iterate_xor, crcBit_iterate_zero, ← xpow_shift (by omega), ← xpow_shift (by omega), ← h0]
    simp only [xsum, List.foldr_cons, List.foldr_nil, BitVec.xor_zero, BitVec.xor_assoc]
    rfl
  | [a, b, c, d], _, hlt, h' =>
    intro h0
    simp only [List.pairwise_cons, List.mem_cons, List.not_mem_nil, or_false, forall_eq, forall_eq_or_imp] at hlt
    obtain ⟨⟨hab, hac, had⟩, ⟨hbc, hbd⟩, hcd, -⟩ := hlt
    have hd : d - a < 1024 := by
      rcases h' with h' | h'
      · exact absurd h'.1 (by simp)
      · exact h'.2 a (by simp) d (by simp)
    refine (xpow_free (b := b - a) (c := c - a) (by omega) (by omega) (by omega)).2 (d - a) (by omega) hd (crcBit_iterate_inj a ?_)
    rw [crcBit_iterate_xor, crcBit_iterate_xor, ← xpow_shift (by omega), ← xpow_shift (by omega), ← xpow_shift (by omega)]
    apply xor_eq_zero
    rw [← h0]
    simp only [xsum, List.foldr_cons, List.foldr_nil, BitVec.xor_zero, BitVec.xor_assoc]
    rfl
  | _ :: _ :: _ :: _ :: _ :: _, _, _, h' =>
    rcases h' with h' | h'
    · exact absurd h'.1 (by simp)
    · exact absurd h'.1 (by simp)

/-! ## Single bits -/

/-- `len` bytes with just bit `p` set. -/
def unitBit (len p : Nat) : Bytes := zeros (p / 8) ++ [⟨BitVec.twoPow 8 (p % 8)⟩] ++ zeros (len - 1 - p / 8)

theorem unitBit_length {len p : Nat} (h : p < 8 * len) : (unitBit len p).length = len := by
  simp [unitBit]
  omega

theorem byteAt_unitBit {len p : Nat} (i : Nat) : byteAt (unitBit len p) i = if i = p / 8 then ⟨BitVec.twoPow 8 (p % 8)⟩ else 0 := by
  unfold unitBit
  simp only [byteAt_append, List.length_append, zeros_length, List.length_cons, List.length_nil, byteAt_zeros]
  by_cases h : i = p / 8
  · rw [if_pos h, if_pos (by omega), if_neg (by omega), h, Nat.sub_self]
    rfl
  · rw [if_neg h]
    by_cases h1 : i < p / 8
    · rw [if_pos (by omega), if_pos h1]
    · rw [if_neg (by omega)]

theorem bitAt_unitBit {len p : Nat} (n : Nat) : bitAt (unitBit len p) n = decide (n = p) := by
  unfold bitAt
  rw [byteAt_unitBit]
  by_cases h : n / 8 = p / 8
  · rw [if_pos h]
    show (BitVec.twoPow 8 (p % 8)).getLsbD (n % 8) = _
    rw [BitVec.getLsbD_twoPow]
    by_cases h2 : n = p
    · subst h2
      simp
      omega
    · have : ¬ (p % 8 = n % 8) := by omega
      simp [h2, this]
  · rw [if_neg h]
    have : n ≠ p := fun e => h (by rw [e])
    simp [this]

theorem bitAt_xorBytes {a b : Bytes} (h : a.length = b.length) (n : Nat) : bitAt (xorBytes a b) n = (bitAt a n ^^ bitAt b n) := by
  unfold bitAt
  rw [byteAt_xorBytes h, UInt8.toNat_xor, Nat.testBit_xor]

theorem bits_ext {a b : Bytes} (hl : a.length = b.length) (h : ∀ n, n < 8 * a.length → bitAt a n = bitAt b n) : a = b := by
  refine bytes_ext hl fun i hi => UInt8.toBitVec_inj.mp (BitVec.eq_of_getLsbD_eq fun j hj => ?_)
  have := h (8 * i + j) (by omega)
  unfold bitAt at this
  rw [show (8 * i + j) / 8 = i by omega, show (8 * i + j) % 8 = j by omega] at this
  exact this

/-- `len` bytes with just these bits set. -/
def unitBits (len : Nat) (ps : List Nat) : Bytes := ps.foldr (fun p acc => xorBytes (unitBit len p) acc) (zeros len)

theorem unitBits_cons (len p : Nat) (ps : List Nat) : unitBits len (p :: ps) = xorBytes (unitBit len p) (unitBits len ps) := rfl

theorem unitBits_length {len : Nat} {ps : List Nat} (h : ∀ p ∈ ps, p < 8 * len) : (unitBits len ps).length = len := by
  induction ps with
  | nil => simp [unitBits]
  | cons p ps ih =>
    have h1 := unitBit_length (h p (by simp))
    have h2 := ih fun q hq => h q (by simp [hq])
    rw [unitBits_cons, xorBytes_length (by omega), h1]

theorem bitAt_unitBits {len : Nat} {ps : List Nat} (h : ∀ p ∈ ps, p < 8 * len) (hnd : ps.Nodup) (n : Nat) :
    bitAt (unitBits len ps) n = decide (n ∈ ps) := by
  induction ps with
  | nil => simp [unitBits, bitAt]
  | cons p ps ih =>
    have h1 := unitBit_length (h p (by simp))
    have h2 : (unitBits len ps).length = len := unitBits_length fun q hq => h q (by simp [hq])
    have h3 := List.nodup_cons.mp hnd
    rw [unitBits_cons, bitAt_xorBytes (by omega), bitAt_unitBit, ih (fun q hq => h q (by simp [hq])) h3.2]
    by_cases hn : n = p
    · subst hn
      simp [h3.1]
    · simp [hn]

/-- The difference of two contents of which just the bits `ps` differ. -/
theorem xorBytes_flipped {data data' : Bytes} {start len : Nat} {ps : List Nat} (hl : start + len ≤ data.length)
    (hl' : start + len ≤ data'.length) (hf : Flipped data data' start len ps) :
    xorBytes (slice data' start len) (slice data start len) = unitBits len ps := by
  have h1 := slice_length_of_le hl
  have h2 := slice_length_of_le hl'
  have h3 : (xorBytes (slice data' start len) (slice data start len)).length = len := by rw [xorBytes_length (by omega), h2]
  refine bits_ext (by rw [h3, unitBits_length hf.inside]) fun n hn => ?_
  rw [h3] at hn
  rw [bitAt_xorBytes (by omega), bitAt_unitBits hf.inside hf.once]
  have hs : ∀ b : Bytes, bitAt (slice b start len) n = bitAt b (8 * start + n) := by
    intro b
    unfold bitAt
    rw [byteAt_slice, if_pos (by omega), show (8 * start + n) / 8 = start + n / 8 by omega, show (8 * start + n) % 8 = n % 8 by omega]
  rw [hs, hs, hf.bits n hn]
  cases bitAt data (8 * start + n) <;> cases decide (n ∈ ps) <;> rfl

/-- Any bits can be changed. -/
theorem exists_flipped {data : Bytes} {start len : Nat} {ps : List Nat} (hl : start + len ≤ data.length) (hne : ps ≠ []) (hnd : ps.Nodup)
    (hin : ∀ p ∈ ps, p < 8 * len) : ∃ data' : Bytes, data'.length = data.length ∧ Flipped data data' start len ps := by
  have h1 := slice_length_of_le hl
  have h2 : (unitBits len ps).length = len := unitBits_length hin
  have h3 : (xorBytes (slice data start len) (unitBits len ps)).length = len := by rw [xorBytes_length (by omega), h1]
  refine ⟨patch data start (xorBytes (slice data start len) (unitBits len ps)), by rw [patch_length, h3]; omega, hne, hnd, hin, fun n hn => ?_⟩
  have : bitAt (patch data start (xorBytes (slice data start len) (unitBits len ps))) (8 * start + n) =
      bitAt (xorBytes (slice data start len) (unitBits len ps)) n := by
    unfold bitAt
    rw [byteAt_patch_inside (by omega) (by omega), show (8 * start + n) / 8 - start = n / 8 by omega,
      show (8 * start + n) % 8 = n % 8 by omega]
  rw [this, bitAt_xorBytes (by omega), bitAt_unitBits hin hnd]
  congr 1
  unfold bitAt
  rw [byteAt_slice, if_pos (by omega), show (8 * start + n) / 8 = start + n / 8 by omega, show (8 * start + n) % 8 = n % 8 by omega]

/-! ## The checksum of single bits -/

theorem crcShift8_eq_iterate (s : BitVec 32) : crcShift8 s = crcBit^[8] s := rfl

theorem crcUpdate_zeros (n : Nat) (s : BitVec 32) : crcUpdate s (zeros n) = crcBit^[8 * n] s := by
  induction n generalizing s with
  | zero => rfl
  | succ n ih =>
    have : zeros (n + 1) = 0 :: zeros n := rfl
    rw [this]
    show crcUpdate (crcByte s 0) (zeros n) = _
    rw [ih]
    have : crcByte s 0 = crcBit^[8] s := by
      unfold crcByte
      rw [show (0 : UInt8).toBitVec.setWidth 32 = 0#32 from rfl, BitVec.xor_zero, crcShift8_eq_iterate]
    rw [this, ← Function.iterate_add_apply]
    rfl

theorem crcByte_bit : ∀ j, j < 8 → crcByte 0#32 ⟨BitVec.twoPow 8 j⟩ = xpow (39 - j) := by decide +kernel

theorem crcUpdate_unitBit {len p : Nat} (h : p < 8 * len) : crcUpdate 0#32 (unitBit len p) = xpow (8 * len + 31 - p) := by
  unfold unitBit
  rw [crcUpdate_append, crcUpdate_append, crcUpdate_zeros (p / 8), crcBit_iterate_zero]
  show crcUpdate (crcByte 0#32 _) _ = _
  rw [crcByte_bit _ (by omega), crcUpdate_zeros, ← xpow_add]
  congr 1
  omega

theorem crcUpdate_unitBits {len : Nat} {ps : List Nat} (h : ∀ p ∈ ps, p < 8 * len) :
    crcUpdate 0#32 (unitBits len ps) = xsum (ps.map fun p => 8 * len + 31 - p) := by
  induction ps with
  | nil =>
    show crcUpdate _ (zeros len) = _
    rw [crcUpdate_zeros, crcBit_iterate_zero]
    rfl
  | cons p ps ih =>
    have h1 := unitBit_length (h p (by simp))
    have h2 : (unitBits len ps).length = len := unitBits_length fun q hq => h q (by simp [hq])
    have := crcUpdate_xor (h1.trans h2.symm) 0#32 0#32
    rw [BitVec.xor_self] at this
    rw [unitBits_cons, this, crcUpdate_unitBit (h p (by simp)), ih fun q hq => h q (by simp [hq])]
    rfl

/-- The exponent that belongs to a bit of a header: the bits of the checksum come last. -/
def expo (p : Nat) : Nat := if 128 ≤ p ∧ p < 160 then 159 - p else 767 - p

theorem word4_unitBit : ∀ p, 128 ≤ p → p < 160 → word4 (unitBit 92 p) 16 = xpow (159 - p) := by
  have : ∀ q, q < 32 → word4 (unitBit 92 (128 + q)) 16 = xpow (31 - q) := by decide +kernel
  intro p h1 h2
  have := this (p - 128) (by omega)
  rw [show 128 + (p - 128) = p by omega, show 31 - (p - 128) = 159 - p by omega] at this
  exact this

theorem syndrome_unitBit {p : Nat} (h : p < 736) : syndrome (unitBit 92 p) = xpow (expo p) := by
  have hl : (unitBit 92 p).length = 92 := unitBit_length (by omega)
  unfold syndrome expo
  by_cases hp : 128 ≤ p ∧ p < 160
  · rw [if_pos hp, word4_unitBit p hp.1 hp.2]
    have : withoutCrc (unitBit 92 p) 0 = zeros 92 := by
      refine bytes_ext (by rw [withoutCrc_length (by omega)]; simp) fun i hi => ?_
      rw [withoutCrc_length (by omega)] at hi
      rw [byteAt_withoutCrc (by omega) hi, byteAt_zeros]
      split
      · rfl
      · rw [byteAt_unitBit, if_neg (by omega)]
    rw [this, crcUpdate_zeros, crcBit_iterate_zero, BitVec.zero_xor]
  · rw [if_neg hp]
    have : withoutCrc (unitBit 92 p) 0 = unitBit 92 p := by
      refine bytes_ext (by rw [withoutCrc_length (by omega), hl]) fun i hi => ?_
      rw [withoutCrc_length (by omega)] at hi
      rw [byteAt_withoutCrc (by omega) hi, Nat.zero_add]
      split
      · rw [byteAt_unitBit, if_neg (by omega)]
      · rfl
    rw [this, crcUpdate_unitBit (by omega)]
    have : word4 (unitBit 92 p) 16 = 0#32 := by
      unfold word4
      simp only [byteAt_unitBit]
      rw [if_neg (by omega), if_neg (by omega), if_neg (by omega), if_neg (by omega)]
      decide
    rw [this, BitVec.xor_zero]

theorem syndrome_unitBits {ps : List Nat} (h : ∀ p ∈ ps, p < 736) : syndrome (unitBits 92 ps) = xsum (ps.map expo) := by
  induction ps with
  | nil => decide +kernel
  | cons p ps ih =>
    have h1 := unitBit_length (len := 92) (h p (by simp))
    have h2 : (unitBits 92 ps).length = 92 := unitBits_length fun q hq => h q (by simp [hq])
    rw [unitBits_cons, syndrome_xor h1 h2, syndrome_unitBit (h p (by simp)), ih fun q hq => h q (by simp [hq])]
    rfl

/-! ## C113: headers -/

theorem valid_flipped {data data' : Bytes} {off : Nat} {ps : List Nat} (hv : ValidAt data off) (hlen : data'.length = data.length)
    (hf : Flipped data data' off 92 ps) (hsig : slice data' off 8 = slice data off 8) :
    ValidAt data' off ↔ xsum (ps.map expo) = 0#32 := by
  have hl := hv.fits
  rw [valid_iff hv hlen hsig, xorBytes_flipped hl (by omega) hf, syndrome_unitBits hf.inside]

/-- **C113**, headers: a header with one to four changed bits, wherever they are, is not valid. -/
theorem c113_header {data data' : Bytes} {off : Nat} {ps : List Nat} (hv : ValidAt data off) (hlen : data'.length = data.length)
    (hf : Flipped data data' off 92 ps) (h4 : ps.length ≤ 4) : ¬ ValidAt data' off := by
  intro hv'
  have h0 := (valid_flipped hv hlen hf (hv'.signature.trans hv.signature.symm)).mp hv'
  refine xsum_ne_zero (by simpa using hf.some_bit) ?_ (.inr ⟨by simpa using h4, fun a ha b hb => ?_⟩) h0
  · refine List.Nodup.map_on ?_ hf.once
    intro p hp q hq e
    have := hf.inside p hp
    have := hf.inside q hq
    unfold expo at e
    split at e <;> split at e <;> omega
  · obtain ⟨p, -, rfl⟩ := List.mem_map.mp hb
    unfold expo
    split <;> omega

/-- **C113**, five bits: on every header there are five bits that can be changed together unnoticed, e.g. the highest bit of the checksum
with bits of the backup address, the partition count and the entry size. -/
theorem c113_five {data data' : Bytes} {off : Nat} (hv : ValidAt data off) (hlen : data'.length = data.length)
    (hf : Flipped data data' off 92 [159, 128, 532, 259, 193]) : ValidAt data' off := by
  have hl := hv.fits
  refine (valid_flipped hv hlen hf ?_).mpr ?_
  · refine slice_congr (by omega) (by omega) fun i h1 h2 => UInt8.toBitVec_inj.mp (BitVec.eq_of_getLsbD_eq fun j hj => ?_)
    have := hf.bits (8 * (i - off) + j) (by omega)
    unfold bitAt at this
    rw [show (8 * off + (8 * (i - off) + j)) / 8 = i by omega, show (8 * off + (8 * (i - off) + j)) % 8 = j by omega,
      decide_eq_false (by simp only [List.mem_cons, List.not_mem_nil, or_false]; omega), Bool.xor_false] at this
    exact this
  · show xsum [0, 31, 235, 508, 574] = 0#32
    simp only [xsum, List.foldr_cons, List.foldr_nil]
    rw [← xpowFast_eq 10 0 (by decide), ← xpowFast_eq 10 31 (by decide), ← xpowFast_eq 10 235 (by decide),
      ← xpowFast_eq 10 508 (by decide), ← xpowFast_eq 10 574 (by decide)]
    decide +kernel

/-- **C113**, reading: a header with one to four changed bits is refused. -/
theorem c113_read (off : UInt64) (d d' : Dev) (h h' : Header) (ps : List Nat) (hf : d.faults = []) (hf' : d'.faults = [])
    (hv : (fileReadHeader off d).1 = .ok h) (hlen : d'.data.length = d.data.length) (hfl : Flipped d.data d'.data off.toNat 92 ps)
    (h4 : ps.length ≤ 4) : (fileReadHeader off d').1 ≠ .ok h' := fun e =>
  c113_header (((c05_read_header off d hf).1 h).mp hv).1 hlen hfl h4 (((c05_read_header off d' hf').1 h').mp e).1

/-! ## C113: partition arrays -/

theorem crc32_flipped {data data' : Bytes} {start len : Nat} {ps : List Nat} (hl : start + len ≤ data.length)
    (hl' : start + len ≤ data'.length) (hf : Flipped data data' start len ps) :
    crc32 (slice data' start len) = crc32 (slice data start len) ↔ xsum (ps.map fun p => 8 * len + 31 - p) = 0#32 := by
  have h1 := slice_length_of_le hl
  have h2 := slice_length_of_le hl'
  have h := crcUpdate_xor (h2.trans h1.symm) 0xFFFFFFFF#32 0xFFFFFFFF#32
  rw [BitVec.xor_self, xorBytes_flipped hl hl' hf, crcUpdate_unitBits hf.inside] at h
  rw [h]
  unfold crc32
  constructor
  · intro e
    have e' := congrArg UInt32.toBitVec e
    change crcUpdate _ _ ^^^ _ = crcUpdate _ _ ^^^ _ at e'
    have := congrArg (· ^^^ 0xFFFFFFFF#32) e'
    simp only [BitVec.xor_assoc, BitVec.xor_self, BitVec.xor_zero] at this
    rw [this, BitVec.xor_self]
  · intro e
    rw [xor_eq_zero e]

/-- The bits are few enough, and near enough to each other, to be noticed for certain: one or two less than 512 MiB apart, or up to four
within 128 bytes. -/
def Spec.FewBits (ps : List Nat) : Prop :=
  (ps.length ≤ 2 ∧ ∀ p ∈ ps, ∀ q ∈ ps, q - p < 2 ^ 32 - 1) ∨ (ps.length ≤ 4 ∧ ∀ p ∈ ps, ∀ q ∈ ps, q - p < 1024)

theorem crc32_fewBits {data data' : Bytes} {start len : Nat} {ps : List Nat} (hl : start + len ≤ data.length)
    (hl' : start + len ≤ data'.length) (hf : Flipped data data' start len ps) (h : FewBits ps) :
    crc32 (slice data' start len) ≠ crc32 (slice data start len) := by
  rw [ne_eq, crc32_flipped hl hl' hf]
  refine xsum_ne_zero (by simpa using hf.some_bit) (List.Nodup.map_on ?_ hf.once) ?_
  · intro p hp q hq e
    have := hf.inside p hp
    have := hf.inside q hq
    omega
  · rw [List.length_map]
    refine h.imp (fun h => ⟨h.1, fun a ha b hb => ?_⟩) (fun h => ⟨h.1, fun a ha b hb => ?_⟩)
    all_goals
      obtain ⟨p, hp, rfl⟩ := List.mem_map.mp ha
      obtain ⟨q, hq, rfl⟩ := List.mem_map.mp hb
      have := hf.inside p hp
      have := h.2 q hq p hp
      have := hf.inside q hq
      omega

/-- **C113**, arrays: a partition array with these bits changed is never accepted, for every mode and fault schedule. -/
theorem c113_table (m m' : Mode) (h : Header) (lb : LbSize) (d d1 d' : Dev) (t t' : PMap) (ps : List Nat)
    (hok : fileReadPartitions m h lb d = (.ok t, d1)) (hlen : d'.data.length = d.data.length)
    (hf : Flipped d.data d'.data (h.partStart.toNat * lb.usize) (128 * h.numParts.toNat) ps) (hfew : FewBits ps) :
    (fileReadPartitions m' h lb d').1 ≠ .ok t' := by
  intro e
  obtain ⟨hs, h128, -, hl, hc, -⟩ := fileReadPartitions_ok hok
  have hl : h.partStart.toNat * lb.usize + 128 * h.numParts.toNat ≤ d.data.length := by
    rcases hl with hl | hl
    · obtain ⟨p, hp⟩ := List.exists_mem_of_ne_nil _ hf.some_bit
      have := hf.inside p hp
      rw [hl] at this
      have : (0 : UInt32).toNat = 0 := rfl
      omega
    · exact hl
  obtain ⟨-, -, -, -, hc', -⟩ := fileReadPartitions_ok (Prod.ext e rfl : fileReadPartitions m' h lb d' = (.ok t', _))
  exact crc32_fewBits hl (by omega) hf hfew (hc'.trans hc.symm)

/-- **C113**, three bits: three changed bits far apart can pass. Any three bits at these distances do, in an array of any length. -/
theorem c113_three (m : Mode) (h : Header) (lb : LbSize) (d d1 d' : Dev) (t : PMap) (p : Nat)
    (hok : fileReadPartitions m h lb d = (.ok t, d1)) (hf : d'.faults = []) (he : m = .release ∨ h.numParts.toNat < 2 ^ 31)
    (hlen : d'.data.length = d.data.length)
    (hfl : Flipped d.data d'.data (h.partStart.toNat * lb.usize) (128 * h.numParts.toNat) [p, p + 49961, p + 91639]) :
    ∃ t', (fileReadPartitions m h lb d').1 = .ok t' := by
  obtain ⟨hs, h128, -, hl, hc, -⟩ := fileReadPartitions_ok hok
  have hin := hfl.inside (p + 91639) (by simp)
  have hl : h.partStart.toNat * lb.usize + 128 * h.numParts.toNat ≤ d.data.length := by
    rcases hl with hl | hl
    · rw [hl] at hin
      have : (0 : UInt32).toNat = 0 := rfl
      omega
    · exact hl
  have heq : crc32 (slice d'.data (h.partStart.toNat * lb.usize) (128 * h.numParts.toNat)) =
      crc32 (slice d.data (h.partStart.toNat * lb.usize) (128 * h.numParts.toNat)) := by
    refine (crc32_flipped hl (by omega) hfl).mpr ?_
    obtain ⟨k, hk⟩ : ∃ k, k = 8 * (128 * h.numParts.toNat) + 31 - (p + 91639) := ⟨_, rfl⟩
    show xpow (8 * (128 * h.numParts.toNat) + 31 - p) ^^^ (xpow (8 * (128 * h.numParts.toNat) + 31 - (p + 49961)) ^^^
      (xpow (8 * (128 * h.numParts.toNat) + 31 - (p + 91639)) ^^^ 0#32)) = 0#32
    rw [show 8 * (128 * h.numParts.toNat) + 31 - p = k + 91639 by omega,
      show 8 * (128 * h.numParts.toNat) + 31 - (p + 49961) = k + 41678 by omega, ← hk, xpow_add k 91639, xpow_add k 41678,
      BitVec.xor_zero, show xpow k = crcBit^[k] (xpow 0) from rfl, ← crcBit_iterate_xor, ← crcBit_iterate_xor]
    have : xpow 91639 ^^^ (xpow 41678 ^^^ xpow 0) = 0#32 := by
      rw [← xpowFast_eq 17 91639 (by decide), ← xpowFast_eq 17 41678 (by decide), ← xpowFast_eq 17 0 (by decide)]
      decide +kernel
    rw [this, crcBit_iterate_zero]
  obtain ⟨q, e⟩ := fileReadPartitions_nil (m := m) hf hs h128 (by rw [hlen]; exact hl) he
  exact ⟨_, by rw [e, if_pos (heq.trans hc)]⟩

/-! ## Examples -/

/-- The sample header with four bits changed is not valid; with five it can be. -/
example : (∃ data', Flipped (sampleHeader.encode 7) data' 0 92 [70, 100, 159, 735] ∧ ¬ ValidAt data' 0) ∧
    ∃ data', Flipped (sampleHeader.encode 7) data' 0 92 [159, 128, 532, 259, 193] ∧ ValidAt data' 0 := by
  have hv : ValidAt (sampleHeader.encode 7) 0 := by
    have := (sample_valid [] []).1
    rwa [List.nil_append, List.append_nil] at this
  have hl := hv.fits
  obtain ⟨d1, l1, f1⟩ := exists_flipped (ps := [70, 100, 159, 735]) hl (by decide) (by decide) (by decide)
  obtain ⟨d2, l2, f2⟩ := exists_flipped (ps := [159, 128, 532, 259, 193]) hl (by decide) (by decide) (by decide)
  exact ⟨⟨d1, f1, c113_header hv l1 f1 (by decide)⟩, ⟨d2, f2, c113_five hv l2 f2⟩⟩

/-- A device with an empty array of 128 entries at block 2, and a header that points to it. -/
def fewDev : Dev := { data := zeros 17408, pos := 0, cap := 17408, faults := [], log := [] }

def fewHeader : Header := { sampleHeader with partStart := 2, numParts := 128, partSize := 128, crc32Parts := crc32 (slice fewDev.data 1024 16384) }

theorem fewDev_read : ∃ t d1, fileReadPartitions .release fewHeader .lb512 fewDev = (.ok t, d1) := by
  obtain ⟨p, e⟩ := fileReadPartitions_nil (m := .release) (h := fewHeader) (lb := .lb512) (d := fewDev) rfl (by decide) rfl (by decide +kernel) (.inl rfl)
  have hc : crc32 (slice fewDev.data (fewHeader.partStart.toNat * LbSize.lb512.usize) (128 * fewHeader.numParts.toNat)) =
    fewHeader.crc32Parts := rfl
  rw [if_pos hc] at e
  exact ⟨_, _, e⟩

/-- Of that array, two bits at the ends, or four near each other, cannot be changed unnoticed; three far apart can. -/
example : (∃ d' : Dev, Flipped fewDev.data d'.data 1024 16384 [0, 131071] ∧ ∀ t', (fileReadPartitions .debug fewHeader .lb512 d').1 ≠ .ok t') ∧
    (∃ d' : Dev, Flipped fewDev.data d'.data 1024 16384 [5, 600, 7, 1028] ∧ ∀ t', (fileReadPartitions .debug fewHeader .lb512 d').1 ≠ .ok t') ∧
    ∃ d' : Dev, Flipped fewDev.data d'.data 1024 16384 [5, 49966, 91644] ∧ ∃ t', (fileReadPartitions .release fewHeader .lb512 d').1 = .ok t' := by
  have hl : 1024 + 16384 ≤ fewDev.data.length := by decide +kernel
  obtain ⟨t, d1, hok⟩ := fewDev_read
  obtain ⟨a, l1, f1⟩ := exists_flipped (ps := [0, 131071]) hl (by decide) (by decide) (by decide)
  obtain ⟨b, l2, f2⟩ := exists_flipped (ps := [5, 600, 7, 1028]) hl (by decide) (by decide) (by decide)
  obtain ⟨c, l3, f3⟩ := exists_flipped (ps := [5, 49966, 91644]) hl (by decide) (by decide) (by decide)
  exact ⟨⟨{ fewDev with data := a }, f1, fun t' => c113_table .release .debug fewHeader .lb512 fewDev d1 _ t t' _ hok l1 f1
      (.inl (by decide))⟩,
    ⟨{ fewDev with data := b }, f2, fun t' => c113_table .release .debug fewHeader .lb512 fewDev d1 _ t t' _ hok l2 f2 (.inr (by decide))⟩,
    ⟨{ fewDev with data := c }, f3, c113_three .release fewHeader .lb512 fewDev d1 _ t 5 hok rfl (.inl rfl) l3 f3⟩⟩

end Gpt
