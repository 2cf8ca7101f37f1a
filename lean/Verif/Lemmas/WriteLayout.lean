import Verif.Lemmas.WritePlan
import Verif.Lemmas.Entry
/-!
# The bytes `write_inplace` leaves, for a layout without overlaps
-/

namespace Gpt

/-- The bytes of an array of `n` entries holding `parts` in its first slots. -/
def tableBytes (parts : List Partition) (n : Nat) : Bytes :=
  parts.flatMap (fun p => p.asBytes 128) ++ zeros ((n - parts.length) * 128)

theorem asBytes128_length (p : Partition) : (p.asBytes 128).length = 128 := p.asBytes_length 128

theorem entries_length (parts : List Partition) : (parts.flatMap (fun p => p.asBytes 128)).length = parts.length * 128 := by
  induction parts with
  | nil => rfl
  | cons p ps ih => simp only [List.flatMap_cons, List.length_append, asBytes128_length, ih, List.length_cons]; omega

theorem tableBytes_length {parts : List Partition} {n : Nat} (h : parts.length ≤ n) : (tableBytes parts n).length = n * 128 := by
  unfold tableBytes
  rw [List.length_append, entries_length, zeros_length]
  omega

theorem slice_entries (parts : List Partition) (j : Nat) (h : j < parts.length) :
    slice (parts.flatMap (fun p => p.asBytes 128)) (j * 128) 128 = parts[j].asBytes 128 := by
  induction parts generalizing j with
  | nil => simp at h
  | cons p ps ih =>
    simp only [List.flatMap_cons]
    cases j with
    | zero =>
      rw [Nat.zero_mul, slice_append_left (by rw [asBytes128_length])]
      exact slice_zero_length (asBytes128_length p)
    | succ j =>
      rw [slice_append_right (by rw [asBytes128_length]; omega), asBytes128_length,
        show (j + 1) * 128 - 128 = j * 128 by omega]
      exact ih j (by simpa using h)

theorem slice_table_entry {parts : List Partition} {n j : Nat} (h : j < parts.length) :
    slice (tableBytes parts n) (j * 128) 128 = parts[j].asBytes 128 := by
  unfold tableBytes
  rw [slice_append_left (by rw [entries_length]; omega), slice_entries parts j h]

theorem byteAt_table_entry {parts : List Partition} {n j i : Nat} (h : j < parts.length) (hi : i < 128) :
    byteAt (tableBytes parts n) (j * 128 + i) = byteAt (parts[j].asBytes 128) i := by
  rw [← slice_table_entry (n := n) h, byteAt_slice, if_pos hi]

theorem byteAt_table_zero {parts : List Partition} {n i : Nat} (h : parts.length * 128 ≤ i) : byteAt (tableBytes parts n) i = 0 := by
  unfold tableBytes
  rw [byteAt_append, entries_length, if_neg (by omega), byteAt_zeros]

theorem slice_table_zero {parts : List Partition} {n j : Nat} (h : parts.length ≤ j) (hn : j < n) :
    slice (tableBytes parts n) (j * 128) 128 = zeros 128 := by
  refine slice_eq_of_byteAt ?_ (zeros_length _) fun i hi => ?_
  · rw [tableBytes_length (by omega)]; omega
  · rw [byteAt_table_zero (by omega), byteAt_zeros]

namespace GptDisk

theorem mem_entryPlan {lb : LbSize} {ph : Header} {bh : Option Header} {parts : List Partition} {idx : Nat} {w : Write}
    (h : w ∈ entryPlan lb ph bh parts idx) :
    ∃ j, ∃ hj : j < parts.length, w = slotW lb ph (idx + j) parts[j] ∨ ∃ b, bh = some b ∧ w = slotW lb b (idx + j) parts[j] := by
  induction parts generalizing idx with
  | nil => simp [entryPlan] at h
  | cons p ps ih =>
    unfold entryPlan at h
    rw [List.append_assoc, List.mem_append, List.mem_append] at h
    rcases h with h | h | h
    · exact ⟨0, by simp, .inl (by simpa using h)⟩
    · refine ⟨0, by simp, .inr ?_⟩
      unfold slotB at h
      split at h
      · rename_i b
        split at h
        · exact ⟨b, rfl, by simpa using h⟩
        · simp at h
      · simp at h
    · obtain ⟨j, hj, hw⟩ := ih h
      refine ⟨j + 1, by simpa using hj, ?_⟩
      rw [show idx + (j + 1) = idx + 1 + j by omega]
      simpa using hw

theorem slotW_mem {lb : LbSize} {ph : Header} {bh : Option Header} {parts : List Partition} (idx : Nat) {j : Nat}
    (hj : j < parts.length) : slotW lb ph (idx + j) parts[j] ∈ entryPlan lb ph bh parts idx := by
  induction parts generalizing idx j with
  | nil => simp at hj
  | cons p ps ih =>
    unfold entryPlan
    rw [List.append_assoc, List.mem_append, List.mem_append]
    cases j with
    | zero => exact .inl (by simp)
    | succ j =>
      refine .inr (.inr ?_)
      have := ih (idx + 1) (j := j) (by simpa using hj)
      rw [show idx + (j + 1) = idx + 1 + j by omega]
      simpa using this

theorem slotB_mem {lb : LbSize} {ph b : Header} (hne : ph.partStart ≠ b.partStart) {parts : List Partition} (idx : Nat) {j : Nat}
    (hj : j < parts.length) : slotW lb b (idx + j) parts[j] ∈ entryPlan lb ph (some b) parts idx := by
  induction parts generalizing idx j with
  | nil => simp at hj
  | cons p ps ih =>
    unfold entryPlan
    rw [List.append_assoc, List.mem_append, List.mem_append]
    cases j with
    | zero =>
      refine .inr (.inl ?_)
      unfold slotB
      simp [hne]
    | succ j =>
      refine .inr (.inr ?_)
      have := ih (idx + 1) (j := j) (by simpa using hj)
      rw [show idx + (j + 1) = idx + 1 + j by omega]
      simpa using this

/-- What a slot or zero write puts in the array at `o`. -/
theorem slotW_covers {lb : LbSize} {h : Header} {o : Nat} (ho : h.arrayStart lb = o) (h128 : h.partSize = 128)
    {parts : List Partition} {n : Nat} (hl : parts.length ≤ n) {j : Nat} (hj : j < parts.length) {i : Nat}
    (hc : (slotW lb h (0 + j) parts[j]).Covers i) :
    o ≤ i ∧ i < o + n * 128 ∧
      byteAt (slotW lb h (0 + j) parts[j]).2 (i - (slotW lb h (0 + j) parts[j]).1) = byteAt (tableBytes parts n) (i - o) := by
  have e : (128 : UInt32).toNat = 128 := rfl
  unfold slotW Write.Covers at *
  simp only [h128, asBytes128_length, ho, Nat.zero_add, e] at hc ⊢
  refine ⟨by omega, by omega, ?_⟩
  have : i - o = j * 128 + (i - (o + j * 128)) := by omega
  rw [this, byteAt_table_entry hj (by omega)]

theorem zeroW_covers {lb : LbSize} {h : Header} {o : Nat} (ho : h.arrayStart lb = o) (h128 : h.partSize = 128)
    {parts : List Partition} {n : Nat} (hn : h.numParts.toNat = n) {i : Nat}
    (hc : (zeroW lb h parts.length).Covers i) :
    o ≤ i ∧ i < o + n * 128 ∧
      byteAt (zeroW lb h parts.length).2 (i - (zeroW lb h parts.length).1) = byteAt (tableBytes parts n) (i - o) := by
  have e : (128 : UInt32).toNat = 128 := rfl
  unfold zeroW Write.Covers at *
  simp only [h128, zeros_length, ho, e, hn] at hc ⊢
  refine ⟨by omega, by omega, ?_⟩
  rw [byteAt_zeros, byteAt_table_zero (by omega)]

/-- Every byte of the array is in a slot of an entry or in the zeroed rest. -/
theorem array_covered {lb : LbSize} {h : Header} {o : Nat} (ho : h.arrayStart lb = o) (h128 : h.partSize = 128)
    {parts : List Partition} {n : Nat} (hn : h.numParts.toNat = n) {i : Nat} (h1 : o ≤ i) (h2 : i < o + n * 128) :
    (∃ j, ∃ hj : j < parts.length, (slotW lb h (0 + j) parts[j]).Covers i) ∨ (zeroW lb h parts.length).Covers i := by
  have e : (128 : UInt32).toNat = 128 := rfl
  by_cases hz : i < o + parts.length * 128
  · left
    refine ⟨(i - o) / 128, by omega, ?_⟩
    unfold slotW Write.Covers
    simp only [h128, asBytes128_length, ho, Nat.zero_add, e]
    omega
  · right
    unfold zeroW Write.Covers
    simp only [h128, zeros_length, ho, e, hn]
    omega

/-- Both headers describe regions in disk order: primary header, primary array, backup array at `oB`, backup header at `oH`. -/
structure Geo (lb : LbSize) (ph : Header) (bh : Option Header) (oB oH : Nat) (len : Nat) : Prop where
  sig : ph.signature = efiPart
  reserved : ph.reserved = 0
  size : ph.partSize = 128
  cur : ph.currentLba.toNat * lb.usize = lb.usize
  start : ph.arrayStart lb = 2 * lb.usize
  sep : 2 * lb.usize + ph.numParts.toNat * 128 ≤ oB
  sepB : oB + ph.numParts.toNat * 128 ≤ oH
  fits : oH + lb.usize ≤ len
  bak : ∀ b, bh = some b → b.signature = efiPart ∧ b.reserved = 0 ∧ b.partSize = 128 ∧ b.numParts = ph.numParts ∧
    b.currentLba.toNat * lb.usize = oH ∧ b.arrayStart lb = oB ∧ ph.partStart ≠ b.partStart

section
variable {lb : LbSize} {ph : Header} {bh : Option Header} {oB oH : Nat} {data : Bytes} {parts : List Partition}

/-- The primary array holds byte `i`. -/
abbrev InP (lb : LbSize) (n i : Nat) : Prop := 2 * lb.usize ≤ i ∧ i < 2 * lb.usize + n * 128
/-- The backup array holds byte `i` (and the backup is written). -/
abbrev InB (bh : Option Header) (oB n i : Nat) : Prop := bh.isSome = true ∧ oB ≤ i ∧ i < oB + n * 128

theorem arrayPlan_covers {len : Nat} (g : Geo lb ph bh oB oH len) (hl : parts.length ≤ ph.numParts.toNat) {w : Write}
    (hw : w ∈ arrayPlan lb ph bh parts) {i : Nat} (hc : w.Covers i) :
    (InP lb ph.numParts.toNat i ∧ byteAt w.2 (i - w.1) = byteAt (tableBytes parts ph.numParts.toNat) (i - 2 * lb.usize)) ∨
    (InB bh oB ph.numParts.toNat i ∧ byteAt w.2 (i - w.1) = byteAt (tableBytes parts ph.numParts.toNat) (i - oB)) := by
  unfold arrayPlan at hw
  rw [List.append_assoc, List.mem_append, List.mem_append] at hw
  rcases hw with hw | hw | hw
  · obtain ⟨j, hj, rfl | ⟨b, rfl, rfl⟩⟩ := mem_entryPlan hw
    · obtain ⟨h1, h2, h3⟩ := slotW_covers g.start g.size hl hj hc
      exact .inl ⟨⟨h1, h2⟩, h3⟩
    · obtain ⟨-, -, b3, b4, -, b6, -⟩ := g.bak b rfl
      obtain ⟨h1, h2, h3⟩ := slotW_covers b6 b3 hl hj hc
      exact .inr ⟨⟨rfl, h1, h2⟩, h3⟩
  · simp only [List.mem_singleton] at hw
    subst hw
    obtain ⟨h1, h2, h3⟩ := zeroW_covers g.start g.size rfl hc
    exact .inl ⟨⟨h1, h2⟩, h3⟩
  · rw [List.mem_map] at hw
    obtain ⟨b, hb, rfl⟩ := hw
    rw [Option.mem_toList] at hb
    obtain ⟨-, -, b3, b4, -, b6, -⟩ := g.bak b hb
    obtain ⟨h1, h2, h3⟩ := zeroW_covers b6 b3 (by rw [b4]) hc
    have hs : bh.isSome = true := by cases hb; rfl
    exact .inr ⟨⟨hs, h1, h2⟩, h3⟩

theorem arrayPlan_primary {len : Nat} (g : Geo lb ph bh oB oH len) {i : Nat} (hi : InP lb ph.numParts.toNat i) :
    ∃ w ∈ arrayPlan lb ph bh parts, w.Covers i := by
  unfold arrayPlan
  rcases array_covered (parts := parts) g.start g.size rfl hi.1 hi.2 with ⟨j, hj, hc⟩ | hc
  · exact ⟨_, by rw [List.append_assoc, List.mem_append]; exact .inl (slotW_mem 0 hj), hc⟩
  · exact ⟨_, by simp, hc⟩

theorem arrayPlan_backup {len : Nat} (g : Geo lb ph bh oB oH len) {i : Nat} (hi : InB bh oB ph.numParts.toNat i) :
    ∃ w ∈ arrayPlan lb ph bh parts, w.Covers i := by
  obtain ⟨hs, h1, h2⟩ := hi
  obtain ⟨b, rfl⟩ := Option.isSome_iff_exists.mp hs
  obtain ⟨-, -, b3, b4, -, b6, b7⟩ := g.bak b rfl
  unfold arrayPlan
  rcases array_covered (parts := parts) b6 b3 (by rw [b4]) h1 h2 with ⟨j, hj, hc⟩ | hc
  · exact ⟨_, by rw [List.append_assoc, List.mem_append]; exact .inl (slotB_mem b7 0 hj), hc⟩
  · exact ⟨_, by simp, hc⟩

/-- All writes of the arrays are inside the device. -/
theorem arrayPlan_fits {len : Nat} (g : Geo lb ph bh oB oH len) (hl : parts.length ≤ ph.numParts.toNat) {w : Write}
    (hw : w ∈ arrayPlan lb ph bh parts) : w.1 + w.2.length ≤ len := by
  have hf := g.fits
  have hs1 := g.sep
  have hs2 := g.sepB
  have e : (128 : UInt32).toNat = 128 := rfl
  have key : ∀ (h : Header) (o : Nat), h.arrayStart lb = o → h.partSize = 128 → h.numParts = ph.numParts →
      o + ph.numParts.toNat * 128 ≤ len →
      (∀ j (hj : j < parts.length), (slotW lb h (0 + j) parts[j]).1 + (slotW lb h (0 + j) parts[j]).2.length ≤ len) ∧
      (zeroW lb h parts.length).1 + (zeroW lb h parts.length).2.length ≤ len := by
    intro h o h1 h2 h3 h4
    unfold slotW zeroW
    simp only [h2, asBytes128_length, h1, e, zeros_length, h3]
    exact ⟨fun j hj => by omega, by omega⟩
  obtain ⟨k1, k2⟩ := key ph _ g.start g.size rfl (by omega)
  unfold arrayPlan at hw
  rw [List.append_assoc, List.mem_append, List.mem_append] at hw
  rcases hw with hw | hw | hw
  · obtain ⟨j, hj, rfl | ⟨b, rfl, rfl⟩⟩ := mem_entryPlan hw
    · exact k1 j hj
    · obtain ⟨-, -, b3, b4, -, b6, -⟩ := g.bak b rfl
      exact (key b _ b6 b3 b4 (by omega)).1 j hj
  · simp only [List.mem_singleton] at hw
    subst hw
    exact k2
  · rw [List.mem_map] at hw
    obtain ⟨b, hb, rfl⟩ := hw
    rw [Option.mem_toList] at hb
    obtain ⟨-, -, b3, b4, -, b6, -⟩ := g.bak b hb
    exact (key b _ b6 b3 b4 (by omega)).2

/-- The bytes after the arrays are written. -/
theorem byteAt_arrays {len : Nat} (g : Geo lb ph bh oB oH len) (hl : parts.length ≤ ph.numParts.toNat) (data : Bytes) (i : Nat) :
    byteAt (applyWrites data (arrayPlan lb ph bh parts)) i =
      if InP lb ph.numParts.toNat i then byteAt (tableBytes parts ph.numParts.toNat) (i - 2 * lb.usize)
      else if InB bh oB ph.numParts.toNat i then byteAt (tableBytes parts ph.numParts.toNat) (i - oB)
      else byteAt data i := by
  have hs1 := g.sep
  split
  · rename_i hp
    refine byteAt_applyWrites_inside (fun w hw hc => ?_) (.inl (arrayPlan_primary g hp))
    rcases arrayPlan_covers g hl hw hc with h | h
    · exact h.2
    · have := h.1.2; omega
  · rename_i hp
    split
    · rename_i hb
      refine byteAt_applyWrites_inside (fun w hw hc => ?_) (.inl (arrayPlan_backup g hb))
      rcases arrayPlan_covers g hl hw hc with h | h
      · exact absurd h.1 hp
      · exact h.2
    · rename_i hb
      refine byteAt_applyWrites_outside fun w hw hc => ?_
      rcases arrayPlan_covers g hl hw hc with h | h
      · exact hp h.1
      · exact hb h.1

theorem length_arrays {len : Nat} (g : Geo lb ph bh oB oH len) (hl : parts.length ≤ ph.numParts.toNat) {data : Bytes}
    (hd : data.length = len) : (applyWrites data (arrayPlan lb ph bh parts)).length = len := by
  rw [(Torn.self _).length fun p hp => by rw [hd]; exact arrayPlan_fits g hl hp, hd]

theorem slice_arrays_primary {len : Nat} (g : Geo lb ph bh oB oH len) (hl : parts.length ≤ ph.numParts.toNat) {data : Bytes}
    (hd : data.length = len) :
    slice (applyWrites data (arrayPlan lb ph bh parts)) (2 * lb.usize) (ph.numParts.toNat * 128) =
      tableBytes parts ph.numParts.toNat := by
  have hs1 := g.sep
  have hs2 := g.sepB
  have hf := g.fits
  refine slice_eq_of_byteAt (by rw [length_arrays g hl hd]; omega) (tableBytes_length hl) fun i hi => ?_
  rw [byteAt_arrays g hl, if_pos ⟨by omega, by omega⟩, Nat.add_sub_cancel_left]

theorem slice_arrays_backup {len : Nat} (g : Geo lb ph bh oB oH len) (hl : parts.length ≤ ph.numParts.toNat) {data : Bytes}
    (hd : data.length = len) (hb : bh.isSome = true) :
    slice (applyWrites data (arrayPlan lb ph bh parts)) oB (ph.numParts.toNat * 128) =
      tableBytes parts ph.numParts.toNat := by
  have hs1 := g.sep
  have hs2 := g.sepB
  have hf := g.fits
  refine slice_eq_of_byteAt (by rw [length_arrays g hl hd]; omega) (tableBytes_length hl) fun i hi => ?_
  rw [byteAt_arrays g hl, if_neg (by omega), if_pos ⟨hb, by omega, by omega⟩, Nat.add_sub_cancel_left]

/-- The block of a header, as it is written. -/
def blockOf (lb : LbSize) (h : Header) (parts : List Partition) (n : Nat) : Bytes := h.block (Gpt.crc32 (tableBytes parts n)) lb

theorem blockOf_length (lb : LbSize) (h : Header) (parts : List Partition) (n : Nat) : (blockOf lb h parts n).length = lb.usize :=
  Header.block_length ..

/-- The header writes of the plan, with their contents. -/
def headPlan (lb : LbSize) (ph : Header) (bh : Option Header) (parts : List Partition) (oH : Nat) : List Write :=
  bh.toList.map (fun b => (oH, blockOf lb b parts ph.numParts.toNat)) ++ [(lb.usize, blockOf lb ph parts ph.numParts.toNat)]

/-- The primary array is not affected by the write of the backup header. -/
theorem slice_arrays_head {len : Nat} (g : Geo lb ph bh oB oH len) (hl : parts.length ≤ ph.numParts.toNat) {data : Bytes}
    (hd : data.length = len) :
    slice (applyWrites data (arrayPlan lb ph bh parts ++ bh.toList.map (fun b => (oH, blockOf lb b parts ph.numParts.toNat))))
      (2 * lb.usize) (ph.numParts.toNat * 128) = tableBytes parts ph.numParts.toNat := by
  have hs1 := g.sep
  have hs2 := g.sepB
  have hf := g.fits
  have hA := length_arrays g hl hd
  rw [applyWrites_append, ← slice_arrays_primary g hl hd]
  refine slice_congr ?_ (by rw [hA]; omega) fun i h1 h2 => ?_
  · have := length_applyWrites (applyWrites data (arrayPlan lb ph bh parts))
      (bh.toList.map (fun b => (oH, blockOf lb b parts ph.numParts.toNat)))
    omega
  · refine byteAt_applyWrites_outside fun w hw hc => ?_
    rw [List.mem_map] at hw
    obtain ⟨b, -, rfl⟩ := hw
    have := hc.1
    simp only at this
    omega

theorem writePlan_eq {len : Nat} (g : Geo lb ph bh oB oH len) (hl : parts.length ≤ ph.numParts.toNat) {data : Bytes}
    (hd : data.length = len) :
    writePlan lb ph bh parts data = arrayPlan lb ph bh parts ++ headPlan lb ph bh parts oH := by
  have hs1 := g.sep
  have hs2 := g.sepB
  have hf := g.fits
  have e : (128 : UInt32).toNat = 128 := rfl
  have hA := length_arrays g hl hd
  have hlen : ph.arrayLen = ph.numParts.toNat * 128 := by unfold Header.arrayLen; rw [g.size]; rfl
  have hbw : backupW lb bh (applyWrites data (arrayPlan lb ph bh parts)) =
      bh.toList.map (fun b => (oH, blockOf lb b parts ph.numParts.toNat)) := by
    unfold backupW
    apply List.map_congr_left
    intro b hb
    rw [Option.mem_toList] at hb
    obtain ⟨b1, -, b3, b4, b5, b6, -⟩ := g.bak b hb
    have hlenb : b.arrayLen = ph.numParts.toNat * 128 := by unfold Header.arrayLen; rw [b3, b4]; rfl
    unfold headerW blockOf
    rw [b5, b6, hlenb, slice_arrays_backup g hl hd (by cases hb; rfl)]
  have hpw := slice_arrays_head g hl hd
  unfold writePlan headPlan
  rw [hbw]
  unfold headerW
  rw [g.cur, g.start, hlen, hpw, List.append_assoc]
  rfl

theorem plan_fits {len : Nat} (g : Geo lb ph bh oB oH len) (hl : parts.length ≤ ph.numParts.toNat) {w : Write}
    (hw : w ∈ arrayPlan lb ph bh parts ++ headPlan lb ph bh parts oH) : w.1 + w.2.length ≤ len := by
  have hs1 := g.sep
  have hs2 := g.sepB
  have hf := g.fits
  rw [List.mem_append] at hw
  rcases hw with hw | hw
  · exact arrayPlan_fits g hl hw
  · unfold headPlan at hw
    rw [List.mem_append, List.mem_map] at hw
    rcases hw with ⟨b, -, rfl⟩ | hw
    · simp only [blockOf_length]; omega
    · simp only [List.mem_singleton] at hw
      subst hw
      simp only [blockOf_length]; omega

/-- The bytes after a complete write. -/
def finalByte (lb : LbSize) (ph : Header) (bh : Option Header) (parts : List Partition) (oB oH : Nat) (data : Bytes) (i : Nat) : UInt8 :=
  if lb.usize ≤ i ∧ i < 2 * lb.usize then byteAt (blockOf lb ph parts ph.numParts.toNat) (i - lb.usize)
  else if InP lb ph.numParts.toNat i then byteAt (tableBytes parts ph.numParts.toNat) (i - 2 * lb.usize)
  else match bh with
    | none => byteAt data i
    | some b =>
      if oB ≤ i ∧ i < oB + ph.numParts.toNat * 128 then byteAt (tableBytes parts ph.numParts.toNat) (i - oB)
      else if oH ≤ i ∧ i < oH + lb.usize then byteAt (blockOf lb b parts ph.numParts.toNat) (i - oH)
      else byteAt data i

/-- Every write of the plan writes bytes of the final content. -/
theorem plan_covers {len : Nat} (g : Geo lb ph bh oB oH len) (hl : parts.length ≤ ph.numParts.toNat) (data : Bytes) {w : Write}
    (hw : w ∈ arrayPlan lb ph bh parts ++ headPlan lb ph bh parts oH) {i : Nat} (hc : w.Covers i) :
    byteAt w.2 (i - w.1) = finalByte lb ph bh parts oB oH data i := by
  have hs1 := g.sep
  have hs2 := g.sepB
  rw [List.mem_append] at hw
  rcases hw with hw | hw
  · rcases arrayPlan_covers g hl hw hc with ⟨h, e⟩ | ⟨h, e⟩
    · unfold finalByte
      rw [e, if_neg (by omega), if_pos h]
    · obtain ⟨h0, h1, h2⟩ := h
      obtain ⟨b, rfl⟩ := Option.isSome_iff_exists.mp h0
      unfold finalByte
      simp only
      rw [e, if_neg (by omega), if_neg (by omega), if_pos ⟨h1, h2⟩]
  · unfold headPlan at hw
    rw [List.mem_append, List.mem_map] at hw
    rcases hw with ⟨b, hb, rfl⟩ | hw
    · rw [Option.mem_toList] at hb
      cases hb
      obtain ⟨h1, h2⟩ := hc
      simp only [blockOf_length] at h1 h2
      unfold finalByte
      simp only
      rw [if_neg (by omega), if_neg (by omega), if_neg (by omega), if_pos ⟨h1, h2⟩]
    · simp only [List.mem_singleton] at hw
      subst hw
      obtain ⟨h1, h2⟩ := hc
      simp only [blockOf_length] at h1 h2
      unfold finalByte
      simp only
      rw [if_pos (by omega)]

/-- Outside what the plan covers the final content is the old one. -/
theorem plan_outside {len : Nat} (g : Geo lb ph bh oB oH len) (data : Bytes) {i : Nat}
    (hn : ∀ w ∈ arrayPlan lb ph bh parts ++ headPlan lb ph bh parts oH, ¬ w.Covers i) :
    finalByte lb ph bh parts oB oH data i = byteAt data i := by
  unfold finalByte
  split
  · rename_i h
    refine absurd ?_ (hn (lb.usize, blockOf lb ph parts ph.numParts.toNat) (by simp [headPlan]))
    unfold Write.Covers
    rw [blockOf_length]
    exact ⟨h.1, by simp only; omega⟩
  · split
    · rename_i h
      obtain ⟨w, hw, hc⟩ := arrayPlan_primary (parts := parts) g h
      exact absurd hc (hn w (List.mem_append_left _ hw))
    · cases bh with
      | none => rfl
      | some b =>
        simp only
        split
        · rename_i h
          obtain ⟨w, hw, hc⟩ := arrayPlan_backup (parts := parts) g ⟨rfl, h.1, h.2⟩
          exact absurd hc (hn w (List.mem_append_left _ hw))
        · split
          · rename_i h
            refine absurd ?_ (hn (oH, blockOf lb b parts ph.numParts.toNat) (by simp [headPlan]))
            unfold Write.Covers
            rw [blockOf_length]
            exact h
          · rfl

/-- The bytes after a complete write, in one formula. -/
theorem byteAt_final {len : Nat} (g : Geo lb ph bh oB oH len) (hl : parts.length ≤ ph.numParts.toNat) (data : Bytes) (i : Nat) :
    byteAt (applyWrites data (arrayPlan lb ph bh parts ++ headPlan lb ph bh parts oH)) i =
      finalByte lb ph bh parts oB oH data i := by
  by_cases hc : ∃ w ∈ arrayPlan lb ph bh parts ++ headPlan lb ph bh parts oH, w.Covers i
  · exact byteAt_applyWrites_inside (fun w hw hc => plan_covers g hl data hw hc) (.inl hc)
  · rw [byteAt_applyWrites_outside (fun w hw hc' => hc ⟨w, hw, hc'⟩), plan_outside g data (fun w hw hc' => hc ⟨w, hw, hc'⟩)]

/-- At every point every byte is old or final. -/
theorem byteAt_torn {len : Nat} (g : Geo lb ph bh oB oH len) (hl : parts.length ≤ ph.numParts.toNat) (data : Bytes)
    {ws : List Write} (ht : Torn ws (arrayPlan lb ph bh parts ++ headPlan lb ph bh parts oH)) (i : Nat) :
    byteAt (applyWrites data ws) i = byteAt data i ∨ byteAt (applyWrites data ws) i = finalByte lb ph bh parts oB oH data i := by
  rcases ht.byteAt data i with h | ⟨p, hp, hc, h⟩
  · exact .inl h
  · exact .inr (h.trans (plan_covers g hl data hp hc))

theorem length_torn {len : Nat} (g : Geo lb ph bh oB oH len) (hl : parts.length ≤ ph.numParts.toNat) {data : Bytes}
    (hd : data.length = len) {ws : List Write} (ht : Torn ws (arrayPlan lb ph bh parts ++ headPlan lb ph bh parts oH)) :
    (applyWrites data ws).length = len := by
  rw [ht.length fun p hp => by rw [hd]; exact plan_fits g hl hp, hd]

end

end GptDisk

end Gpt
