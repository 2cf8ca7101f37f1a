import Verif.Lemmas.Panic
import Verif.Props.Overflow
/-!
# Calls that do not panic: C47, C66
-/

namespace Gpt

open Spec GptDisk

/-- The methods of C47 do not panic on `s`, for alignments that satisfy `al`. -/
structure Spec.Calm (m : Mode) (al : UInt64 → Prop) (s : GptDisk) : Prop where
  free : (s.findFreeSectors m : Res GptError _) ≠ .panic
  add : ∀ name size ty flags align fresh fresh2, size ≠ 0 → (∀ a, align = some a → al a) →
    (addPartition m name size ty flags align fresh fresh2 s).1 ≠ .panic
  alignment : (s.calculateAlignment : Res GptError _) ≠ .panic
  next : (s.findNextPartitionId : Res GptError _) ≠ .panic
  remove : ∀ id, (removePartition id s : Res GptError _ × _).1 ≠ .panic
  write : (writeInplace m s).1 ≠ .panic

/-- **C47**, the claim. -/
def C47 : Prop := ∀ (m : Mode) (cfg : GptConfig) (d d' : Dev) (s : GptDisk), openFromDevice m cfg d = (.ok s, d') → Calm m (· ≠ 0) s

theorem calm_of {m : Mode} {s : GptDisk} {h : Header} (hh : s.tryHeader = .ok h) (hz : h.partSize = 128)
    (hm : m = .release ∨ Modest h s.partitions) :
    Calm m (fun a => a ≠ 0 ∧ (m = .release ∨ a.toNat ≤ 2 ^ 63)) s where
  free := by
    obtain ⟨L, hL, -⟩ := findFreeSectors_or (ε := GptError) hh hm
    rw [hL]
    simp
  add name size ty flags align fresh fresh2 h0 ha := addPartition_or hh hm h0 ha
  alignment := by
    obtain ⟨a, ha, -⟩ := c27_alignment s
    rw [ha]
    simp
  next := by
    unfold findNextPartitionId
    split
    · simp
    · rw [header_ok_iff.mpr hh]
      simp
  remove id := by
    unfold removePartition
    split <;> simp
  write := writeInplace_or hh hz hm

/-- **C47**, for release builds: the claim holds for every image. -/
theorem c47_release {cfg : GptConfig} {d d' : Dev} {s : GptDisk} (hok : openFromDevice .release cfg d = (.ok s, d')) :
    Calm .release (· ≠ 0) s := by
  obtain ⟨h, d2, -, -, -, hh, -, -, -, -, -, hr⟩ := openFromDevice_ok hok
  obtain ⟨-, h128, -⟩ := fileReadPartitions_ok hr
  have c := calm_of (m := .release) hh h128 (.inl rfl)
  exact ⟨c.free, fun name size ty flags align fresh fresh2 h0 ha => c.add _ _ _ _ _ _ _ h0 fun a e => ⟨ha a e, .inl rfl⟩,
    c.alignment, c.next, c.remove, c.write⟩

/-- The images of the restricted claim: block numbers below `2^51`, fewer than `2^25 - 1` entries, usable range from block 2 on, no used
entry at block 0 or at the largest block number. -/
structure Spec.ModestImage (h : Header) (t : PMap) : Prop where
  first : 2 ≤ h.firstUsable.toNat
  last : h.lastUsable.toNat < 2 ^ 51
  current : h.currentLba.toNat < 2 ^ 51
  backup : h.backupLba.toNat < 2 ^ 51
  count : h.numParts.toNat < 2 ^ 25 - 1
  used : ∀ p, Used t p → 1 ≤ p.firstLba.toNat ∧ p.firstLba.toNat + 1 < 2 ^ 64 ∧ 1 ≤ p.lastLba.toNat ∧ p.lastLba.toNat + 1 < 2 ^ 64

/-- **C47**, partial. Missing: in debug builds, images and alignments with numbers near the ends of the 64-bit range, for which it is
false (`c47_fails`, `c47_fails_align`). -/
theorem c47_partial {m : Mode} {cfg : GptConfig} {d d' : Dev} {s : GptDisk} {h : Header} (hok : openFromDevice m cfg d = (.ok s, d'))
    (hh : s.tryHeader = .ok h) (hm : m = .release ∨ ModestImage h s.partitions) :
    Calm m (fun a => a ≠ 0 ∧ (m = .release ∨ a.toNat ≤ 2 ^ 63)) s := by
  obtain ⟨h2, d2, -, -, -, ht, -, -, -, -, -, hr⟩ := openFromDevice_ok hok
  obtain rfl := Except.ok.inj (hh.symm.trans ht)
  obtain ⟨-, h128, -⟩ := fileReadPartitions_ok hr
  refine calm_of hh h128 (hm.imp id fun k => ?_)
  obtain ⟨h', hh', hs, hk⟩ := opened_table hok
  obtain rfl := Except.ok.inj (hh.symm.trans hh')
  have := slots_length hs hk
  have := k.count
  exact ⟨k.first, k.last, k.current, k.backup, k.count, h128, by omega, k.used⟩

/-! ## Images that open -/

theorem open_image_with (m : Mode) {h : Header} (hs : h.signature = Spec.signature) (hr : h.reserved = 0) (h2 : h.partStart = 2)
    (h8 : h.numParts = 8) (h128 : h.partSize = 128) {ps : List Partition} (hl : ps.length ≤ 8) (hu : ∀ p ∈ ps, p.isUsed = true) :
    ∃ s d', openFromDevice m GptConfig.new ⟨imageOf h (crc32 (tableBytes ps 8)) (tableBytes ps 8), 0, 4096, [], []⟩ = (.ok s, d') ∧
      s.tryHeader = .ok (h.sealed (crc32 (tableBytes ps 8))) ∧ s.partitions = numberFrom 0 ps := by
  obtain ⟨arr, ha⟩ : ∃ arr, tableBytes ps 8 = arr := ⟨_, rfl⟩
  have hal : arr.length = 1024 := by rw [← ha, tableBytes_length hl]
  obtain ⟨b, e⟩ := open_image (m := m) (cfg := GptConfig.new) (h := h) hs (c := crc32 arr) hr (rest := arr) rfl rfl (cap := 4096) (by omega)
  have hlen := imageOf_length hs (crc32 arr) arr
  have e8 : (h.sealed (crc32 arr)).numParts.toNat = 8 := by show h.numParts.toNat = 8; rw [h8]; rfl
  obtain ⟨p, e2⟩ := openRest_stored (m := m) (cfg := GptConfig.new) (h1 := .ok (h.sealed (crc32 arr))) (h2 := b) (h := h.sealed (crc32 arr))
    (d := ⟨imageOf h (crc32 arr) arr, 0, 4096, [], []⟩) (ps := ps) (off := 1024) rfl
    (by show h.partStart.toNat * _ = _; rw [h2]; rfl) h128 (by rw [e8]; decide) (by rw [e8]; exact hl) hu
    (by rw [e8]; show _ ≤ (imageOf h (crc32 arr) arr).length; omega) (by show (imageOf h (crc32 arr) arr).length < _; omega)
    (by
      rw [e8, ha]
      show slice (imageOf h (crc32 arr) arr) 1024 1024 = arr
      rw [slice_imageOf hs, slice_zero_length hal])
    (by rw [e8, ha]; rfl)
  rw [ha, e, e2]
  exact ⟨_, _, rfl, rfl, rfl⟩

/-- The claim is false in debug builds: `first_usable - 1` underflows for a valid header with `first_usable = 0`. -/
theorem c47_fails : ¬ C47 := by
  intro hC
  obtain ⟨s, d', ho, hh, -⟩ := open_image_with .debug (h := { sampleHeader with firstUsable := 0 }) rfl rfl rfl rfl rfl (ps := []) (by simp) (by simp)
  refine (hC _ _ _ _ _ ho).free ?_
  unfold findFreeSectors
  rw [header_ok_iff.mpr hh]
  rfl

/-- It is also false for a sound image and a huge alignment: `alignment_offset_lba + size_lba` overflows. -/
theorem c47_fails_align : ¬ ∀ (cfg : GptConfig) (d d' : Dev) (s : GptDisk) (h : Header), openFromDevice .debug cfg d = (.ok s, d') →
    s.tryHeader = .ok h → ModestImage h s.partitions → Calm .debug (· ≠ 0) s := by
  intro hC
  obtain ⟨s, d', ho, hh, hp⟩ := open_image_with .debug (h := sampleHeader) rfl rfl rfl rfl rfl (ps := []) (by simp) (by simp)
  have hp : s.partitions = [] := hp
  have hcfg : s.config = GptConfig.new := by
    obtain ⟨_, _, -, -, -, -, -, h1, -⟩ := openFromDevice_ok ho
    exact h1
  obtain ⟨n, hn, e⟩ := addPartition_eq .debug "x" (size := 4096) (by decide) (exPart 0 0).partType 0 (some (0 - 1)) Uuid.nil Uuid.nil s
  have hn8 : n = 8 := UInt64.toNat_inj.mp (by rw [hn, hcfg]; rfl)
  have hfree : (s.findFreeSectors .debug : Res GptError _) = .ok [(4, 94)] := by
    unfold findFreeSectors
    rw [header_ok_iff.mpr hh, hp]
    rfl
  refine (hC _ _ _ _ _ ho hh ?_).add "x" 4096 (exPart 0 0).partType 0 (some (0 - 1)) Uuid.nil Uuid.nil (by decide) (by simp) ?_
  · exact ⟨by show 2 ≤ 4; decide, by show 97 < _; decide, by show 1 < _; decide, by show 100 < _; decide, by show 8 < _; decide, by
      rw [hp]; rintro p ⟨i, hm, -⟩; simp at hm⟩
  · rw [e _ hfree, hn8]
    rfl

/-- A disk with a used partition the partial claim covers. -/
example (m : Mode) : ∃ cfg d d' s h, openFromDevice m cfg d = (.ok s, d') ∧ s.tryHeader = .ok h ∧ ModestImage h s.partitions ∧
    s.partitions = [(1, smallPart)] := by
  obtain ⟨s, d', ho, hh, hp⟩ := open_image_with m (h := sampleHeader) rfl rfl rfl rfl rfl (ps := [smallPart]) (by simp) (by decide)
  refine ⟨_, _, _, _, _, ho, hh, ⟨by show 2 ≤ 4; decide, by show 97 < _; decide, by show 1 < _; decide, by show 100 < _; decide,
    by show 8 < _; decide, ?_⟩, hp⟩
  rw [hp]
  rintro p ⟨i, hm, -⟩
  have : (i, p) ∈ [((1 : UInt32), smallPart)] := hm
  rw [List.mem_singleton] at this
  cases this
  decide

/-! ## C66 -/

/-- The documented preconditions of the calls. -/
def Spec.Allowed : Op → Prop
  | .addPartition _ size _ _ align _ _ => size ≠ 0 ∧ align ≠ some 0
  | .addPartitionAt _ id _ length _ _ _ _ => id ≠ 0 ∧ length ≠ 0
  | .updatePartitions pp _ => ∀ p, ((0 : UInt32), p) ∉ pp
  | _ => True

/-- `init_headers` leaves a header with entries of 128 bytes if it found none or one of that kind. -/
theorem initHeaders_size {m : Mode} {fresh : Uuid} {s s' : GptDisk} {r : Res GptError Unit} (hi : initHeaders m fresh s = (r, s'))
    (hz : ∀ h, s.tryHeader = .ok h → h.partSize = 128) :
    (s'.tryHeader = s.tryHeader ∧ r ≠ .ok ()) ∨ ∃ h', s'.tryHeader = .ok h' ∧ h'.partSize = 128 := by
  rcases initHeaders_any hi with ⟨h1, h2, h3⟩ | ⟨bak, h1, _, hb, hp, _⟩
  · exact .inl ⟨tryHeader_congr h1 h2, h3⟩
  · refine .inr ⟨h1, tryHeader_of_primary hp, (build_numParts hb).2.trans ?_⟩
    show (HeaderBuilder.fromMaybeHeader s.tryHeader fresh).partSize = 128
    cases ht : s.tryHeader with
    | error e => rfl
    | ok h => exact hz h ht

/-- A disk with a header in use, of entries of 128 bytes. -/
def HasHeader (s : GptDisk) : Prop := ∃ h, s.tryHeader = .ok h ∧ h.partSize = 128

theorem step_header (m : Mode) (op : Op) {s : GptDisk} (hs : HasHeader s) : HasHeader (op.step m s).2 := by
  obtain ⟨h, hh, hz⟩ := hs
  have hz' : ∀ h', s.tryHeader = .ok h' → h'.partSize = 128 := fun h' e => by
    obtain rfl := Except.ok.inj (hh.symm.trans e)
    exact hz
  have hins : ∀ {id p fresh2 r s'}, Inserted m id p fresh2 s r s' → HasHeader s' := by
    intro id p fresh2 r s' hi
    cases hi with
    | panic => exact ⟨h, hh, hz⟩
    | refused => exact ⟨h, hh, hz⟩
    | plain => exact ⟨h, hh, hz⟩
    | rebuilt h0 r s' _ _ _ hi =>
      rcases initHeaders_size hi hz' with ⟨h1, -⟩ | h1
      · exact ⟨h, h1.trans hh, hz⟩
      · exact h1
  cases op with
  | addPartition n sz t f a r r2 =>
    rcases addPartition_any m n sz t f a r r2 s with ⟨h1, _⟩ | ⟨_, _, _, _, hi⟩
    · exact ⟨h, (congrArg tryHeader h1).trans hh, hz⟩
    · exact hins hi
  | addPartitionAt n i fl l t f r r2 =>
    rcases addPartitionAt_any m n i fl l t f r r2 s with ⟨h1, _⟩ | ⟨_, _, _, _, hi⟩
    · exact ⟨h, (congrArg tryHeader h1).trans hh, hz⟩
    · exact hins hi
  | removePartition i =>
    refine ⟨h, Eq.trans ?_ hh, hz⟩
    show ((removePartition i : M GptDisk GptError _) s).2.tryHeader = _
    unfold removePartition; split <;> rfl
  | removePartitionByGuid g =>
    refine ⟨h, Eq.trans ?_ hh, hz⟩
    show ((removePartitionByGuid g : M GptDisk GptError _) s).2.tryHeader = _
    unfold removePartitionByGuid; split <;> rfl
  | takePartitions => exact ⟨h, hh, hz⟩
  | updateGuid u r => exact ⟨h, hh, hz⟩
  | updateDiskDevice d w => exact ⟨h, hh, hz⟩
  | deviceMut d => exact ⟨h, hh, hz⟩
  | updatePartitions pp fresh =>
    show HasHeader (updatePartitions m pp fresh s).2
    rcases updatePartitions_any m pp fresh s with ⟨h1, _⟩ | ⟨_, h0, hh0, hperm, heq⟩
    · exact ⟨h, (congrArg tryHeader h1).trans hh, hz⟩
    · rcases hi : initHeaders m fresh (s.withParts pp) with ⟨r, s'⟩
      rw [heq, hi]
      rcases initHeaders_size hi hz' with ⟨h1, -⟩ | h1
      · exact ⟨h, h1.trans hh, hz⟩
      · exact h1
  | writeInplace =>
    show HasHeader (writeInplace m s).2
    rcases (writeInplace_mem m s).headers with ⟨h1, h2⟩ | ⟨h0, ph, ph', hh0, hp, hsb, hpr, _⟩
    · exact ⟨h, (tryHeader_congr h1 h2).trans hh, hz⟩
    · refine ⟨ph', tryHeader_of_primary hpr, ?_⟩
      rw [hsb]
      exact (build_numParts hp).2.trans (hz' h0 hh0)

theorem created_size {m : Mode} {cfg : GptConfig} {guid : Option Uuid} {fresh fresh2 : Uuid} {d d' : Dev} {s : GptDisk}
    (h : createFromDevice m cfg guid fresh fresh2 d = (.ok s, d')) : HasHeader s := by
  unfold createFromDevice at h
  rcases hx : initHeaders m fresh2 (blankDisk cfg d (guid.getD fresh)) with ⟨r, s1⟩
  rw [hx] at h
  cases r with
  | err e => simp at h
  | panic => simp at h
  | ok u =>
    simp only [Prod.mk.injEq, Res.ok.injEq] at h
    obtain ⟨rfl, -⟩ := h
    rcases initHeaders_size hx (fun h e => by simp [blankDisk, tryHeader] at e) with ⟨-, hc⟩ | h
    · exact absurd rfl hc
    · exact h

theorem opened_size {m : Mode} {cfg : GptConfig} {d d' : Dev} {s : GptDisk} (hok : openFromDevice m cfg d = (.ok s, d')) :
    HasHeader s := by
  obtain ⟨h, d2, -, -, -, hh, -, -, -, -, -, hr⟩ := openFromDevice_ok hok
  obtain ⟨-, h128, -⟩ := fileReadPartitions_ok hr
  exact ⟨h, hh, h128⟩

/-- Every reachable disk has a header, of entries of 128 bytes. -/
theorem reach_header {m : Mode} {ok : GptDisk → Op → Prop} {s : GptDisk} (h : Reach m ok s) : HasHeader s := by
  induction h with
  | created h => exact created_size h
  | opened h => exact opened_size h
  | createdFile h =>
    obtain ⟨g, hg, rfl⟩ := createFile_ok h
    obtain ⟨h, hh, hz⟩ := created_size hg
    exact ⟨h, (tryHeader_congr rfl rfl).trans hh, hz⟩
  | openedFile h =>
    obtain ⟨g, hg, rfl⟩ := openFile_ok h
    obtain ⟨h, hh, hz⟩ := opened_size hg
    exact ⟨h, hh, hz⟩
  | step op _ _ _ ih => exact step_header m op ih
  | cloned _ ih =>
    obtain ⟨h, hh, hz⟩ := ih
    exact ⟨h, (tryHeader_lossy rfl rfl).trans hh, hz⟩
  | moved d w _ ih =>
    obtain ⟨h, hh, hz⟩ := ih
    exact ⟨h, (tryHeader_lossy rfl rfl).trans hh, hz⟩

/-- Numbers in the arguments of a call that stay clear of the end of the 64-bit range. -/
def Spec.ModestCall : Op → Prop
  | .addPartition _ _ _ _ align _ _ => ∀ a, align = some a → a.toNat ≤ 2 ^ 63
  | .addPartitionAt _ _ first length _ _ _ _ => first.toNat + length.toNat < 2 ^ 64
  | .updatePartitions pp _ => pp.length < 2 ^ 25
  | _ => True

theorem step_noPanic {m : Mode} {s : GptDisk} {h : Header} (hh : s.tryHeader = .ok h) (hz : h.partSize = 128) {op : Op} (ha : Allowed op)
    (hm : m = .release ∨ Modest h s.partitions ∧ ModestCall op) : (op.step m s).1 ≠ .panic := by
  have hm1 := hm.imp id fun k => k.1
  cases op with
  | addPartition n sz t f a r r2 =>
    exact fun e => addPartition_or hh hm1 ha.1 (fun x hx => ⟨fun h0 => ha.2 (by rw [hx, h0]), hm.imp id fun k => k.2 x hx⟩) (M.mapOk_panic.mp e)
  | addPartitionAt n i fl l t f r r2 => exact fun e => addPartitionAt_or hh hm1 ha.2 ha.1 (hm.imp id fun k => k.2) (M.mapOk_panic.mp e)
  | removePartition i => exact fun e => (calm_of hh hz hm1).remove i (M.mapOk_panic.mp e)
  | removePartitionByGuid g =>
    intro e
    have := M.mapOk_panic.mp e
    unfold removePartitionByGuid at this
    split at this <;> simp at this
  | takePartitions => exact fun e => by cases e
  | updateGuid u r => exact fun e => by cases e
  | updateDiskDevice d w => exact fun e => by cases e
  | deviceMut d => exact fun e => by cases e
  | updatePartitions pp fresh =>
    refine fun e => updatePartitions_or hh (hm.imp id fun k => ⟨k.1.last, k.1.current, k.1.backup, k.1.size, k.2⟩) ?_ (M.mapOk_panic.mp e)
    cases hg : PMap.get pp 0 with
    | none => rfl
    | some p => exact absurd (PMap.mem_of_get hg) (ha p)
  | writeInplace => exact fun e => writeInplace_or hh hz hm1 (M.mapOk_panic.mp e)

/-- **C66**: in a release build, a call that respects the documented preconditions does not panic, whatever happened before. -/
theorem c66_release {s : GptDisk} (hr : Reach .release anyCall s) (op : Op) (ha : Allowed op) : (op.step .release s).1 ≠ .panic := by
  obtain ⟨h, hh, hz⟩ := reach_header hr
  exact step_noPanic hh hz ha (.inl rfl)

/-- **C66**, debug builds: the same for one call, when the numbers in the disk and in the arguments are modest. -/
theorem c66_debug {s : GptDisk} {h : Header} (hh : s.tryHeader = .ok h) (hm : Modest h s.partitions) (op : Op) (ha : Allowed op)
    (hc : ModestCall op) : (op.step .debug s).1 ≠ .panic := step_noPanic hh hm.size ha (.inr ⟨hm, hc⟩)

/-- In debug builds it does not hold for all arguments: a start near the largest block number makes `add_partition_at` panic. -/
theorem c66_debug_fails : ∃ s op, Reach .debug anyCall s ∧ Allowed op ∧ (op.step .debug s).1 = .panic := by
  have hr := made_reach .debug GptConfig.new (d := dev100) (pp := [(1, smallPart)]) rfl (by show 0 < 2 ^ 64; decide) (by rw [dev100_length]; decide)
    enough512 (by rw [dev100_length]; rfl) (List.pairwise_singleton _ _) (by decide) rfl anyCall trivial
  exact ⟨_, .addPartitionAt "x" 2 (0 - 1) 1 (exPart 0 0).partType 0 Uuid.nil Uuid.nil, hr, ⟨by decide, by decide⟩, by decide +kernel⟩

/-- States the debug version covers. -/
example : ∃ s h op, Reach .debug anyCall s ∧ s.tryHeader = .ok h ∧ Modest h s.partitions ∧ Allowed op ∧ ModestCall op ∧
    (op.step .debug s).1 = .ok (.id 2) := by
  have hr := made_reach .debug GptConfig.new (d := dev100) (pp := [(1, smallPart)]) rfl (by show 0 < 2 ^ 64; decide) (by rw [dev100_length]; decide)
    enough512 (by rw [dev100_length]; rfl) (List.pairwise_singleton _ _) (by decide) rfl anyCall trivial
  refine ⟨_, _, .addPartition "x" 512 (exPart 0 0).partType 0 none Uuid.nil Uuid.nil, hr, rfl, ⟨by decide +kernel, by decide +kernel,
    by decide +kernel, by decide +kernel, by decide +kernel, by decide +kernel, by decide +kernel, ?_⟩, ⟨by decide, by decide⟩, (fun _ h => nomatch h),
    by decide +kernel⟩
  rintro p ⟨i, hm, -⟩
  have : (i, p) ∈ [((1 : UInt32), smallPart)] := hm
  rw [List.mem_singleton] at this
  cases this
  decide

end Gpt
