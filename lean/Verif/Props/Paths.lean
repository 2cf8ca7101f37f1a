import Verif.Model.Inspect
import Verif.Props.Opens
import Verif.Props.Table
/-!
# Writers that take a path, and the example program: C56, C57, C114
-/

namespace Gpt

open Spec GptDisk

/-! ## C56 and C57 for paths -/

/-- **C57**, paths: `write_header` asks for read and write access (how opening it otherwise would end makes no difference) and reports the
error if that is refused; on a file that is large enough it succeeds, gives back the GUID it used, leaves every byte outside LBA 1, and
`read_header` on the file finds that GUID. -/
theorem c57_path (m : Mode) (fs fs' : Fs) (path : String) (uuid : Option Uuid) (fresh : Uuid) (lb : LbSize) :
    (fs path true = fs' path true → writeHeaderPath m fs path uuid fresh lb = writeHeaderPath m fs' path uuid fresh lb) ∧
    (∀ e, fs path true = .error e → writeHeaderPath m fs path uuid fresh lb = (.err (.io e), none)) ∧
    (∀ d, fs path true = .ok d → d.faults = [] → d.pos < 2 ^ 64 → d.data.length < 2 ^ 64 → d.data.length ≤ d.cap →
      2 * Spec.defaultArrayBlocks lb + 4 ≤ d.data.length / lb.usize →
      ∃ d', writeHeaderPath m fs path uuid fresh lb = (.ok (uuid.getD fresh), some d') ∧ d'.data.length = d.data.length ∧
        (∀ i, i < lb.usize ∨ 2 * lb.usize ≤ i → byteAt d'.data i = byteAt d.data i) ∧
        ∀ r, fs' path false = .ok r → r.data = d'.data → r.faults = [] → r.pos < 2 ^ 64 →
          ∃ h, (readHeader fs' path lb).1 = .ok h ∧ h.diskGuid = uuid.getD fresh) := by
  refine ⟨fun e => ?_, fun e he => ?_, fun d ho hf hp hlen hcap hroom => ?_⟩
  · unfold writeHeaderPath
    rw [e]
  · unfold writeHeaderPath withFile
    rw [he]
  · obtain ⟨d', hw⟩ := c57_succeeds m uuid fresh lb d hf hp hlen hcap hroom
    obtain ⟨-, hl, hout, -⟩ := c57_write_header m uuid fresh _ lb d d' { d' with faults := [], pos := 0 } hp hlen hw rfl rfl (by decide : (0 : Nat) < 2 ^ 64)
    refine ⟨d', ?_, hl, hout, fun r hor hr hrf hrp => ?_⟩
    · unfold writeHeaderPath withFile
      rw [ho]
      simp only [hw]
    · obtain ⟨-, -, -, h, hh, hg, -⟩ := c57_write_header m uuid fresh _ lb d d' r hp hlen hw hr hrf hrp
      refine ⟨h, ?_, hg⟩
      unfold readHeader withFile
      rw [hor]
      exact hh

/-- A file of 68 blocks that only opens for writing. -/
example : ∃ d', writeHeaderPath .debug (fun _ w => if w then .ok ⟨zeros 34816, 0, 34816, [], []⟩ else .error (.other "denied")) "disk" none
    ⟨1, 2, 3, 4⟩ .lb512 = (.ok ⟨1, 2, 3, 4⟩, some d') := by
  obtain ⟨d', h, -⟩ := (c57_path .debug (fun _ w => if w then .ok ⟨zeros 34816, 0, 34816, [], []⟩ else .error (.other "denied"))
    (fun _ _ => .error (.other "denied")) "disk" none ⟨1, 2, 3, 4⟩ .lb512).2.2
    ⟨zeros 34816, 0, 34816, [], []⟩ rfl rfl (by decide) (by simp only [zeros_length]; decide)
    (by simp only [zeros_length]; decide) (by simp only [zeros_length]; decide)
  exact ⟨d', h⟩

/-- **C56**, paths: `Partition::write` asks for read and write access and reports the error if that is refused; if it succeeds and the slot
lies below 2^64, the 128 bytes of the entry are in the slot and every other byte is as it was; without faults and with room it succeeds. -/
theorem c56_path_partial (m : Mode) (fs fs' : Fs) (path : String) (p : Partition) (i st : UInt64) (lb : LbSize) :
    (fs path true = fs' path true → p.writePath m fs path i st lb = p.writePath m fs' path i st lb) ∧
    (∀ e, fs path true = .error e → p.writePath m fs path i st lb = (.err e, none)) ∧
    (∀ d, fs path true = .ok d → st.toNat * lb.usize + i.toNat * 128 < 2 ^ 64 →
      (∀ d', p.writePath m fs path i st lb = (.ok (), some d') →
        Spec.StoredAt d.data d'.data (st.toNat * lb.usize + i.toNat * 128) 128 (byteAt (p.asBytes 128))) ∧
      (d.faults = [] → st.toNat * lb.usize + i.toNat * 128 + 128 ≤ d.cap → (p.writePath m fs path i st lb).1 = .ok ())) := by
  refine ⟨fun e => ?_, fun e he => ?_, fun d ho hn => ⟨fun d' hw => ?_, fun hf hc => ?_⟩⟩
  · unfold Partition.writePath
    rw [e]
  · unfold Partition.writePath withFile
    rw [he]
  · unfold Partition.writePath withFile at hw
    rw [ho] at hw
    simp only [Prod.mk.injEq, Option.some.injEq] at hw
    exact c56_entry_partial m p i st lb 128 d d' hn (Prod.ext hw.1 hw.2)
  · unfold Partition.writePath withFile
    rw [ho]
    exact (c56_succeeds m p i 0 st lb 128 d hf hn).1 hc

example : (Partition.zero.writePath .debug (fun _ w => if w then .ok ⟨zeros 34816, 0, 34816, [], []⟩ else .error (.other "denied")) "disk" 3 2
    .lb512).1 = .ok () :=
  ((c56_path_partial .debug _ (fun _ _ => .error (.other "denied")) "disk" Partition.zero 3 2 .lb512).2.2 ⟨zeros 34816, 0, 34816, [], []⟩ rfl
    (by decide)).2 rfl (by decide)

/-! ## C114 -/

/-- What `inspect` does with a file of these bytes. -/
inductive Spec.Inspected (io : IoErr → Bytes) (data : Bytes) : Ran → Prop where
  /-- the header at LBA 1 (or why there is none) and the used slots -/
  | shown (h : Header) (x : Except HeaderError Header) (t : PMap) : Governs GptConfig.new data h → ArrayRead h .lb512 data (.ok t) →
      (∀ h, x = .ok h ↔ PrimaryValid .lb512 data ∧ HeaderAt data 512 h) → Inspected io data ⟨0, some (x, t), []⟩
  /-- neither header is valid -/
  | noHeader (e : HeaderError) : (¬ PrimaryValid .lb512 data ∧ ¬ BackupValid .lb512 data) →
      Inspected io data ⟨1, none, utf8 "Failed to inspect image: GPT Header Error: " ++ e.display io ++ utf8 "\n"⟩
  /-- the array cannot be read -/
  | noTable (h : Header) (e : IoErr) : Governs GptConfig.new data h → ArrayRead h .lb512 data (.err e) →
      Inspected io data ⟨1, none, utf8 "Failed to inspect image: GPT IO Error: " ++ io e ++ utf8 "\n"⟩
  /-- the entries are not of 128 bytes -/
  | crash (h : Header) : Governs GptConfig.new data h → ArrayRead h .lb512 data .panic → Inspected io data ⟨101, none, []⟩

theorem utf8_inspect (s : String) (b : Bytes) : utf8 "Failed to inspect image: " ++ (utf8 s ++ b) = utf8 ("Failed to inspect image: " ++ s) ++ b := by
  unfold utf8
  simp

/-- **C114**: the outcome of `inspect` on a file it can open. -/
theorem c114_outcome (m : Mode) (io : IoErr → Bytes) (fs : Fs) (args : List String) (path : String) (d : Dev) (hpath : args[1]? = some path)
    (ho : fs path false = .ok d) (hf : d.faults = []) (hp : d.pos < 2 ^ 64) (hlen : d.data.length < 2 ^ 64)
    (he : m = .release ∨ d.data.length < 2 ^ 38) : Inspected io d.data (inspect m io fs args).1 := by
  have hout := c84_outcome m GptConfig.new d hf hp hlen he
  have hsel := fun s d' => c44_selected m GptConfig.new d d' s hf hp hlen
  unfold inspect openPath withFile
  rw [hpath]
  show Inspected io d.data (match (match fs path false with
    | .error e => (.err (.io e), none)
    | .ok d => ((openFile m GptConfig.new d).1, some (openFile m GptConfig.new d).2) : Res GptError GptDisk × Option Dev) with
    | (.ok disk, d) => ((⟨0, some (disk.primaryHeader?, disk.partitions), []⟩ : Ran), d)
    | (.err e, d) => (⟨1, none, utf8 "Failed to inspect image: " ++ e.display io ++ utf8 "\n"⟩, d)
    | (.panic, d) => (⟨101, none, []⟩, d)).1
  rw [ho]
  simp only
  rw [openFile_eq]
  rcases hx : openFromDevice m GptConfig.new d with ⟨r, d'⟩
  rw [hx] at hout
  simp only at hout
  cases hout with
  | noHeader e hn =>
    simp only [GptError.display]
    rw [utf8_inspect]
    refine .noHeader e ⟨fun hv => ?_, fun hv => ?_⟩
    · obtain ⟨h, hh⟩ := validAt_header hv
      exact hn h (.inl ⟨hv, hh, (fun h => nomatch h)⟩)
    · by_cases hpv : PrimaryValid GptConfig.new.lbSize d.data
      · obtain ⟨h, hh⟩ := validAt_header hpv
        exact hn h (.inl ⟨hpv, hh, (fun h => nomatch h)⟩)
      · obtain ⟨h, hh⟩ := validAt_header hv.2
        exact hn h (.inr ⟨rfl, hpv, hv, hh⟩)
  | noTable h e hg ha =>
    simp only [GptError.display]
    rw [utf8_inspect]
    exact .noTable h e hg ha
  | crash h hg ha => exact .crash h hg ha
  | disk h s hg ha _ _ _ =>
    refine .shown h _ _ hg ha fun h' => ?_
    refine Iff.trans ?_ ((hsel s d' hx).1 h')
    show lossyHeader s.primaryHeader = _ ↔ _
    cases s.primaryHeader with
    | ok a => exact Iff.rfl
    | error a => exact ⟨(fun h => nomatch h), (fun h => nomatch h)⟩

/-- **C114**: `inspect` never asks for write access and leaves the file as it is; a file that cannot be opened is reported and nothing is
printed; without an argument the sample is taken, and arguments after the first make no difference. -/
theorem c114_path (m : Mode) (io : IoErr → Bytes) (fs fs' : Fs) (me : String) (path : String) (rest rest' : List String) :
    (fs path false = fs' path false → inspect m io fs (me :: path :: rest) = inspect m io fs' (me :: path :: rest')) ∧
    (∀ e, fs path false = .error e → inspect m io fs (me :: path :: rest) =
      (⟨1, none, utf8 "Failed to inspect image: GPT IO Error: " ++ io e ++ utf8 "\n"⟩, none)) ∧
    (∀ d, fs path false = .ok d → ∃ d', (inspect m io fs (me :: path :: rest)).2 = some d' ∧ Spec.Untouched d d') ∧
    inspect m io fs [me] = inspect m io fs [me, "tests/fixtures/gpt-disk.img"] ∧ inspect m io fs [] = inspect m io fs [me] := by
  refine ⟨fun e => ?_, fun e he => ?_, fun d ho => ?_, rfl, rfl⟩
  · have e' : fs path (GptConfig.new.setWritable false).writable = fs' path (GptConfig.new.setWritable false).writable := e
    unfold inspect openPath
    simp only [List.getElem?_cons_succ, List.getElem?_cons_zero, Option.getD_some]
    rw [e']
  · have := ((c69_paths m fs path (GptConfig.new.setWritable false) sampleHeader .lb512 ⟨0, 0, 0, 0⟩ ⟨0, 0, 0, 0⟩ e).2 he).1
    have h2 : openPath m fs (GptConfig.new.setWritable false) path = (.err (.io e), none) := by
      have he : fs path (GptConfig.new.setWritable false).writable = .error e := he
      unfold openPath withFile
      rw [he]
    unfold inspect
    simp only [List.getElem?_cons_succ, List.getElem?_cons_zero, Option.getD_some, h2, GptError.display]
    rw [utf8_inspect]
    rfl
  · have h2 : ∃ d', (openPath m fs (GptConfig.new.setWritable false) path).2 = some d' := by
      have ho : fs path (GptConfig.new.setWritable false).writable = .ok d := ho
      unfold openPath withFile
      rw [ho]
      exact ⟨_, rfl⟩
    obtain ⟨d', h2⟩ := h2
    have hu := (c69_content m fs path (GptConfig.new.setWritable false) sampleHeader .lb512 ⟨0, 0, 0, 0⟩ ⟨0, 0, 0, 0⟩ d d').2 ho (.inl h2)
    refine ⟨d', ?_, hu⟩
    unfold inspect
    simp only [List.getElem?_cons_succ, List.getElem?_cons_zero, Option.getD_some]
    rcases hx : openPath m fs (GptConfig.new.setWritable false) path with ⟨r, x⟩
    rw [hx] at h2
    cases r <;> exact h2

/-- **C114**: after `write_header` on a file, `inspect` shows a header with the GUID `write_header` gave back, and the slots behind it. -/
theorem c114_written (m m' : Mode) (io : IoErr → Bytes) (fs fs' : Fs) (me path : String) (rest : List String) (uuid : Option Uuid) (fresh g : Uuid)
    (d d' r : Dev) (ho : fs path true = .ok d) (hp : d.pos < 2 ^ 64) (hlen : d.data.length < 2 ^ 64)
    (hw : writeHeaderPath m fs path uuid fresh .lb512 = (.ok g, some d'))
    (ho' : fs' path false = .ok r) (hr : r.data = d'.data) (hf : r.faults = []) (hrp : r.pos < 2 ^ 64)
    (he : m' = .release ∨ r.data.length < 2 ^ 38) :
    ∃ h t, (inspect m' io fs' (me :: path :: rest)).1 = ⟨0, some (.ok h, t), []⟩ ∧ h.diskGuid = g ∧ g = uuid.getD fresh ∧
      HoldsSlots .lb512 d.data t := by
  obtain ⟨hg, s, hs, -, hsl⟩ := c85_header m m' fs fs' path uuid fresh g .lb512 GptConfig.new d d' r ho hp hlen hw ho' hr hf hrp he rfl rfl
  have hw' := hw
  unfold writeHeaderPath withFile at hw'
  rw [ho] at hw'
  simp only [Prod.mk.injEq, Option.some.injEq] at hw'
  obtain ⟨-, hl, -, h, hh, hgd, -⟩ := c57_write_header m uuid fresh g .lb512 d d' r hp hlen (Prod.ext hw'.1 hw'.2) hr hf hrp
  have hx : (inspect m' io fs' (me :: path :: rest)).1 = ⟨0, some (s.primaryHeader?, s.partitions), []⟩ := by
    have hs : (openPath m' fs' (GptConfig.new.setWritable false) path).1 = .ok s := hs
    unfold inspect
    simp only [List.getElem?_cons_succ, List.getElem?_cons_zero, Option.getD_some]
    rcases hx : openPath m' fs' (GptConfig.new.setWritable false) path with ⟨x, y⟩
    rw [hx] at hs
    simp only at hs
    subst hs
    rfl
  have hlr : r.data.length < 2 ^ 64 := by rw [hr, hl]; exact hlen
  have hins := c114_outcome m' io fs' (me :: path :: rest) path r rfl ho' hf hrp hlr he
  rw [hx] at hins
  refine ⟨h, s.partitions, ?_, hgd, hg, hsl⟩
  rw [hx]
  generalize s.primaryHeader? = y at hins
  cases hins with
  | shown _ _ _ _ _ hiff =>
    rw [(hiff h).mpr (((c05_primary_backup .lb512 r hf hrp hlr).1 h).mp hh)]

/-- A blank file of 68 blocks, inspected before and after `write_header`; as it is, the status is 1. -/
example (m : Mode) (io : IoErr → Bytes) (d0 : Dev) (h0 : d0 = ⟨zeros 34816, 0, 34816, [], []⟩) :
    (inspect m io (fun _ _ => .ok d0) ["inspect", "f"]).1.status = 1 ∧
    ∃ d1 h t, writeHeaderPath m (fun _ _ => .ok d0) "f" none ⟨1, 2, 3, 4⟩ .lb512 = (.ok ⟨1, 2, 3, 4⟩, some d1) ∧
      (inspect m io (fun _ _ => .ok { d0 with data := d1.data }) ["inspect", "f"]).1 = ⟨0, some (.ok h, t), []⟩ ∧ h.diskGuid = ⟨1, 2, 3, 4⟩ := by
  have hl0 : d0.data.length = 34816 := by rw [h0]; exact zeros_length _
  have hf0 : d0.faults = [] := by rw [h0]
  have hp0 : d0.pos < 2 ^ 64 := by rw [h0]; decide
  have hc0 : d0.cap = 34816 := by rw [h0]
  have hdiv : d0.data.length / LbSize.lb512.usize = 68 := by rw [hl0]; rfl
  constructor
  · have hnv : ∀ off, ¬ ValidAt d0.data off := by
      intro off hv
      have h1 := congrArg (fun b => byteAt b 0) hv.signature
      simp only [h0, byteAt_slice, byteAt_zeros] at h1
      revert h1
      decide
    have h := c114_outcome m io (fun _ _ => .ok d0) ["inspect", "f"] "f" d0 rfl rfl hf0 hp0 (by omega) (.inr (by omega))
    have hg : ∀ h, ¬ Governs GptConfig.new d0.data h := by
      rintro h (⟨hv, -⟩ | ⟨-, -, hv, -⟩)
      · exact hnv _ hv
      · exact hnv _ hv.2
    generalize (inspect m io (fun _ _ => .ok d0) ["inspect", "f"]).1 = r at h
    cases h with
    | shown h _ _ hh => exact absurd hh (hg h)
    | noHeader => rfl
    | noTable => rfl
    | crash h hh => exact absurd hh (hg h)
  · obtain ⟨d1, hw, hl, -⟩ := (c57_path m (fun _ _ => .ok d0) (fun _ _ => .ok d0) "f" none ⟨1, 2, 3, 4⟩ .lb512).2.2 d0 rfl hf0 hp0 (by omega)
      (by omega) (by rw [hdiv]; decide)
    obtain ⟨h, t, h1, h2, -⟩ := c114_written m m io (fun _ _ => .ok d0) (fun _ _ => .ok { d0 with data := d1.data }) "inspect" "f" [] none
      ⟨1, 2, 3, 4⟩ _ d0 d1 { d0 with data := d1.data } rfl hp0 (by omega) hw rfl rfl hf0 hp0 (.inr (by show d1.data.length < _; omega))
    exact ⟨d1, h, t, hw, h1, h2⟩

end Gpt
