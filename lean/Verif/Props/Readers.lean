import Verif.Model.File
import Verif.Props.Write
import Verif.Props.Open
import Verif.Props.Device
/-!
# The functions that only read, and the functions that take a path: C69
-/

namespace Gpt

open Spec GptDisk

theorem openFile_eq (m : Mode) (cfg : GptConfig) (d : Dev) : openFile m cfg d =
    match openFromDevice m cfg d with
    | (.ok g, d1) => (.ok { g with syncAll := true }, d1)
    | (.err e, d1) => (.err e, d1)
    | (.panic, d1) => (.panic, d1) := by
  unfold openFile
  rw [M.bind_apply]
  rcases openFromDevice m cfg d with ⟨_ | _ | _, d1⟩ <;> rfl

/-- **C69**, the header. On a device without faults `read_header_from_arbitrary_device` gives what `primary_header()` gives once the
device is opened, be it a header or an error, and leaves the device as it was. -/
theorem c69_header (m : Mode) (cfg : GptConfig) (d d' : Dev) (s : GptDisk) (hf : d.faults = []) (hp : d.pos < 2 ^ 64)
    (hlen : d.data.length < 2 ^ 64) (hok : openFromDevice m cfg d = (.ok s, d')) :
    readHeaderFromArbitraryDevice cfg.lbSize d =
      (match s.primaryHeader with | .ok h => .ok h | .error e => .err e, d) := by
  obtain ⟨c1, -, c3, -⟩ := c44_selected m cfg d d' s hf hp hlen hok
  unfold readHeaderFromArbitraryDevice
  rw [readPrimaryHeader_nil hf hp]
  cases hs : s.primaryHeader with
  | ok h =>
    have := (c1 h).mp hs
    simp only [((readHeaderAt_spec _ _).1 h).mpr this]
  | error e =>
    have := (c3 e).mp hs
    rw [readPrimaryHeader_nil hf hp] at this
    simp only at this
    simp only [this]

/-- **C69**, step by step. On a file without faults: reading the primary header and then the partitions with it gives `h` and `t`
exactly when opening the path (any configuration that is content with one header) gives a disk with the primary header `h` and the
table `t`. -/
theorem c69_steps (m : Mode) (fs : Fs) (path : String) (cfg : GptConfig) (d : Dev) (h : Header) (t : PMap)
    (hr : fs path false = .ok d) (hw : fs path cfg.writable = .ok d)
    (hf : d.faults = []) (hp : d.pos < 2 ^ 64) (hlen : d.data.length < 2 ^ 64) (ho : cfg.onlyValidHeaders = false) :
    ((readHeader fs path cfg.lbSize).1 = .ok h ∧ (readPartitions m fs path h cfg.lbSize).1 = .ok t) ↔
      ∃ s, (openPath m fs cfg path).1 = .ok s ∧ s.primaryHeader = .ok h ∧ s.partitions = t := by
  unfold readHeader readPartitions openPath withFile
  rw [hr, hw]
  simp only
  rw [readPrimaryHeader_nil hf hp, openFile_eq]
  obtain ⟨h1, h2, e1, e2, e3⟩ := openFromDevice_nil m cfg hf hp hlen
  rw [← e1]
  simp only
  rw [ofExcept_ok]
  constructor
  · rintro ⟨rfl, ht⟩
    have hsel : selectHeader cfg.onlyValidHeaders (.ok h) h2 = .ok h := by
      rw [select_spec.1, ho]
      exact .inl ⟨rfl, by simp⟩
    rw [hsel] at e3
    rcases hx : fileReadPartitions m h cfg.lbSize d with ⟨r, d1⟩
    rw [hx] at ht
    simp only at ht
    subst ht
    simp only at e3
    unfold openRest at e3
    simp only [M.bind_apply, M.mapErr_apply, hx, M.get_apply, M.pure_apply, Res.mapErr_ok] at e3
    rw [e3]
    exact ⟨_, rfl, rfl, rfl⟩
  · rintro ⟨s, hs, hh, rfl⟩
    rcases hx : openFromDevice m cfg d with ⟨_ | _ | _, d1⟩
    · rename_i g
      rw [hx] at hs e3
      simp only [Res.ok.injEq] at hs
      subst hs
      rcases hy : selectHeader cfg.onlyValidHeaders h1 h2 with _ | x
      · rw [hy] at e3; cases e3
      · rw [hy] at e3
        obtain ⟨q1, q2⟩ := openRest_ok e3.symm
        have hg : g.primaryHeader = h1 := by rw [q2]
        have hh : g.primaryHeader = .ok h := hh
        rw [hg] at hh
        subst hh
        rw [select_spec.1, ho] at hy
        rcases hy with ⟨hy, -⟩ | ⟨-, ⟨e, hy⟩, -⟩
        · cases hy
          refine ⟨rfl, ?_⟩
          rw [q1]
        · cases hy
    · rw [hx] at hs; cases hs
    · rw [hx] at hs; cases hs

/-- **C69**, paths. A path that cannot be opened gives that I/O error from all five functions; `open` and `create` ask for write access
exactly when the configuration is writable, the others never. -/
theorem c69_paths (m : Mode) (fs : Fs) (path : String) (cfg : GptConfig) (h : Header) (lb : LbSize) (fresh fresh2 : Uuid) (e : IoErr) :
    (fs path false = .error e → (readHeader fs path lb).1 = .err (.io e) ∧ (readPartitions m fs path h lb).1 = .err e ∧
      (readDiskPath m fs path).1 = .err (.io e)) ∧
    (fs path cfg.writable = .error e → (openPath m fs cfg path).1 = .err (.io e) ∧
      (createPath m fs cfg path fresh fresh2).1 = .err (.io e)) := by
  constructor
  · intro he
    have h2 : fs path GptConfig.new.writable = .error e := he
    unfold readHeader readPartitions readDiskPath openPath withFile
    rw [he, h2]
    exact ⟨rfl, rfl, rfl⟩
  · intro he
    unfold openPath createPath withFile
    rw [he]
    exact ⟨rfl, rfl⟩

theorem withFile_data {ε α : Type} {io : IoErr → ε} {o : Except IoErr Dev} {x : M Dev ε α} {d d' : Dev} (hx : Spec.Untouched d (x d).2)
    (ho : o = .ok d) (hd : (withFile io o x).2 = some d') : Spec.Untouched d d' := by
  subst ho
  simp only [withFile, Option.some.injEq] at hd
  rw [← hd]
  exact hx

/-- **C69**, content. None of the five functions changes the file or writes to it, whatever happens to its I/O calls. -/
theorem c69_content (m : Mode) (fs : Fs) (path : String) (cfg : GptConfig) (h : Header) (lb : LbSize) (fresh fresh2 : Uuid) (d d' : Dev) :
    (fs path false = .ok d → (readHeader fs path lb).2 = some d' ∨ (readPartitions m fs path h lb).2 = some d' ∨
      (readDiskPath m fs path).2 = some d' → Spec.Untouched d d') ∧
    (fs path cfg.writable = .ok d → (openPath m fs cfg path).2 = some d' ∨ (createPath m fs cfg path fresh fresh2).2 = some d' →
      Spec.Untouched d d') := by
  have hopen : ∀ cfg, Spec.Untouched d (openFile m cfg d).2 := fun cfg =>
    (c35_open_create m cfg d none fresh fresh2 (openFile m cfg) (by simp)).1
  constructor
  · rintro ho (hd | hd | hd)
    · exact withFile_data (readPrimaryHeader_quiet lb d).untouched ho hd
    · exact withFile_data (fileReadPartitions_quiet m h lb d).untouched ho hd
    · exact withFile_data (hopen _) ho hd
  · rintro ho (hd | hd)
    · exact withFile_data (hopen _) ho hd
    · exact withFile_data (c35_open_create m cfg d none fresh fresh2 (createFile m cfg fresh fresh2) (by simp)).1 ho hd

/-- A file system with one file that has one partition, in slot 2: `read_header` and `read_partitions` find it, and another path gives
an I/O error. -/
example (m : Mode) : ∃ (fs : Fs) (h : Header) (t : PMap), (readHeader fs "disk.img" .lb512).1 = .ok h ∧
    (readPartitions m fs "disk.img" h .lb512).1 = .ok t ∧ t.map (·.1) = [3] ∧
    (readHeader fs "other.img" .lb512).1 = .err (.io .device) := by
  let arr : Bytes := zeros 256 ++ List.replicate 128 1 ++ zeros 640
  have ha : arr.length = 1024 := by simp [arr, zeros_length]
  obtain ⟨s, d', h1, h2, -⟩ := image_opens m arr ha
  generalize hd : (⟨imageOf sampleHeader (crc32 arr) arr, 0, 4096, [], []⟩ : Dev) = d at h1
  have hlen : d.data.length = 2048 := by
    rw [← hd]; show (imageOf _ _ _).length = _; rw [imageOf_length rfl, ha]
  have hf : d.faults = [] := by rw [← hd]
  have hp : d.pos < 2 ^ 64 := by rw [← hd]; decide
  let fs : Fs := fun path _ => if path = "disk.img" then .ok d else .error .device
  have c := (c44_selected m _ d d' s hf hp (by omega) h1).1
  have hh : readHeaderAt d.data 512 = .ok (sampleHeader.sealed (crc32 arr)) := by
    rw [← hd]
    exact imageOf_primary (h := sampleHeader) rfl (crc32 arr) rfl arr
  have hv := ((readHeaderAt_spec _ _).1 _).mp hh
  have hs := (c _).mpr hv
  obtain ⟨e1, e2⟩ := (c69_steps m fs "disk.img" GptConfig.new d _ s.partitions rfl rfl hf hp (by omega) rfl).mpr
    ⟨{ s with syncAll := true }, by
      show (openFile m GptConfig.new d).1 = _
      rw [openFile_eq, h1], hs, rfl⟩
  refine ⟨fs, _, s.partitions, e1, e2, ?_, rfl⟩
  rw [h2]
  decide +kernel

end Gpt
