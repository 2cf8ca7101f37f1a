import Verif.Props.Build
import Verif.Props.Reach
/-!
# C86: the settings of a builder; C95: the settings of a configuration

Each setter of `HeaderBuilder` and of `GptConfig` sets its own value and leaves the others; what counts is the last call of each.
-/

namespace Gpt

/-- A call of a setter. -/
inductive Setter where
  | primary (p : Bool)
  | diskGuid (g : Uuid)
  | backupLba (l : UInt64)
  | firstUsable (l : UInt64)
  | lastUsable (l : UInt64)
  | numParts (n : UInt32)
  | partSize (n : UInt32)

/-- Make the call (src/header/builder.rs:66-118). -/
def Setter.call : Setter → HeaderBuilder → HeaderBuilder
  | .primary p, b => b.setPrimary p
  | .diskGuid g, b => b.setDiskGuid g
  | .backupLba l, b => b.setBackupLba l
  | .firstUsable l, b => b.setFirstUsable l
  | .lastUsable l, b => b.setLastUsable l
  | .numParts n, b => b.setNumParts n
  | .partSize n, b => b.setPartSize n

namespace Spec

/-- `v` is the last value among the calls, or `d` if there is none. -/
def Last {κ α : Type} (val : κ → Option α) (cs : List κ) (d v : α) : Prop :=
  (v = d ∧ ∀ c ∈ cs, val c = none) ∨ ∃ pre c post, cs = pre ++ c :: post ∧ val c = some v ∧ ∀ c ∈ post, val c = none

def asPrimary : Setter → Option Bool | .primary p => some p | _ => none
def asDiskGuid : Setter → Option Uuid | .diskGuid g => some g | _ => none
def asBackupLba : Setter → Option UInt64 | .backupLba l => some l | _ => none
def asFirstUsable : Setter → Option UInt64 | .firstUsable l => some l | _ => none
def asLastUsable : Setter → Option UInt64 | .lastUsable l => some l | _ => none
/-- At least 128. -/
def asNumParts : Setter → Option Nat | .numParts n => some (max n.toNat 128) | _ => none
def asPartSize : Setter → Option UInt32 | .partSize n => some n | _ => none

/-- The settings after the calls `cs` on `b`. -/
structure Settings (b : HeaderBuilder) (cs : List Setter) (b' : HeaderBuilder) : Prop where
  primary : Last asPrimary cs b.primary b'.primary
  diskGuid : Last asDiskGuid cs b.diskGuid b'.diskGuid
  primaryLba : b'.primaryLba = b.primaryLba
  backupLba : Last asBackupLba cs b.backupLba b'.backupLba
  firstUsable : Last asFirstUsable cs b.firstUsable b'.firstUsable
  lastUsable : Last asLastUsable cs b.lastUsable b'.lastUsable
  numParts : Last asNumParts cs b.numParts.toNat b'.numParts.toNat
  partSize : Last asPartSize cs b.partSize b'.partSize

/-- Settings of a new builder: a primary header in block 1, 128 entries of 128 bytes, nothing else. -/
structure New (g : Uuid) (b : HeaderBuilder) : Prop where
  primary : b.primary = true
  guid : b.diskGuid = g
  primaryLba : b.primaryLba.toNat = 1
  backupLba : b.backupLba.toNat = 0
  firstUsable : b.firstUsable.toNat = 0
  lastUsable : b.lastUsable.toNat = 0
  numParts : b.numParts.toNat = 128
  partSize : b.partSize.toNat = 128

/-- Settings taken over from a header: the smaller of its two LBAs is that of the primary header. -/
structure TakenOver (h : Header) (b : HeaderBuilder) : Prop where
  primary : b.primary = true ↔ h.currentLba.toNat < h.backupLba.toNat
  guid : b.diskGuid = h.diskGuid
  primaryLba : b.primaryLba.toNat = min h.currentLba.toNat h.backupLba.toNat
  backupLba : b.backupLba.toNat = max h.currentLba.toNat h.backupLba.toNat
  firstUsable : b.firstUsable = h.firstUsable
  lastUsable : b.lastUsable = h.lastUsable
  numParts : b.numParts = h.numParts
  partSize : b.partSize = h.partSize

end Spec

open Spec

theorem last_cons {κ α : Type} {val : κ → Option α} {c : κ} {cs : List κ} {d d' v : α} (h : Last val cs d' v)
    (hd : d' = (val c).getD d) : Last val (c :: cs) d v := by
  rcases h with ⟨rfl, h⟩ | ⟨pre, c', post, rfl, h1, h2⟩
  · subst hd
    cases hc : val c with
    | none => exact .inl ⟨rfl, fun x hx => by rcases List.mem_cons.mp hx with rfl | hx <;> [exact hc; exact h x hx]⟩
    | some v => exact .inr ⟨[], c, cs, rfl, hc, h⟩
  · exact .inr ⟨c :: pre, c', post, rfl, h1, h2⟩

/-- **C86**: every sequence of setter calls. -/
theorem c86_settings (b : HeaderBuilder) (cs : List Setter) : Settings b cs (cs.foldl (fun b c => c.call b) b) := by
  induction cs generalizing b with
  | nil => constructor <;> first | rfl | exact .inl ⟨rfl, by simp⟩
  | cons c cs ih =>
    have h := ih (c.call b)
    rw [List.foldl_cons]
    have hm : ∀ n : UInt32, (max32 n minNumParts).toNat = max n.toNat 128 := fun n => by rw [max32_toNat]; rfl
    exact ⟨last_cons h.primary (by cases c <;> rfl), last_cons h.diskGuid (by cases c <;> rfl), h.primaryLba.trans (by cases c <;> rfl),
      last_cons h.backupLba (by cases c <;> rfl), last_cons h.firstUsable (by cases c <;> rfl), last_cons h.lastUsable (by cases c <;> rfl),
      last_cons h.numParts (by cases c <;> first | rfl | exact hm _), last_cons h.partSize (by cases c <;> rfl)⟩

/-- **C86**: a builder made with `new`. -/
theorem c86_new (g : Uuid) : New g (HeaderBuilder.new g) := ⟨rfl, rfl, rfl, rfl, rfl, rfl, rfl, rfl⟩

/-- **C86**: a builder made with `from_header`. -/
theorem c86_from_header (h : Header) : TakenOver h (HeaderBuilder.fromHeader h) := by
  have hi := UInt64.lt_iff_toNat_lt (a := h.currentLba) (b := h.backupLba)
  refine ⟨?_, rfl, ?_, ?_, rfl, rfl, rfl, rfl⟩
  · show decide (h.currentLba < h.backupLba) = true ↔ _
    rw [decide_eq_true_iff, hi]
  · show (if h.currentLba < h.backupLba then h.currentLba else h.backupLba).toNat = _
    split <;> rename_i hc <;> rw [hi] at hc <;> omega
  · show (if h.currentLba < h.backupLba then h.backupLba else h.currentLba).toNat = _
    split <;> rename_i hc <;> rw [hi] at hc <;> omega

/-- The last of two calls counts, a count of 5 becomes 128, and the other values stay. -/
example (g g' : Uuid) (b : HeaderBuilder)
    (hb : Settings (HeaderBuilder.new g) [.numParts 500, .backupLba 99, .diskGuid g', .numParts 5, .partSize 256, .firstUsable 40] b) :
    b.numParts.toNat = 128 := by
  rcases hb.numParts with ⟨_, h⟩ | ⟨pre, c, post, h1, h2, h3⟩
  · exact absurd (h (.numParts 5) (by simp)) (by simp [asNumParts])
  · have key : ∀ {pre post : List Setter} {c : Setter}, [Setter.numParts 500, .backupLba 99, .diskGuid g', .numParts 5, .partSize 256, .firstUsable 40] =
        pre ++ c :: post → asNumParts c = some b.numParts.toNat → (∀ c ∈ post, asNumParts c = none) → b.numParts.toNat = 128 := by
      intro pre post c h1 h2 h3
      rcases pre with _ | ⟨p1, _ | ⟨p2, _ | ⟨p3, _ | ⟨p4, _ | ⟨p5, _ | ⟨p6, pre⟩⟩⟩⟩⟩⟩ <;>
        simp only [List.nil_append, List.cons_append, List.cons.injEq] at h1
      · obtain ⟨rfl, rfl⟩ := h1; exact absurd (h3 (.numParts 5) (by simp)) (by simp [asNumParts])
      · obtain ⟨_, rfl, _⟩ := h1; simp [asNumParts] at h2
      · obtain ⟨_, _, rfl, _⟩ := h1; simp [asNumParts] at h2
      · obtain ⟨_, _, _, rfl, _⟩ := h1; simp [asNumParts] at h2; omega
      · obtain ⟨_, _, _, _, rfl, _⟩ := h1; simp [asNumParts] at h2
      · obtain ⟨_, _, _, _, _, rfl, _⟩ := h1; simp [asNumParts] at h2
      · simp at h1
    exact key h1 h2 h3

/-! ## C95 -/

/-- A call of a setter of `GptConfig`. -/
inductive CfgSetter where
  | writable (b : Bool)
  | logicalBlockSize (l : LbSize)
  | onlyValidHeaders (b : Bool)
  | readonlyBackup (b : Bool)
  | changePartitionCount (b : Bool)

/-- Make the call (src/lib.rs:206-237). -/
def CfgSetter.call : CfgSetter → GptConfig → GptConfig
  | .writable b, c => c.setWritable b
  | .logicalBlockSize l, c => c.setLogicalBlockSize l
  | .onlyValidHeaders b, c => c.setOnlyValidHeaders b
  | .readonlyBackup b, c => c.setReadonlyBackup b
  | .changePartitionCount b, c => c.setChangePartitionCount b

namespace Spec

def asWritable : CfgSetter → Option Bool | .writable b => some b | _ => none
def asBlockSize : CfgSetter → Option Nat | .logicalBlockSize l => some (match l with | .lb512 => 512 | .lb4096 => 4096) | _ => none
def asOnlyValid : CfgSetter → Option Bool | .onlyValidHeaders b => some b | _ => none
def asReadonlyBackup : CfgSetter → Option Bool | .readonlyBackup b => some b | _ => none
def asChangeCount : CfgSetter → Option Bool | .changePartitionCount b => some b | _ => none

/-- The configuration after the calls `cs` on `GptConfig::new()`. -/
structure Configured (cs : List CfgSetter) (c : GptConfig) : Prop where
  writable : Last asWritable cs false c.writable
  blockSize : Last asBlockSize cs 512 c.lbSize.usize
  onlyValid : Last asOnlyValid cs false c.onlyValidHeaders
  readonlyBackup : Last asReadonlyBackup cs false c.readonlyBackup
  changeCount : Last asChangeCount cs false c.changePartitionCount

end Spec

theorem configured_from (c : GptConfig) (cs : List CfgSetter) :
    Last asWritable cs c.writable (cs.foldl (fun c k => k.call c) c).writable ∧
    Last asBlockSize cs c.lbSize.usize (cs.foldl (fun c k => k.call c) c).lbSize.usize ∧
    Last asOnlyValid cs c.onlyValidHeaders (cs.foldl (fun c k => k.call c) c).onlyValidHeaders ∧
    Last asReadonlyBackup cs c.readonlyBackup (cs.foldl (fun c k => k.call c) c).readonlyBackup ∧
    Last asChangeCount cs c.changePartitionCount (cs.foldl (fun c k => k.call c) c).changePartitionCount := by
  induction cs generalizing c with
  | nil => exact ⟨.inl ⟨rfl, by simp⟩, .inl ⟨rfl, by simp⟩, .inl ⟨rfl, by simp⟩, .inl ⟨rfl, by simp⟩, .inl ⟨rfl, by simp⟩⟩
  | cons k cs ih =>
    obtain ⟨h1, h2, h3, h4, h5⟩ := ih (k.call c)
    rw [List.foldl_cons]
    refine ⟨last_cons h1 (by cases k <;> rfl), last_cons h2 ?_, last_cons h3 (by cases k <;> rfl), last_cons h4 (by cases k <;> rfl),
      last_cons h5 (by cases k <;> rfl)⟩
    cases k with
    | logicalBlockSize l => cases l <;> rfl
    | _ => rfl

/-- **C95**: every sequence of setter calls on a new configuration. -/
theorem c95_configured (cs : List CfgSetter) : Configured cs (cs.foldl (fun c k => k.call c) GptConfig.new) := by
  obtain ⟨h1, h2, h3, h4, h5⟩ := configured_from GptConfig.new cs
  exact ⟨h1, h2, h3, h4, h5⟩

/-- **C95**: a disk opened or created has the configuration it was opened or created with. -/
theorem c95_kept (m : Mode) (cfg : GptConfig) (d d' : Dev) (guid : Option Uuid) (fresh fresh2 : Uuid) (s : GptDisk)
    (h : openFromDevice m cfg d = (.ok s, d') ∨ openFile m cfg d = (.ok s, d') ∨ createFromDevice m cfg guid fresh fresh2 d = (.ok s, d') ∨
      createFile m cfg fresh fresh2 d = (.ok s, d')) : s.config = cfg := by
  have op : ∀ {s : GptDisk} {d' : Dev}, openFromDevice m cfg d = (.ok s, d') → s.config = cfg := by
    intro s d' h
    obtain ⟨_, _, _, _, _, _, _, h, _⟩ := openFromDevice_ok h
    exact h
  have cr : ∀ {guid : Option Uuid} {s : GptDisk} {d' : Dev}, createFromDevice m cfg guid fresh fresh2 d = (.ok s, d') → s.config = cfg := by
    intro guid s d' h
    unfold createFromDevice at h
    rcases hx : GptDisk.initHeaders m fresh2 (blankDisk cfg d (guid.getD fresh)) with ⟨r, s1⟩
    rw [hx] at h
    have := (GptDisk.initHeaders_same hx).config
    cases r with
    | err e => simp at h
    | panic => simp at h
    | ok u =>
      simp only [Prod.mk.injEq, Res.ok.injEq] at h
      obtain ⟨rfl, -⟩ := h
      exact this
  rcases h with h | h | h | h
  · exact op h
  · obtain ⟨g, h', rfl⟩ := openFile_ok h
    exact op (s := g) h'
  · exact cr h
  · obtain ⟨g, h', rfl⟩ := createFile_ok h
    exact cr (s := g) h'

/-- Two settings made, one of them twice. -/
example : ∃ c, Configured [.writable true, .logicalBlockSize .lb4096, .writable false] c ∧ c.writable = false ∧ c.lbSize.usize = 4096 :=
  ⟨_, c95_configured _, rfl, rfl⟩

end Gpt
