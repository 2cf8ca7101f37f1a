import Verif.Model.Display
import Verif.Model.File
import Verif.Model.Mbr
/-!
# The tests of the repository, run on the model

These are tests of the *model*, not proofs: each `#guard` evaluates the model on the input of a test in /repo (tests/*.rs and the
`#[cfg(test)]` modules) and compares with what that test asserts. They show that the model computes what the code computes on the
inputs the authors chose, including a disk image made by `fdisk`. Nothing in the proofs depends on this file.
-/

namespace Gpt.Tests

/-- tests/fixtures/gpt-disk.img: the bytes that are not zero, by offset. -/
def fixture : Bytes := [
  (448, [2, 0, 238, 255, 255, 255, 1, 0, 0, 0, 71]),
  (510, [85, 170, 69, 70, 73, 32, 80, 65, 82, 84, 0, 0, 1, 0, 92, 0, 0, 0, 153, 102, 240, 85, 0, 0, 0, 0, 1, 0, 0, 0, 0, 0, 0, 0,
    71, 0, 0, 0, 0, 0, 0, 0, 34, 0, 0, 0, 0, 0, 0, 0, 38, 0, 0, 0, 0, 0, 0, 0, 250, 43, 106, 27, 43, 233, 76, 24, 168, 167, 237,
    6, 16, 213, 72, 33, 2, 0, 0, 0, 0, 0, 0, 0, 128, 0, 0, 0, 128, 0, 0, 0, 27, 96, 173, 95]),
  (1024, [175, 61, 198, 15, 131, 132, 114, 71, 142, 121, 61, 105, 216, 71, 125, 228, 80, 171, 142, 243, 111, 7, 69, 203, 151, 248,
    177, 183, 229, 175, 7, 143, 34, 0, 0, 0, 0, 0, 0, 0, 34]),
  (1152, [175, 61, 198, 15, 131, 132, 114, 71, 142, 121, 61, 105, 216, 71, 125, 228, 175, 53, 238, 142, 147, 74, 79, 44, 170, 122,
    95, 177, 147, 172, 111, 247, 35, 0, 0, 0, 0, 0, 0, 0, 38]),
  (19968, [175, 61, 198, 15, 131, 132, 114, 71, 142, 121, 61, 105, 216, 71, 125, 228, 80, 171, 142, 243, 111, 7, 69, 203, 151,
    248, 177, 183, 229, 175, 7, 143, 34, 0, 0, 0, 0, 0, 0, 0, 34]),
  (20096, [175, 61, 198, 15, 131, 132, 114, 71, 142, 121, 61, 105, 216, 71, 125, 228, 175, 53, 238, 142, 147, 74, 79, 44, 170,
    122, 95, 177, 147, 172, 111, 247, 35, 0, 0, 0, 0, 0, 0, 0, 38]),
  (36352, [69, 70, 73, 32, 80, 65, 82, 84, 0, 0, 1, 0, 92, 0, 0, 0, 27, 164, 223, 125, 0, 0, 0, 0, 71, 0, 0, 0, 0, 0, 0, 0, 1, 0,
    0, 0, 0, 0, 0, 0, 34, 0, 0, 0, 0, 0, 0, 0, 38, 0, 0, 0, 0, 0, 0, 0, 250, 43, 106, 27, 43, 233, 76, 24, 168, 167, 237, 6, 16,
    213, 72, 33, 39, 0, 0, 0, 0, 0, 0, 0, 128, 0, 0, 0, 128, 0, 0, 0, 27, 96, 173, 95])
  ].foldl (fun d (s : Nat × Bytes) => patch d s.1 s.2) (zeros 36864)

/-- A device in memory (`Cursor<Vec<u8>>`) or a file, with room to grow. -/
def dev (b : Bytes) : Dev := ⟨b, 0, 2 ^ 64, [], []⟩

def uuid (s : String) : Uuid := strToUuid s

/-- A constant of `partition_types`. -/
def ty (name : String) : PType := ((typeTable.find? (·.name == name)).map TypeRow.toType).getD PType.unused

/-- Some random GUIDs. -/
def g (n : Nat) : Uuid := Uuid.ofNat (1234567 + n)

/-- `unwrap`. -/
def ok {ε α : Type} : Res ε α → Option α
  | .ok a => some a
  | _ => none

def okE {ε α : Type} : Except ε α → Option α
  | .ok a => some a
  | _ => none

/-- `x.unwrap()` and the state after it. -/
def run {σ ε α : Type} (x : M σ ε α) (s : σ) : Option (α × σ) :=
  match x s with
  | (.ok a, s) => some (a, s)
  | _ => none

def modes : List Mode := [.debug, .release]

/-! ## src/header/mod.rs -/

/-- `expected_headers` (src/header/mod.rs:489-514). -/
def expectedPrimary : Header where
  signature := utf8 "EFI PART"
  revision := (1, 0)
  headerSizeLe := 92
  crc32 := 0x55f06699
  reserved := 0
  currentLba := 1
  backupLba := 71
  firstUsable := 34
  lastUsable := 38
  diskGuid := uuid "1B6A2BFA-E92B-184C-A8A7-ED0610D54821"
  partStart := 2
  numParts := 128
  partSize := 128
  crc32Parts := 0x5fad601b

def expectedBackup : Header :=
  { expectedPrimary with crc32 := 0x7ddfa41b, currentLba := 71, backupLba := 1, partStart := 39 }

-- read_gpt_disk (src/header/mod.rs:517-532)
#guard (readPrimaryHeader .lb512 (dev fixture)).1 = .ok expectedPrimary
#guard (readBackupHeader .lb512 (dev fixture)).1 = .ok expectedBackup

def builder : HeaderBuilder :=
  ((HeaderBuilder.new (g 0)).setDiskGuid (uuid "1B6A2BFA-E92B-184C-A8A7-ED0610D54821")).setBackupLba 71

-- create_gpt_disk (src/header/mod.rs:535-564)
#guard modes.all fun m => builder.build m .lb512 = .ok { expectedPrimary with crc32 := 0, crc32Parts := 0 }
#guard modes.all fun m => (builder.setPrimary false).build m .lb512 = .ok { expectedBackup with crc32 := 0, crc32Parts := 0 }
#guard modes.all fun m => (HeaderBuilder.fromHeader expectedPrimary).build m .lb512 = builder.build m .lb512

/-- `write_gpt_disk` (src/header/mod.rs:567-610): headers cleared and written again give the image. -/
def writeGptDisk (m : Mode) : Option Bytes := do
  let primary ← ok (builder.build m .lb512)
  let backup ← ok ((builder.setPrimary false).build m .lb512)
  let (bak, _) ← run (findBackupLba .lb512) (dev fixture)
  let cleared := patch (patch fixture 512 (zeros 92)) (bak.toNat * 512) (zeros 92)
  let (_, _, d) ← run (Header.writePrimary .lb512) (primary, dev cleared)
  let (_, _, d) ← run (Header.writeBackup .lb512) (backup, d)
  pure d.data

#guard modes.all fun m => writeGptDisk m = some fixture

/-! ## src/partition.rs -/

-- test_zero_part (src/partition.rs:327-337)
#guard Partition.zero.asBytes 128 = zeros 128
#guard Partition.zero.asBytes 256 = zeros 256
-- test_part_len (src/partition.rs:340-389)
#guard Partition.zero.sectorsLen = .ok 1
#guard Partition.zero.bytesLen .lb512 = .ok 512
#guard Partition.zero.bytesLen .lb4096 = .ok 4096
#guard [{ Partition.zero with firstLba := 1 }, { Partition.zero with lastLba := 0xFFFFFFFFFFFFFFFF }].all fun p =>
  ok p.sectorsLen = none && ok (p.bytesLen .lb512) = none && ok (p.bytesLen .lb4096) = none
#guard (⟨.unused, .nil, 2, 3, 0, ""⟩ : Partition).sectorsLen = .ok 2
#guard (⟨.unused, .nil, 2, 3, 0, ""⟩ : Partition).bytesLen .lb512 = .ok 1024
#guard (⟨.unused, .nil, 2, 3, 0, ""⟩ : Partition).bytesLen .lb4096 = .ok 8192
-- test_part_bytes_start (src/partition.rs:392-421)
#guard Partition.zero.bytesStart .lb512 = .ok 0
#guard Partition.zero.bytesStart .lb4096 = .ok 0
#guard ok ({ Partition.zero with firstLba := 0xFFFFFFFFFFFFFFFF }.bytesLen .lb512) = none
#guard { Partition.zero with firstLba := 2 }.bytesStart .lb512 = .ok 1024
#guard { Partition.zero with firstLba := 2 }.bytesStart .lb4096 = .ok 8192

/-! ## src/partition_types.rs -/

-- test_partition_type_fromstr, test_partition_fromstr_guid, test_partition_from_name (src/partition_types.rs:339-376)
#guard PType.fromStr (utf8 "933AC7E1-2EB4-4F13-B844-0E14E2AEF915") = .ok (ty "LINUX_HOME")
#guard PType.fromStr (utf8 "114EAFFE-1552-4022-B26E-9B053604CF84") = .ok (ty "ANDROID_BOOTLOADER2")
#guard PType.fromStr (utf8 "00000000-0000-0000-0000-000000000000") = .ok (ty "UNUSED")
#guard PType.fromStr (utf8 "ebd0a0a2-b9e5-4433-87c0-68b6b72699c7") = .ok (ty "BASIC")
#guard PType.fromStr (utf8 "0FC63DAF-8483-4772-8E79-3D69D8477DE4") = .ok (ty "LINUX_FS")
#guard PType.fromName (utf8 "Linux_FS") = .ok (ty "LINUX_FS")
#guard ty "LINUX_FS" ≠ PType.unused

/-! ## tests/gpt-real-disk.rs -/

/-- The fixture in a file system. -/
def fs : Fs := fun path _ => if path = "tests/fixtures/gpt-disk.img" then .ok (dev fixture) else .error .device

/-- `test_gpt_disk_read` (tests/gpt-real-disk.rs:8-59). -/
def diskRead (m : Mode) : Option Bool := do
  let s ← ok (openPath m fs GptConfig.new "tests/fixtures/gpt-disk.img").1
  let h1 ← okE s.primaryHeader?
  let h2 ← okE s.backupHeader?
  let p1 ← PMap.get s.partitions 1
  let p2 ← PMap.get s.partitions 2
  pure (s.config.lbSize = .lb512 ∧ s.partitions.length = 2 ∧ h1.currentLba = 1 ∧ h1.backupLba = 71 ∧ h2.currentLba = 71 ∧ h2.backupLba = 1 ∧
    p1 = ⟨ty "LINUX_FS", uuid "F38EAB50-076F-CB45-97F8-B1B7E5AF078F", 34, 34, 0, ""⟩ ∧
    p1.bytesStart .lb512 = .ok (512 * 34) ∧ p1.bytesLen .lb512 = .ok 512 ∧
    p2 = ⟨ty "LINUX_FS", uuid "8EEE35AF-4A93-2C4F-AA7A-5FB193AC6FF7", 35, 38, 0, ""⟩ ∧
    p2.bytesStart .lb512 = .ok (512 * 35) ∧ p2.bytesLen .lb512 = .ok (4 * 512) ∧
    s.calculateAlignment (ε := Empty) = .ok 1)

#guard modes.all fun m => diskRead m = some true

/-- `test_gpt_disk_write_fidelity_with_device` (tests/gpt-real-disk.rs:62-103). -/
def fidelity (m : Mode) : Option Bool := do
  let s ← ok (openPath m fs GptConfig.new "tests/fixtures/gpt-disk.img").1
  let (d, _) ← run (GptDisk.write m) (s.withDiskDevice (dev (zeros 36864)) true)
  let s1 ← ok (openPath m (fun _ _ => .ok (dev d.data)) GptConfig.new "temp").1
  let s2 ← ok (openFromDevice m GptConfig.new d).1
  pure ([s1, s2].all fun t =>
    okE t.primaryHeader? = okE s.primaryHeader? ∧ okE t.backupHeader? = okE s.backupHeader? ∧ t.partitions = s.partitions ∧
    okE s.primaryHeader? = some expectedPrimary)

#guard modes.all fun m => fidelity m = some true

/-! ## tests/gpt.rs -/

/-- `test_gptconfig_empty` (tests/gpt.rs:7-26). -/
def configEmpty (m : Mode) : Option Bool := do
  let s ← ok (createPath m (fun _ _ => .ok (dev (zeros (1024 * 64)))) (GptConfig.new.setLogicalBlockSize .lb4096) "temp" (g 0) (g 1)).1
  pure (s.config.lbSize = .lb4096 ∧ (okE s.primaryHeader?).isSome ∧ (okE s.backupHeader?).isSome ∧ s.partitions = [])

#guard modes.all fun m => configEmpty m = some true

/-- Three partitions as in several tests. -/
def threeParts (m : Mode) (third : String) (s : GptDisk) : Option GptDisk := do
  let (_, s) ← run (GptDisk.addPartition m "test1" (1024 * 12) (ty "BASIC") 0 none (g 2) (g 3)) s
  let (_, s) ← run (GptDisk.addPartition m "test2" (1024 * 18) (ty "LINUX_FS") 0 none (g 4) (g 5)) s
  let id ← (← ok (s.findNextPartitionId (ε := Empty)))
  let (_, s) ← run (GptDisk.addPartitionAt m third id 94 2 (ty "BASIC") 0 (g 6) (g 7)) s
  pure s

/-- `test_create_simple_on_device` (tests/gpt.rs:29-60). -/
def createSimple (m : Mode) : Option Bool := do
  let total := 1024 * 66
  let (_, d) ← run (ProtectiveMbr.withLbSize (UInt32.ofNat (total / 512 - 1))).overwriteLba0 (dev (zeros total))
  let (s, _) ← run (createFromDevice m ((GptConfig.new.setWritable true).setLogicalBlockSize .lb512) none (g 0) (g 1)) d
  let s ← threeParts m "test3" s
  let (d, _) ← run (GptDisk.write m) s
  pure (d.data.length = total)

#guard modes.all fun m => createSimple m = some true

/-- The written disk of `test_only_valid_headers` and `test_readonly_backup`. -/
def validDisk (m : Mode) (third : String) : Option GptDisk := do
  let (s, _) ← run (createFromDevice m (GptConfig.new.setWritable true) none (g 0) (g 1)) (dev (zeros (1024 * 70)))
  let s ← threeParts m third s
  let (_, s) ← run (GptDisk.writeInplace m) s
  pure s

/-- `test_only_valid_headers` (tests/gpt.rs:70-110). The two cursors are compared as well. -/
def onlyValid (m : Mode) : Option Bool := do
  let s ← validDisk m "test3"
  let corrupt := { s.device with data := zeros (1024 * 32) ++ s.device.data.drop (1024 * 32) }
  let first := openFromDevice m (GptConfig.new.setOnlyValidHeaders true) corrupt
  let (t, _) ← run (openFromDevice m (GptConfig.new.setWritable true)) corrupt
  let (_, t) ← run (GptDisk.writeInplace m) t
  pure ((ok first.1).isNone ∧ t.device.data = s.device.data ∧ t.device.pos = s.device.pos ∧ (PMap.get t.partitions 1).map (·.name) = some "test1")

#guard modes.all fun m => onlyValid m = some true

/-- `test_readonly_backup` (tests/gpt.rs:113-159). -/
def readonlyBackup (m : Mode) : Option Bool := do
  let s ← validDisk m "test4"
  let (t, _) ← run (openFromDevice m ((GptConfig.new.setWritable true).setReadonlyBackup true)) s.device
  let (_, t) ← run (GptDisk.addPartition m "test3" (1024 * 4) (ty "LINUX_FS") 0 none (g 8) (g 9)) t
  let (_, t) ← run (GptDisk.writeInplace m) t
  let primaryEnd := 512 * (1 + 1 + 32)
  let backupStart := t.device.data.length - 512 * (1 + 32)
  pure (t.device.data.take primaryEnd ≠ s.device.data.take primaryEnd ∧ t.device.data.drop backupStart = s.device.data.drop backupStart)

#guard modes.all fun m => readonlyBackup m = some true

/-- `n` partitions of one block. -/
def addMany (m : Mode) : Nat → Nat → GptDisk → Option GptDisk
  | 0, _, s => some s
  | n + 1, i, s => do
    let (_, s) ← run (GptDisk.addPartition m s!"test{i}" 512 (ty "BASIC") 0 none (g (100 + i)) (g 99)) s
    addMany m n (i + 1) s

/-- `test_change_partition_count` (tests/gpt.rs:162-239). -/
def changeCount (m : Mode) : Option Bool := do
  let size := 67 + 128 + 1
  let (s, _) ← run (createFromDevice m (GptConfig.new.setWritable true) none (g 0) (g 1)) (dev (zeros (512 * size)))
  let s ← addMany m 128 0 s
  let failed := (GptDisk.addPartition m "test129" 512 (ty "BASIC") 0 none (g 2) (g 3) s).1
  let (_, s) ← run (GptDisk.writeInplace m) s
  let (b, _) ← run (createFromDevice m ((GptConfig.new.setWritable true).setChangePartitionCount true) none (g 0) (g 1))
    (dev (zeros (512 * size)))
  let b ← addMany m 129 0 b
  let (data, _) ← run (GptDisk.write m) b
  let (n, _) ← run (openFromDevice m (GptConfig.new.setWritable true)) data
  let (_, n) ← run (GptDisk.writeInplace m) n
  let same := n.device.data = data.data ∧ n.device.pos = data.pos
  let (_, n) ← run (ε := Empty) (GptDisk.removePartition 129) n
  let (_, n) ← run (ε := Empty) (GptDisk.removePartition 128) n
  let (_, n) ← run (GptDisk.addPartition m "test128" 512 (ty "BASIC") 0 none (g 4) (g 5)) n
  let (_, n) ← run (GptDisk.writeInplace m) n
  let hn ← ok (n.header (ε := Empty))
  let hs ← ok (s.header (ε := Empty))
  pure (failed = .err .partitionCountWouldChange ∧ same ∧ hn.numParts = 129 ∧ n.partitions.length = 128 ∧ hs.numParts ≠ hn.numParts)

#guard modes.all fun m => changeCount m = some true

/-- `test_helper_gptdisk_write_efi_unused_partition_entries` (tests/gpt.rs:241-349). -/
def unusedEntries (m : Mode) (lb : LbSize) : Option Bool := do
  let n := lb.usize
  let headerLbs := 1 + 1 + 128 * 128 / n
  let dataLbs := 10
  let total := (headerLbs + dataLbs + 128 * 128 / n + 1) * n
  let (s, _) ← run (createFromDevice m ((GptConfig.new.setWritable true).setLogicalBlockSize lb) none (g 0) (g 1))
    (dev (List.replicate total 255))
  let (_, s) ← run (GptDisk.addPartition m "test1" (3 * lb.u64) (ty "BASIC") 0 none (g 2) (g 3)) s
  let (_, s) ← run (GptDisk.addPartition m "test2" (10 * lb.u64 - 3 * lb.u64) (ty "LINUX_FS") 0 none (g 4) (g 5)) s
  let (d, _) ← run (GptDisk.write m) s
  let b := d.data
  let ff (k : Nat) : Bytes := List.replicate k 255
  pure (slice b 0 n = ff n ∧ slice b n 92 ≠ ff 92 ∧ slice b (n + 92) (n - 92) = zeros (n - 92) ∧
    slice b (2 * n) 256 ≠ ff 256 ∧ slice b (2 * n) 256 ≠ zeros 256 ∧ slice b (2 * n + 256) (126 * 128) = zeros (126 * 128) ∧
    slice b (headerLbs * n) (dataLbs * n) = ff (dataLbs * n) ∧
    slice b ((headerLbs + dataLbs) * n) 256 ≠ ff 256 ∧ slice b ((headerLbs + dataLbs) * n) 256 ≠ zeros 256 ∧
    slice b (total - n) 92 ≠ ff 92 ∧ slice b (total - n + 92) (n - 92) = zeros (n - 92) ∧ b.length = total)

#guard modes.all fun m => unusedEntries m .lb512 = some true
#guard modes.all fun m => unusedEntries m .lb4096 = some true

/-- `test_non_overlapping_partition_edge_case` (tests/gpt.rs:352-395). -/
def edgeCase (m : Mode) : Option Bool := do
  let (s, _) ← run (createFromDevice m ((GptConfig.new.setWritable true).setLogicalBlockSize .lb512) none (g 0) (g 1))
    (dev (zeros (1024 * 64)))
  let (_, s) ← run (GptDisk.addPartition m "edge1" 512 (ty "BASIC") 0 none (g 2) (g 3)) s
  let (_, s) ← run (GptDisk.addPartition m "edge2" 512 (ty "BASIC") 0 none (g 4) (g 5)) s
  let p1 ← PMap.get s.partitions 1
  let p2 ← PMap.get s.partitions 2
  pure (p1.lastLba + 1 = p2.firstLba)

#guard modes.all fun m => edgeCase m = some true

/-! ## tests/mbr.rs -/

-- test_mbr_partrecord (tests/mbr.rs:6-16)
#guard PartRecord.zero.toBytes = zeros 16
#guard (PartRecord.newProtective none).toBytes ≠ zeros 16
#guard (PartRecord.newProtective none).toBytes.length = 16
-- test_mbr_protective (tests/mbr.rs:19-32)
#guard ProtectiveMbr.new.toBytes.length = 512
#guard ProtectiveMbr.new.toBytes.drop 510 = [0x55, 0xAA]
#guard (ProtectiveMbr.withLbSize 1).toBytes.length = 512
#guard (ProtectiveMbr.withLbSize 1).toBytes ≠ ProtectiveMbr.new.toBytes
#guard (ProtectiveMbr.withLbSize 1).toBytes.drop 510 = [0x55, 0xAA]

/-- `test_mbr_write` (tests/mbr.rs:35-46): reading to the end starts at the cursor. -/
def mbrWrite : Option Bool := do
  let (_, d) ← run ProtectiveMbr.new.overwriteLba0 (dev [])
  let (_, d) ← run ProtectiveMbr.new.updateConservative d
  pure (d.data.drop d.pos = ProtectiveMbr.new.toBytes)

#guard mbrWrite = some true

/-- `test_mbr_read` (tests/mbr.rs:49-54). -/
def mbrRead : Option Bool := do
  let (m, _) ← run (ProtectiveMbr.fromDisk .lb512) (dev fixture)
  pure (m.bootcode.1 = zeros 440 ∧ m.diskSignature.1 = zeros 4)

#guard mbrRead = some true

/-- `test_mbr_rw_roundtrip` (tests/mbr.rs:57-71). -/
def mbrRoundtrip : Option Bool := do
  let m0 := ProtectiveMbr.new.setDiskSignature ⟨[0x11, 0x22, 0x33, 0x44], rfl⟩
  let (_, d) ← run m0.overwriteLba0 (dev [])
  let (m1, _) ← run (ProtectiveMbr.fromDisk .lb512) d
  pure (m0.bootcode.1 = m1.bootcode.1 ∧ m1.diskSignature.1 = [0x11, 0x22, 0x33, 0x44] ∧ m0.toBytes = m1.toBytes)

#guard mbrRoundtrip = some true

/-- `test_mbr_bootcode` (tests/mbr.rs:74-87). -/
def mbrBootcode : Option Bool := do
  let (_, d) ← run ProtectiveMbr.new.overwriteLba0 (dev [])
  let (b0, d) ← run readBootcode d
  let (_, d) ← run (writeBootcode ⟨List.replicate 440 0xAA, List.length_replicate ..⟩) d
  let (b2, _) ← run readBootcode d
  pure (b0 = zeros 440 ∧ b2 = List.replicate 440 0xAA)

#guard mbrBootcode = some true

/-- `test_mbr_disksig` (tests/mbr.rs:90-103). -/
def mbrDisksig : Option Bool := do
  let (_, d) ← run ProtectiveMbr.new.overwriteLba0 (dev [])
  let (s0, d) ← run readDiskSignature d
  let (_, d) ← run (writeDiskSignature ⟨[0, 0x11, 0x22, 0x33], rfl⟩) d
  let (s2, _) ← run readDiskSignature d
  pure (s0 = zeros 4 ∧ s2 = [0, 0x11, 0x22, 0x33])

#guard mbrDisksig = some true

end Gpt.Tests
