import Verif.Model.Uuid
/-!
# src/partition_types.rs and the `partition_types!` macro of src/macros.rs

The table is generated from the source by a script; each row cites its line.
-/

namespace Gpt

/-- `OperatingSystem` (src/partition_types.rs:14-65). -/
inductive OS where
  | none
  | android
  | atari
  | ceph
  | chrome
  | coreOs
  | custom (name : String)
  | freeBsd
  | freeDesktop
  | haiku
  | hpUnix
  | linux
  | midnightBsd
  | macOs
  | netBsd
  | onie
  | openBsd
  | plan9
  | powerPc
  | solaris
  | vmWare
  | windows
  | qnx
  | dragonFlyBsd
  deriving DecidableEq, Repr

/-- `Type` (src/partition_types.rs:5-12). -/
structure PType where
  guid : Uuid
  os : OS
  deriving DecidableEq, Repr

/-- The UTF-8 bytes of a string (`str::as_bytes`). (src/macros.rs:29-48) -/
def utf8 (s : String) : Bytes := s.toUTF8.data.toList

/-- One line of `partition_types! { ... }`: the constant's name, its GUID as written, its OS. (src/partition_types.rs:106-333) -/
structure TypeRow where
  name : String
  guidStr : String
  os : OS

/-- The invocation of `partition_types!` (src/partition_types.rs:106-333). -/
def typeTable : List TypeRow := [
  /- 108 -/ ⟨"UNUSED", "00000000-0000-0000-0000-000000000000", .none⟩,
  /- 110 -/ ⟨"MBR", "024DEE41-33E7-11D3-9D69-0008C781F39F", .none⟩,
  /- 112 -/ ⟨"EFI", "C12A7328-F81F-11D2-BA4B-00A0C93EC93B", .none⟩,
  /- 114 -/ ⟨"BIOS", "21686148-6449-6E6F-744E-656564454649", .none⟩,
  /- 116 -/ ⟨"FLASH", "D3BFE2DE-3DAF-11DF-BA40-E3A556D89593", .none⟩,
  /- 118 -/ ⟨"SONY_BOOT", "F4019732-066E-4E12-8273-346C5641494F", .none⟩,
  /- 120 -/ ⟨"LENOVO_BOOT", "BFBFAFE7-A34F-448A-9A5B-6213EB736C22", .none⟩,
  /- 122 -/ ⟨"MICROSOFT_RESERVED", "E3C9E316-0B5C-4DB8-817D-F92DF00215AE", .windows⟩,
  /- 124 -/ ⟨"BASIC", "EBD0A0A2-B9E5-4433-87C0-68B6B72699C7", .windows⟩,
  /- 126 -/ ⟨"WINDOWS_METADATA", "5808C8AA-7E8F-42E0-85D2-E1E90434CFB3", .windows⟩,
  /- 128 -/ ⟨"WINDOWS_DATA", "AF9B60A0-1431-4F62-BC68-3311714A69AD", .windows⟩,
  /- 130 -/ ⟨"WINDOWS_RECOVERY", "DE94BBA4-06D1-4D40-A16A-BFD50179D6AC", .windows⟩,
  /- 132 -/ ⟨"WINDOWS_PARALLEL", "37AFFC90-EF7D-4E96-91C3-2D7AE055B174", .windows⟩,
  /- 134 -/ ⟨"WINDOWS_STORAGESPACES", "E75CAF8F-F680-4CEE-AFA3-B001E56EFC2D", .windows⟩,
  /- 136 -/ ⟨"HPUNIX_DATA", "75894C1E-3AEB-11D3-B7C1-7B03A0000000", .hpUnix⟩,
  /- 138 -/ ⟨"HPUNIX_SERVICE", "E2A1E728-32E3-11D6-A682-7B03A0000000", .hpUnix⟩,
  /- 140 -/ ⟨"LINUX_FS", "0FC63DAF-8483-4772-8E79-3D69D8477DE4", .linux⟩,
  /- 142 -/ ⟨"LINUX_RAID", "A19D880F-05FC-4D3B-A006-743F0F84911E", .linux⟩,
  /- 144 -/ ⟨"LINUX_ROOT_X86", "44479540-F297-41B2-9AF7-D131D5F0458A", .linux⟩,
  /- 146 -/ ⟨"LINUX_ROOT_X64", "4F68BCE3-E8CD-4DB1-96E7-FBCAF984B709", .linux⟩,
  /- 148 -/ ⟨"LINUX_ROOT_ARM_32", "69DAD710-2CE4-4E3C-B16C-21A1D49ABED3", .linux⟩,
  /- 150 -/ ⟨"LINUX_ROOT_ARM_64", "B921B045-1DF0-41C3-AF44-4C6F280D3FAE", .linux⟩,
  /- 152 -/ ⟨"LINUX_SWAP", "0657FD6D-A4AB-43C4-84E5-0933C84B4F4F", .linux⟩,
  /- 154 -/ ⟨"LINUX_LVM", "E6D6D379-F507-44C2-A23C-238F2A3DF928", .linux⟩,
  /- 156 -/ ⟨"LINUX_HOME", "933AC7E1-2EB4-4F13-B844-0E14E2AEF915", .linux⟩,
  /- 158 -/ ⟨"LINUX_SRV", "3B8F8425-20E0-4F3B-907F-1A25A76F98E8", .linux⟩,
  /- 160 -/ ⟨"LINUX_DMCRYPT", "7FFEC5C9-2D00-49B7-8941-3EA10A5586B7", .linux⟩,
  /- 162 -/ ⟨"LINUX_LUKS", "CA7D7CCB-63ED-4C53-861C-1742536059CC", .linux⟩,
  /- 164 -/ ⟨"LINUX_RESERVED", "8DA63339-0007-60C0-C436-083AC8230908", .linux⟩,
  /- 166 -/ ⟨"FREEBSD_DATA", "516E7CB4-6ECF-11D6-8FF8-00022D09712B", .freeBsd⟩,
  /- 168 -/ ⟨"FREEBSD_BOOT", "83BD6B9D-7F41-11DC-BE0B-001560B84F0F", .freeBsd⟩,
  /- 170 -/ ⟨"FREEBSD_SWAP", "516E7CB5-6ECF-11D6-8FF8-00022D09712B", .freeBsd⟩,
  /- 172 -/ ⟨"FREEBSD_UFS", "516E7CB6-6ECF-11D6-8FF8-00022D09712B", .freeBsd⟩,
  /- 174 -/ ⟨"FREEBSD_VINIUM", "516E7CB8-6ECF-11D6-8FF8-00022D09712B", .freeBsd⟩,
  /- 176 -/ ⟨"FREEBSD_ZFS", "516E7CBA-6ECF-11D6-8FF8-00022D09712B", .freeBsd⟩,
  /- 178 -/ ⟨"DRAGONFLY_DATA", "3D48CE54-1D16-11DC-8696-01301BB8A9F5", .dragonFlyBsd⟩,
  /- 180 -/ ⟨"MACOS_HFSPLUS", "48465300-0000-11AA-AA11-00306543ECAC", .macOs⟩,
  /- 182 -/ ⟨"MACOS_UFS", "55465300-0000-11AA-AA11-00306543ECAC", .macOs⟩,
  /- 184 -/ ⟨"MACOS_ZFS", "6A898CC3-1DD2-11B2-99A6-080020736631", .macOs⟩,
  /- 186 -/ ⟨"MACOS_RAID", "52414944-0000-11AA-AA11-00306543ECAC", .macOs⟩,
  /- 188 -/ ⟨"MACOS_RAID_OFFLINE", "52414944-5F4F-11AA-AA11-00306543ECAC", .macOs⟩,
  /- 190 -/ ⟨"MACOS_RECOVERY", "426F6F74-0000-11AA-AA11-00306543ECAC", .macOs⟩,
  /- 192 -/ ⟨"MACOS_LABEL", "4C616265-6C00-11AA-AA11-00306543ECAC", .macOs⟩,
  /- 194 -/ ⟨"MACOS_TV_RECOVERY", "5265636F-7665-11AA-AA11-00306543ECAC", .macOs⟩,
  /- 196 -/ ⟨"MACOS_CORE", "53746F72-6167-11AA-AA11-00306543ECAC", .macOs⟩,
  /- 198 -/ ⟨"MACOS_SOFTRAID_STATUS", "B6FA30DA-92D2-4A9A-96F1-871EC6486200", .macOs⟩,
  /- 200 -/ ⟨"MACOS_SOFTRAID_SCRATCH", "2E313465-19B9-463F-8126-8A7993773801", .macOs⟩,
  /- 202 -/ ⟨"MACOS_SOFTRAID_VOLUME", "FA709C7E-65B1-4593-BFD5-E71D61DE9B02", .macOs⟩,
  /- 204 -/ ⟨"MACOS_SOFTRAID_CACHE", "BBBA6DF5-F46F-4A89-8F59-8765B2727503", .macOs⟩,
  /- 206 -/ ⟨"MACOS_APFS", "7C3457EF-0000-11AA-AA11-00306543ECAC", .macOs⟩,
  /- 208 -/ ⟨"SOLARIS_BOOT", "6A82CB45-1DD2-11B2-99A6-080020736631", .solaris⟩,
  /- 210 -/ ⟨"SOLARIS_ROOT", "6A85CF4D-1DD2-11B2-99A6-080020736631", .solaris⟩,
  /- 212 -/ ⟨"SOLARIS_SWAP", "6A87C46F-1DD2-11B2-99A6-080020736631", .solaris⟩,
  /- 214 -/ ⟨"SOLARIS_BACKUP", "6A8B642B-1DD2-11B2-99A6-080020736631", .solaris⟩,
  /- 216 -/ ⟨"SOLARIS_VAR", "6A8EF2E9-1DD2-11B2-99A6-080020736631", .solaris⟩,
  /- 218 -/ ⟨"SOLARIS_HOME", "6A90BA39-1DD2-11B2-99A6-080020736631", .solaris⟩,
  /- 220 -/ ⟨"SOLARIS_ALT", "6A9283A5-1DD2-11B2-99A6-080020736631", .solaris⟩,
  /- 222 -/ ⟨"SOLARIS_RESERVED1", "6A945A3B-1DD2-11B2-99A6-080020736631", .solaris⟩,
  /- 224 -/ ⟨"SOLARIS_RESERVED2", "6A9630D1-1DD2-11B2-99A6-080020736631", .solaris⟩,
  /- 226 -/ ⟨"SOLARIS_RESERVED3", "6A980767-1DD2-11B2-99A6-080020736631", .solaris⟩,
  /- 228 -/ ⟨"SOLARIS_RESERVED4", "6A96237F-1DD2-11B2-99A6-080020736631", .solaris⟩,
  /- 230 -/ ⟨"SOLARIS_RESERVED5", "6A8D2AC7-1DD2-11B2-99A6-080020736631", .solaris⟩,
  /- 232 -/ ⟨"NETBSD_SWAP", "49F48D32-B10E-11DC-B99B-0019D1879648", .netBsd⟩,
  /- 234 -/ ⟨"NETBSD_FFS", "49F48D5A-B10E-11DC-B99B-0019D1879648", .netBsd⟩,
  /- 236 -/ ⟨"NETBSD_LFS", "49F48D82-B10E-11DC-B99B-0019D1879648", .netBsd⟩,
  /- 238 -/ ⟨"NETBSD_RAID", "49F48DAA-B10E-11DC-B99B-0019D1879648", .netBsd⟩,
  /- 240 -/ ⟨"NETBSD_CONCAT", "2DB519C4-B10F-11DC-B99B-0019D1879648", .netBsd⟩,
  /- 242 -/ ⟨"NETBSD_ENCRYPTED", "2DB519EC-B10F-11DC-B99B-0019D1879648", .netBsd⟩,
  /- 244 -/ ⟨"CHROME_KERNEL", "FE3A2A5D-4F32-41A7-B725-ACCC3285A309", .chrome⟩,
  /- 246 -/ ⟨"CHROME_ROOTFS", "3CB8E202-3B7E-47DD-8A3C-7FF2A13CFCEC", .chrome⟩,
  /- 248 -/ ⟨"CHROME_FUTURE", "2E0A753D-9E48-43B0-8337-B15192CB1B5E", .chrome⟩,
  /- 250 -/ ⟨"CHROME_RWFW", "CAB6E88E-ABF3-4102-A07A-D4BB9BE3C1D3", .chrome⟩,
  /- 252 -/ ⟨"COREOS_USR", "5DFBF5F4-2848-4BAC-AA5E-0D9A20B745A6", .coreOs⟩,
  /- 254 -/ ⟨"COREOS_ROOTFS_RESIZE", "3884DD41-8582-4404-B9A8-E9B84F2DF50E", .coreOs⟩,
  /- 256 -/ ⟨"COREOS_OEM", "C95DC21A-DF0E-4340-8D7B-26CBFA9A03E0", .coreOs⟩,
  /- 258 -/ ⟨"COREOS_ROOT_RAID", "BE9067B9-EA49-4F15-B4F6-F36F8C9E1818", .coreOs⟩,
  /- 260 -/ ⟨"HAIKU_BFS", "42465331-3BA3-10F1-802A-4861696B7521", .haiku⟩,
  /- 262 -/ ⟨"MIDNIGHT_BOOT", "85D5E45E-237C-11E1-B4B3-E89A8F7FC3A7", .midnightBsd⟩,
  /- 264 -/ ⟨"MIDNIGHT_DATA", "85D5E45A-237C-11E1-B4B3-E89A8F7FC3A7", .midnightBsd⟩,
  /- 266 -/ ⟨"MIDNIGHT_SWAP", "85D5E45B-237C-11E1-B4B3-E89A8F7FC3A7", .midnightBsd⟩,
  /- 268 -/ ⟨"MIDNIGHT_UFS", "0394EF8B-237E-11E1-B4B3-E89A8F7FC3A7", .midnightBsd⟩,
  /- 270 -/ ⟨"MIDNIGHT_VINIUM", "85D5E45C-237C-11E1-B4B3-E89A8F7FC3A7", .midnightBsd⟩,
  /- 272 -/ ⟨"MIDNIGHT_ZFS", "85D5E45D-237C-11E1-B4B3-E89A8F7FC3A7", .midnightBsd⟩,
  /- 274 -/ ⟨"CEPH_JOURNAL", "45B0969E-9B03-4F30-B4C6-B4B80CEFF106", .ceph⟩,
  /- 276 -/ ⟨"CEPH_CRYPT_JOURNAL", "45B0969E-9B03-4F30-B4C6-5EC00CEFF106", .ceph⟩,
  /- 278 -/ ⟨"CEPH_OSD", "4FBD7E29-9D25-41B8-AFD0-062C0CEFF05D", .ceph⟩,
  /- 280 -/ ⟨"CEPH_CRYPT", "4FBD7E29-9D25-41B8-AFD0-5EC00CEFF05D", .ceph⟩,
  /- 282 -/ ⟨"CEPH_DISK_CREATION", "89C57F98-2FE5-4DC0-89C1-F3AD0CEFF2BE", .ceph⟩,
  /- 284 -/ ⟨"CEPH_CRYPT_CREATION", "89C57F98-2FE5-4DC0-89C1-5EC00CEFF2BE", .ceph⟩,
  /- 286 -/ ⟨"OPENBSD_DATA", "824CC7A0-36A8-11E3-890A-952519AD3F61", .openBsd⟩,
  /- 288 -/ ⟨"QNX_FS", "CEF5A9AD-73BC-4601-89F3-CDEEEEE321A1", .qnx⟩,
  /- 290 -/ ⟨"PLAN9_PART", "C91818F9-8025-47AF-89D2-F030D7000C2C", .plan9⟩,
  /- 292 -/ ⟨"VMWARE_COREDUMP", "9D275380-40AD-11DB-BF97-000C2911D1B8", .vmWare⟩,
  /- 294 -/ ⟨"VMWARE_VMFS", "AA31E02A-400F-11DB-9590-000C2911D1B8", .vmWare⟩,
  /- 296 -/ ⟨"VMWARE_RESERVED", "9198EFFC-31C0-11DB-8F78-000C2911D1B8", .vmWare⟩,
  /- 298 -/ ⟨"ANDROID_BOOTLOADER", "2568845D-2332-4675-BC39-8FA5A4748D15", .android⟩,
  /- 300 -/ ⟨"ANDROID_BOOTLOADER2", "114EAFFE-1552-4022-B26E-9B053604CF84", .android⟩,
  /- 302 -/ ⟨"ANDROID_BOOT", "49A4D17F-93A3-45C1-A0DE-F50B2EBE2599", .android⟩,
  /- 304 -/ ⟨"ANDROID_RECOVERY", "4177C722-9E92-4AAB-8644-43502BFD5506", .android⟩,
  /- 306 -/ ⟨"ANDROID_MISC", "EF32A33B-A409-486C-9141-9FFB711F6266", .android⟩,
  /- 308 -/ ⟨"ANDROID_META", "20AC26BE-20B7-11E3-84C5-6CFDB94711E9", .android⟩,
  /- 310 -/ ⟨"ANDROID_SYSTEM", "38F428E6-D326-425D-9140-6E0EA133647C", .android⟩,
  /- 312 -/ ⟨"ANDROID_CACHE", "A893EF21-E428-470A-9E55-0668FD91A2D9", .android⟩,
  /- 314 -/ ⟨"ANDROID_DATA", "DC76DDA9-5AC1-491C-AF42-A82591580C0D", .android⟩,
  /- 316 -/ ⟨"ANDROID_PERSISTENT", "EBC597D0-2053-4B15-8B64-E0AAC75F4DB1", .android⟩,
  /- 318 -/ ⟨"ANDROID_FACTORY", "8F68CC74-C5E5-48DA-BE91-A0C8C15E9C80", .android⟩,
  /- 320 -/ ⟨"ANDROID_FASTBOOT", "767941D0-2085-11E3-AD3B-6CFDB94711E9", .android⟩,
  /- 322 -/ ⟨"ANDROID_OEM", "AC6D7924-EB71-4DF8-B48D-E267B27148FF", .android⟩,
  /- 324 -/ ⟨"ONIE_BOOT", "7412F7D5-A156-4B13-81DC-867174929325", .onie⟩,
  /- 326 -/ ⟨"ONIE_CONFIG", "D4E6E2CD-4469-46F3-B5CB-1BFF57AFC149", .onie⟩,
  /- 328 -/ ⟨"PPC_BOOT", "9E1A2D38-C612-4316-AA26-8B49521E5A8B", .powerPc⟩,
  /- 330 -/ ⟨"FREEDESK_BOOT", "BC13C2FF-59E6-4262-A352-B275FD6F7172", .freeDesktop⟩,
  /- 332 -/ ⟨"ATARI_DATA", "734E5AFE-F61A-11E6-BC64-92361F002671", .atari⟩]

/-- `str_to_uuid_or_panic` (src/macros.rs:12-20). It is evaluated at compile time, so a failure is a compile error; the
model's default value for that case is never used (`Props/Types.lean` proves every row parses). -/
def strToUuid (s : String) : Uuid := (Uuid.tryParse (utf8 s)).getD Uuid.nil

/-- The constant a row declares (src/macros.rs:21-27). -/
def TypeRow.toType (r : TypeRow) : PType := ⟨strToUuid r.guidStr, r.os⟩

/-- The constants, in order. (src/partition_types.rs:106-333) -/
def typeConsts : List PType := typeTable.map TypeRow.toType

/-- `UNUSED` (src/partition_types.rs:107-108). -/
def PType.unused : PType := ⟨Uuid.nil, .none⟩

/-- `impl From<Uuid> for Type` (src/macros.rs:49-61): the first constant with that GUID, else OS `None`. -/
def PType.ofGuid (g : Uuid) : PType :=
  match typeConsts.find? (fun t => g == t.guid) with
  | some t => t
  | none => ⟨g, .none⟩

/-- `u8::to_ascii_uppercase`. (src/macros.rs:32) -/
def upperByte (c : UInt8) : UInt8 := if 97 ≤ c ∧ c ≤ 122 then c - 32 else c

/-- `str::to_ascii_uppercase` on the UTF-8 bytes. (src/macros.rs:32) -/
def upper (s : Bytes) : Bytes := s.map upperByte

/-- `impl FromStr for Type` (src/macros.rs:29-48) on the UTF-8 bytes of the string: the match arms are tried in order,
each against the GUID string and the constant's name; then any UUID; else an error. -/
def PType.fromStr (s : Bytes) : Res String PType :=
  match typeTable.find? (fun r => upper s == utf8 r.guidStr || upper s == utf8 r.name) with
  | some r => .ok r.toType
  | none => match Uuid.tryParse s with
    | some u => .ok ⟨u, .none⟩
    | none => .err "Invalid Partition Type GUID."

/-- `Type::from_name` (src/partition_types.rs:93-98). -/
def PType.fromName (s : Bytes) : Res String PType := PType.fromStr s

/-- `impl FromStr for OperatingSystem` (src/partition_types.rs:67-91). -/
def OS.fromStr (s : String) : Res String OS :=
  if s = "unused" then .ok .none else
  if s = "android" then .ok .android else
  if s = "atari" then .ok .atari else
  if s = "Ceph" then .ok .ceph else
  if s = "Chrome" then .ok .chrome else
  if s = "DragonFlyBsd" then .ok .dragonFlyBsd else
  if s = "FreeBsd" then .ok .freeBsd else
  if s = "FreeDesktop" then .ok .freeDesktop else
  if s = "Haiku" then .ok .haiku else
  if s = "HP-UX" then .ok .hpUnix else
  if s = "Linux" then .ok .linux else
  if s = "MacOS" then .ok .macOs else
  if s = "MidnightBsd" then .ok .midnightBsd else
  if s = "Onie" then .ok .onie else
  if s = "PowerPc" then .ok .powerPc else
  if s = "Solaris Illumos" then .ok .solaris else
  .err ("Unknown operating system: " ++ s)

/-- `impl Default for Type` (src/partition_types.rs:100-104). -/
def PType.default : PType := PType.unused

end Gpt
