import Verif.Model.PartitionTypes
/-!
# Specification: the type codes on disk

The 16 bytes that name each partition type on disk, in the order in which they are stored (the first three groups of the GUID byte by byte
from the back), as a number with the first byte leading; sorted by it. The values were transcribed from the GUID strings, names and systems
of src/partition_types.rs:106-333 by a script (no network: they were not compared with the documentation of each system).
-/

namespace Gpt.Spec

/-- Code, name and operating system. -/
def typeCodes : List (Nat × String × OS) := [
  (0x00000000000000000000000000000000, "UNUSED", .none),
  (0x005346480000AA11AA1100306543ECAC, "MACOS_HFSPLUS", .macOs),
  (0x005346550000AA11AA1100306543ECAC, "MACOS_UFS", .macOs),
  (0x02E2B83C7E3BDD478A3C7FF2A13CFCEC, "CHROME_ROOTFS", .chrome),
  (0x0F889DA1FC053B4DA006743F0F84911E, "LINUX_RAID", .linux),
  (0x10D7DA69E42C3C4EB16C21A1D49ABED3, "LINUX_ROOT_ARM_32", .linux),
  (0x16E3C9E35C0BB84D817DF92DF00215AE, "MICROSOFT_RESERVED", .windows),
  (0x1AC25DC90EDF40438D7B26CBFA9A03E0, "COREOS_OEM", .coreOs),
  (0x1E4C8975EB3AD311B7C17B03A0000000, "HPUNIX_DATA", .hpUnix),
  (0x21EF93A828E40A479E550668FD91A2D9, "ANDROID_CACHE", .android),
  (0x22C77741929EAB4A864443502BFD5506, "ANDROID_RECOVERY", .android),
  (0x24796DAC71EBF84DB48DE267B27148FF, "ANDROID_OEM", .android),
  (0x25848F3BE0203B4F907F1A25A76F98E8, "LINUX_SRV", .linux),
  (0x28732AC11FF8D211BA4B00A0C93EC93B, "EFI", .none),
  (0x28E7A1E2E332D611A6827B03A0000000, "HPUNIX_SERVICE", .hpUnix),
  (0x297EBD4F259DB841AFD0062C0CEFF05D, "CEPH_OSD", .ceph),
  (0x297EBD4F259DB841AFD05EC00CEFF05D, "CEPH_CRYPT", .ceph),
  (0x2AE031AA0F40DB119590000C2911D1B8, "VMWARE_VMFS", .vmWare),
  (0x2B648B6AD21DB21199A6080020736631, "SOLARIS_BACKUP", .solaris),
  (0x31534642A33BF110802A4861696B7521, "HAIKU_BFS", .haiku),
  (0x328DF4490EB1DC11B99B0019D1879648, "NETBSD_SWAP", .netBsd),
  (0x329701F46E06124E8273346C5641494F, "SONY_BOOT", .none),
  (0x382D1A9E12C61643AA268B49521E5A8B, "PPC_BOOT", .powerPc),
  (0x3933A68D0700C060C436083AC8230908, "LINUX_RESERVED", .linux),
  (0x39BA906AD21DB21199A6080020736631, "SOLARIS_HOME", .solaris),
  (0x3B5A946AD21DB21199A6080020736631, "SOLARIS_RESERVED1", .solaris),
  (0x3BA332EF09A46C4891419FFB711F6266, "ANDROID_MISC", .android),
  (0x3D750A2E489EB0438337B15192CB1B5E, "CHROME_FUTURE", .chrome),
  (0x4095474497F2B2419AF7D131D5F0458A, "LINUX_ROOT_X86", .linux),
  (0x41DD843882850444B9A8E9B84F2DF50E, "COREOS_ROOTFS_RESIZE", .coreOs),
  (0x41EE4D02E733D3119D690008C781F39F, "MBR", .none),
  (0x444941520000AA11AA1100306543ECAC, "MACOS_RAID", .macOs),
  (0x444941524F5FAA11AA1100306543ECAC, "MACOS_RAID_OFFLINE", .macOs),
  (0x45B021B9F01DC341AF444C6F280D3FAE, "LINUX_ROOT_ARM_64", .linux),
  (0x45CB826AD21DB21199A6080020736631, "SOLARIS_BOOT", .solaris),
  (0x4861682149646F6E744E656564454649, "BIOS", .none),
  (0x4DCF856AD21DB21199A6080020736631, "SOLARIS_ROOT", .solaris),
  (0x54CE483D161DDC11869601301BB8A9F5, "DRAGONFLY_DATA", .dragonFlyBsd),
  (0x5A8DF4490EB1DC11B99B0019D1879648, "NETBSD_FFS", .netBsd),
  (0x5AE4D5857C23E111B4B3E89A8F7FC3A7, "MIDNIGHT_DATA", .midnightBsd),
  (0x5BE4D5857C23E111B4B3E89A8F7FC3A7, "MIDNIGHT_SWAP", .midnightBsd),
  (0x5CE4D5857C23E111B4B3E89A8F7FC3A7, "MIDNIGHT_VINIUM", .midnightBsd),
  (0x5D2A3AFE324FA741B725ACCC3285A309, "CHROME_KERNEL", .chrome),
  (0x5D84682532237546BC398FA5A4748D15, "ANDROID_BOOTLOADER", .android),
  (0x5DE4D5857C23E111B4B3E89A8F7FC3A7, "MIDNIGHT_ZFS", .midnightBsd),
  (0x5EE4D5857C23E111B4B3E89A8F7FC3A7, "MIDNIGHT_BOOT", .midnightBsd),
  (0x6534312EB9193F4681268A7993773801, "MACOS_SOFTRAID_SCRATCH", .macOs),
  (0x6562614C006CAA11AA1100306543ECAC, "MACOS_LABEL", .macOs),
  (0x6707986AD21DB21199A6080020736631, "SOLARIS_RESERVED3", .solaris),
  (0x6DFD5706ABA4C44384E50933C84B4F4F, "LINUX_SWAP", .linux),
  (0x6F6365526576AA11AA1100306543ECAC, "MACOS_TV_RECOVERY", .macOs),
  (0x6FC4876AD21DB21199A6080020736631, "SOLARIS_SWAP", .solaris),
  (0x726F74536761AA11AA1100306543ECAC, "MACOS_CORE", .macOs),
  (0x746F6F420000AA11AA1100306543ECAC, "MACOS_RECOVERY", .macOs),
  (0x74CC688FE5C5DA48BE91A0C8C15E9C80, "ANDROID_FACTORY", .android),
  (0x79D3D6E607F5C244A23C238F2A3DF928, "LINUX_LVM", .linux),
  (0x7E9C70FAB1659345BFD5E71D61DE9B02, "MACOS_SOFTRAID_VOLUME", .macOs),
  (0x7F23966AD21DB21199A6080020736631, "SOLARIS_RESERVED4", .solaris),
  (0x7FD1A449A393C145A0DEF50B2EBE2599, "ANDROID_BOOT", .android),
  (0x8053279DAD40DB11BF97000C2911D1B8, "VMWARE_COREDUMP", .vmWare),
  (0x828DF4490EB1DC11B99B0019D1879648, "NETBSD_LFS", .netBsd),
  (0x8BEF94037E23E111B4B3E89A8F7FC3A7, "MIDNIGHT_UFS", .midnightBsd),
  (0x8EE8B6CAF3AB0241A07AD4BB9BE3C1D3, "CHROME_RWFW", .chrome),
  (0x8FAF5CE780F6EE4CAFA3B001E56EFC2D, "WINDOWS_STORAGESPACES", .windows),
  (0x90FCAF377DEF964E91C32D7AE055B174, "WINDOWS_PARALLEL", .windows),
  (0x987FC589E52FC04D89C15EC00CEFF2BE, "CEPH_CRYPT_CREATION", .ceph),
  (0x987FC589E52FC04D89C1F3AD0CEFF2BE, "CEPH_DISK_CREATION", .ceph),
  (0x9D6BBD83417FDC11BE0B001560B84F0F, "FREEBSD_BOOT", .freeBsd),
  (0x9E96B045039B304FB4C65EC00CEFF106, "CEPH_CRYPT_JOURNAL", .ceph),
  (0x9E96B045039B304FB4C6B4B80CEFF106, "CEPH_JOURNAL", .ceph),
  (0xA0609BAF3114624FBC683311714A69AD, "WINDOWS_DATA", .windows),
  (0xA0C74C82A836E311890A952519AD3F61, "OPENBSD_DATA", .openBsd),
  (0xA2A0D0EBE5B9334487C068B6B72699C7, "BASIC", .windows),
  (0xA4BB94DED106404DA16ABFD50179D6AC, "WINDOWS_RECOVERY", .windows),
  (0xA583926AD21DB21199A6080020736631, "SOLARIS_ALT", .solaris),
  (0xA9DD76DCC15A1C49AF42A82591580C0D, "ANDROID_DATA", .android),
  (0xAA8DF4490EB1DC11B99B0019D1879648, "NETBSD_RAID", .netBsd),
  (0xAAC808588F7EE04285D2E1E90434CFB3, "WINDOWS_METADATA", .windows),
  (0xADA9F5CEBC73014689F3CDEEEEE321A1, "QNX_FS", .qnx),
  (0xAF3DC60F838472478E793D69D8477DE4, "LINUX_FS", .linux),
  (0xB47C6E51CF6ED6118FF800022D09712B, "FREEBSD_DATA", .freeBsd),
  (0xB57C6E51CF6ED6118FF800022D09712B, "FREEBSD_SWAP", .freeBsd),
  (0xB67C6E51CF6ED6118FF800022D09712B, "FREEBSD_UFS", .freeBsd),
  (0xB87C6E51CF6ED6118FF800022D09712B, "FREEBSD_VINIUM", .freeBsd),
  (0xB96790BE49EA154FB4F6F36F8C9E1818, "COREOS_ROOT_RAID", .coreOs),
  (0xBA7C6E51CF6ED6118FF800022D09712B, "FREEBSD_ZFS", .freeBsd),
  (0xBE26AC20B720E31184C56CFDB94711E9, "ANDROID_META", .android),
  (0xC38C896AD21DB21199A6080020736631, "MACOS_ZFS", .macOs),
  (0xC419B52D0FB1DC11B99B0019D1879648, "NETBSD_CONCAT", .netBsd),
  (0xC72A8D6AD21DB21199A6080020736631, "SOLARIS_RESERVED5", .solaris),
  (0xC9C5FE7F002DB74989413EA10A5586B7, "LINUX_DMCRYPT", .linux),
  (0xCB7C7DCAED63534C861C1742536059CC, "LINUX_LUKS", .linux),
  (0xCDE2E6D46944F346B5CB1BFF57AFC149, "ONIE_CONFIG", .onie),
  (0xD04179768520E311AD3B6CFDB94711E9, "ANDROID_FASTBOOT", .android),
  (0xD097C5EB5320154B8B64E0AAC75F4DB1, "ANDROID_PERSISTENT", .android),
  (0xD130966AD21DB21199A6080020736631, "SOLARIS_RESERVED2", .solaris),
  (0xD5F7127456A1134B81DC867174929325, "ONIE_BOOT", .onie),
  (0xDA30FAB6D2929A4A96F1871EC6486200, "MACOS_SOFTRAID_STATUS", .macOs),
  (0xDEE2BFD3AF3DDF11BA40E3A556D89593, "FLASH", .none),
  (0xE1C73A93B42E134FB8440E14E2AEF915, "LINUX_HOME", .linux),
  (0xE3BC684FCDE8B14D96E7FBCAF984B709, "LINUX_ROOT_X64", .linux),
  (0xE628F43826D35D4291406E0EA133647C, "ANDROID_SYSTEM", .android),
  (0xE7AFBFBF4FA38A449A5B6213EB736C22, "LENOVO_BOOT", .none),
  (0xE9F28E6AD21DB21199A6080020736631, "SOLARIS_VAR", .solaris),
  (0xEC19B52D0FB1DC11B99B0019D1879648, "NETBSD_ENCRYPTED", .netBsd),
  (0xEF57347C0000AA11AA1100306543ECAC, "MACOS_APFS", .macOs),
  (0xF4F5FB5D4828AC4BAA5E0D9A20B745A6, "COREOS_USR", .coreOs),
  (0xF56DBABB6FF4894A8F598765B2727503, "MACOS_SOFTRAID_CACHE", .macOs),
  (0xF91818C92580AF4789D2F030D7000C2C, "PLAN9_PART", .plan9),
  (0xFCEF9891C031DB118F78000C2911D1B8, "VMWARE_RESERVED", .vmWare),
  (0xFE5A4E731AF6E611BC6492361F002671, "ATARI_DATA", .atari),
  (0xFEAF4E1152152240B26E9B053604CF84, "ANDROID_BOOTLOADER2", .android),
  (0xFFC213BCE6596242A352B275FD6F7172, "FREEDESK_BOOT", .freeDesktop)]

/-- The 16 bytes of a code. -/
def codeBytes (c : Nat) : List Nat := (List.range 16).map fun i => c / 256 ^ (15 - i) % 256

end Gpt.Spec
