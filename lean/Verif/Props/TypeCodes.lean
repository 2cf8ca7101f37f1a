import Verif.Spec.TypeCodes
import Verif.Lemmas.Entry
import Verif.Props.Guid
import Verif.Props.Open
import Verif.Props.Spelling
/-!
# C107: the codes of the named partition types on disk
-/

namespace Gpt
open Spec

/-- The table of the library and the table of codes have the same rows, by kernel evaluation. -/
theorem codes_row : ∀ e ∈ typeCodes, ∃ r ∈ typeTable, r.toType.guid.toDisk.map UInt8.toNat = codeBytes e.1 ∧ r.os = e.2.2 ∧
    utf8 r.name = utf8 e.2.1 := by
  decide +kernel

theorem row_codes : ∀ r ∈ typeTable, ∃ e ∈ typeCodes, r.toType.guid.toDisk.map UInt8.toNat = codeBytes e.1 ∧ r.os = e.2.2 ∧
    utf8 r.name = utf8 e.2.1 := by
  decide +kernel

/-- **C107**, names: each name is accepted in any letter case and gives the system and the GUID of the table of codes. -/
theorem c107_name (c : Nat) (n : String) (os : OS) (he : (c, n, os) ∈ typeCodes) (s : Bytes) (hs : SameText s (utf8 n)) :
    ∃ t, PType.fromStr s = .ok t ∧ t.os = os ∧ guidBytes t.guid = codeBytes c := by
  obtain ⟨r, hr, h1, h2, h3⟩ := codes_row _ he
  refine ⟨r.toType, (c50_name r hr s ?_).1, h2, by rw [← c01_guid_bytes]; exact h1⟩
  rw [h3]
  exact hs

/-- **C107**, no others: whatever is accepted and does not spell a GUID is a name of the table of codes. -/
theorem c107_only (s : Bytes) (t : PType) (h : PType.fromStr s = .ok t) (hu : Uuid.tryParse s = none) :
    ∃ c n, (c, n, t.os) ∈ typeCodes ∧ SameText s (utf8 n) ∧ guidBytes t.guid = codeBytes c := by
  rcases (c104_type s t).mp h with ⟨r, hr, e, rfl⟩ | ⟨u, e, rfl⟩ | ⟨u, e, rfl⟩
  · obtain ⟨⟨c, n, os⟩, he, h1, h2, h3⟩ := row_codes r hr
    refine ⟨c, n, by rw [show r.toType.os = os from h2]; exact he, by rw [← h3]; exact e, by rw [← c01_guid_bytes]; exact h1⟩
  · rw [(c104_guid s u).mpr (.inr (.inl e))] at hu
    cases hu
  · rw [(c104_guid s u).mpr (by tauto)] at hu
    cases hu

theorem guid_of_code {u v : Uuid} (h : guidBytes u = guidBytes v) : u = v := by
  rw [← c01_guid_bytes, ← c01_guid_bytes] at h
  exact Uuid.toDisk_injective ((List.map_injective_iff.mpr fun a b e => UInt8.toNat_inj.mp e) h)

/-- **C107**, writing: an entry of a named type begins with its code. -/
theorem c107_stored (c : Nat) (n : String) (os : OS) (he : (c, n, os) ∈ typeCodes) (p : Partition)
    (hp : PType.fromStr (utf8 n) = .ok p.partType) : (slice (p.asBytes 128) 0 16).map UInt8.toNat = codeBytes c := by
  obtain ⟨t, h1, -, h3⟩ := c107_name c n os he _ (by rw [sameText_upper])
  rw [hp] at h1
  obtain rfl := Res.ok.inj h1
  rw [Partition.slice_type, c01_guid_bytes, h3]

/-- **C107**, reading: after opening, the type of a partition has the system listed for the code stored in its slot, and is the type
that the name gives; with a code that is not listed it has no system. -/
theorem c107_opened (m : Mode) (cfg : GptConfig) (d d' : Dev) (s : GptDisk) (hok : openFromDevice m cfg d = (.ok s, d')) :
    ∃ h, s.header (ε := Empty) = .ok h ∧ ∀ k p, (k, p) ∈ s.partitions →
      (∀ c n os, (c, n, os) ∈ typeCodes →
        (slice d.data (h.partStart.toNat * cfg.lbSize.usize + 128 * (k.toNat - 1)) 16).map UInt8.toNat = codeBytes c →
        p.partType.os = os ∧ PType.fromStr (utf8 n) = .ok p.partType) ∧
      ((∀ c n os, (c, n, os) ∈ typeCodes →
        (slice d.data (h.partStart.toNat * cfg.lbSize.usize + 128 * (k.toNat - 1)) 16).map UInt8.toNat ≠ codeBytes c) →
        p.partType.os = .none) := by
  obtain ⟨h, h1, -, -, -, -, -, h2, -⟩ := c45_reflects m cfg d d' s hok
  refine ⟨h, h1, fun k p hm => ?_⟩
  obtain ⟨-, -, -, ha, ht⟩ := h2 k p hm
  rw [← ha.type]
  constructor
  · intro c n os he hc
    obtain ⟨t, f1, f2, f3⟩ := c107_name c n os he _ (by rw [sameText_upper])
    obtain ⟨r, hr, g1, g2, g3⟩ := codes_row _ he
    have hg : p.partType.guid = r.toType.guid := guid_of_code (by rw [hc, ← c01_guid_bytes r.toType.guid, g1])
    rw [ht, hg, c49_known r hr]
    refine ⟨g2, ?_⟩
    rw [← g3]
    exact (c50_name r hr _ ((sameText_upper _ _).mpr rfl)).1
  · intro hno
    rw [ht, c49_unknown]
    intro r hr e
    obtain ⟨⟨c, n, os⟩, he, g1, -⟩ := row_codes r hr
    exact hno c n os he (by rw [← e, ← c01_guid_bytes]; exact g1)

/-- The EFI system partition and Linux file systems. -/
example : (0x28732AC11FF8D211BA4B00A0C93EC93B, "EFI", OS.none) ∈ typeCodes ∧
    (0xAF3DC60F838472478E793D69D8477DE4, "LINUX_FS", OS.linux) ∈ typeCodes := by decide +kernel

example : ∃ t, PType.fromStr (utf8 "Linux_Fs") = .ok t ∧ t.os = .linux ∧
    guidBytes t.guid = [0xAF, 0x3D, 0xC6, 0x0F, 0x83, 0x84, 0x72, 0x47, 0x8E, 0x79, 0x3D, 0x69, 0xD8, 0x47, 0x7D, 0xE4] := by
  obtain ⟨t, h1, h2, h3⟩ := c107_name 0xAF3DC60F838472478E793D69D8477DE4 "LINUX_FS" .linux (by decide +kernel) (utf8 "Linux_Fs")
    (by rw [sameText_upper]; decide +kernel)
  exact ⟨t, h1, h2, by rw [h3]; decide +kernel⟩

end Gpt
