{
 "claims": [
  {
   "property": "C01",
   "status": "proved",
   "theorems": [
    "Gpt.c01_guid_bytes",
    "Gpt.c01_parse_write",
    "Gpt.c01_write_parse",
    "Gpt.c01_short"
   ],
   "note": ""
  },
  {
   "property": "C02",
   "status": "proved",
   "theorems": [
    "Gpt.c02_entry_round_trip",
    "Gpt.c02_entry_layout"
   ],
   "note": ""
  },
  {
   "property": "C03",
   "status": "proved",
   "theorems": [
    "Gpt.c03_name_truncation",
    "Gpt.c03_name_prefix"
   ],
   "note": ""
  },
  {
   "property": "C04",
   "status": "proved",
   "theorems": [
    "Gpt.c04_write_read",
    "Gpt.c04_primary_backup"
   ],
   "note": ""
  },
  {
   "property": "C05",
   "status": "proved",
   "theorems": [
    "Gpt.c05_read_header",
    "Gpt.c05_accepts",
    "Gpt.c05_primary_backup"
   ],
   "note": ""
  },
  {
   "property": "C06",
   "status": "proved",
   "theorems": [
    "Gpt.c06_accepts",
    "Gpt.c06_write_read",
    "Gpt.c06_read_write",
    "Gpt.c06_set_partition"
   ],
   "note": ""
  },
  {
   "property": "C07",
   "status": "proved",
   "theorems": [
    "Gpt.c07_accepts",
    "Gpt.c07_read_write",
    "Gpt.c07_write_read",
    "Gpt.c07_layout"
   ],
   "note": ""
  },
  {
   "property": "C08",
   "status": "proved",
   "theorems": [
    "Gpt.c08_corruption",
    "Gpt.c08_read_fails"
   ],
   "note": ""
  },
  {
   "property": "C09",
   "status": "proved",
   "theorems": [
    "Gpt.c09_table",
    "Gpt.c09_never_accepted"
   ],
   "note": ""
  },
  {
   "property": "C10",
   "status": "proved",
   "theorems": [
    "Gpt.c10_sectors_len",
    "Gpt.c10_bytes_len",
    "Gpt.c10_bytes_start",
    "Gpt.c10_no_panic"
   ],
   "note": ""
  },
  {
   "property": "C11",
   "status": "partial",
   "theorems": [
    "Gpt.c11_fails",
    "Gpt.c11_partial",
    "Gpt.c11_exact"
   ],
   "note": "False as stated (c11_fails): without overflow checks num_parts*part_size is computed modulo 2^32, so build accepts 2^25 entries of 128 bytes with arrays of no blocks at all. c11_partial: proved with overflow checks, and without them whenever the product fits 32 bits. c11_exact: among successful builds the claim holds if and only if the product fits."
  },
  {
   "property": "C12",
   "status": "partial",
   "theorems": [
    "Gpt.c12_fails",
    "Gpt.c12_partial",
    "Gpt.c12_panic"
   ],
   "note": "False as stated (c12_fails): without overflow checks a layout whose array size wraps modulo 2^32 is accepted although there is no room. c12_partial: the three outcomes exactly, whenever the product fits 32 bits; c12_panic: with overflow checks build panics exactly when it does not. c86_build gives the outcomes without this restriction."
  },
  {
   "property": "C13",
   "status": "proved",
   "theorems": [
    "Gpt.c13_mirror"
   ],
   "note": ""
  },
  {
   "property": "C14",
   "status": "proved",
   "theorems": [
    "Gpt.c14_stable"
   ],
   "note": ""
  },
  {
   "property": "C15",
   "status": "proved",
   "theorems": [
    "Gpt.c15_location",
    "Gpt.c15_refusal",
    "Gpt.c15_content"
   ],
   "note": ""
  },
  {
   "property": "C16",
   "status": "partial",
   "theorems": [
    "Gpt.c16_fails",
    "Gpt.c16_fails_shrunk",
    "Gpt.c16_partial",
    "Gpt.c16_rebuilt_partial"
   ],
   "note": "False as stated (c16_fails, c16_fails_shrunk): build keeps the larger of the previous and the computed last_usable, so growing the count or shrinking the disk puts the backup array over or behind the backup header. c16_partial gives the exact condition, c16_rebuilt_partial that rebuilding with the same or a smaller count is safe."
  },
  {
   "property": "C17",
   "status": "proved",
   "theorems": [
    "Gpt.c17_only_free",
    "Gpt.c17_overlap_fails"
   ],
   "note": ""
  },
  {
   "property": "C18",
   "status": "proved",
   "theorems": [
    "Gpt.c18_all_free"
   ],
   "note": ""
  },
  {
   "property": "C19",
   "status": "partial",
   "theorems": [
    "Gpt.c19_partial",
    "Gpt.c19_fails",
    "Gpt.c19_exact",
    "Gpt.c19_overwrites"
   ],
   "note": "False as stated. In a release build an alignment above 2^63 wraps (c19_fails). When every slot is used, the id after the last slot is taken without looking whether it is in use: c19_overwrites exhibits, in both builds, a disk made by the library on which add_partition overwrites an existing partition. c19_partial: proved in debug builds, and in release builds for alignments up to 2^63, when the id after a full array is not in use and the count is below 2^32-1. c19_exact: on disks of less than 2^63 blocks and at most 2^32-2 slots the two conditions of c19_partial are also necessary."
  },
  {
   "property": "C20",
   "status": "partial",
   "theorems": [
    "Gpt.c20_partial",
    "Gpt.c20_fails",
    "Gpt.c20_exact"
   ],
   "note": "False as stated (c20_fails): in a release build an alignment above 2^63 wraps and the start is not free. c20_partial: proved in debug builds, and in release builds for alignments up to 2^63. c20_exact: on disks of less than 2^63 blocks it holds if and only if overflow checks are on or the alignment is at most 2^63."
  },
  {
   "property": "C21",
   "status": "proved",
   "theorems": [
    "Gpt.c21_complete",
    "Gpt.c21_sound"
   ],
   "note": ""
  },
  {
   "property": "C22",
   "status": "partial",
   "theorems": [
    "Gpt.c22_fails",
    "Gpt.c22_fails_range",
    "Gpt.c22_partial",
    "Gpt.c22_used_id",
    "Gpt.c22_accepts"
   ],
   "note": "False as stated (c22_fails, c22_fails_range): only the start and the length of the extent are compared with a free section, not its end, so an extent may run into the next partition or past last_usable. Proved (c22_partial): the start is not before a free section at least as long as the extent; c22_accepts: every free extent is accepted; c22_used_id: a used id is refused."
  },
  {
   "property": "C23",
   "status": "partial",
   "theorems": [
    "Gpt.c23_exact_at",
    "Gpt.c23_exact",
    "Gpt.c23_partial",
    "Gpt.c23_fails",
    "Gpt.c23_fails_growth"
   ],
   "note": "False as stated: add_partition_at checks the length but not the end of the extent, so a partition can end behind last_usable (c23_fails); and a growing table moves first_usable behind existing partitions (c23_fails_growth). c23_partial: proved for every history from create in which explicit extents are free, given tables are tidy, alignments do not wrap, the count does not grow, and no call but write panics or fails while rebuilding headers. c23_exact_at, c23_exact: exactly when a successful call keeps the claim (the explicit extent was free; no used partition starts inside the longer array)."
  },
  {
   "property": "C24",
   "status": "proved",
   "theorems": [
    "Gpt.c24_next_id",
    "Gpt.c24_not_zero"
   ],
   "note": ""
  },
  {
   "property": "C25",
   "status": "proved",
   "theorems": [
    "Gpt.c25_remove",
    "Gpt.c25_remove_order",
    "Gpt.c25_remove_by_guid"
   ],
   "note": ""
  },
  {
   "property": "C26",
   "status": "proved",
   "theorems": [
    "Gpt.c26_remove_frees"
   ],
   "note": ""
  },
  {
   "property": "C27",
   "status": "proved",
   "theorems": [
    "Gpt.c27_alignment"
   ],
   "note": ""
  },
  {
   "property": "C28",
   "status": "partial",
   "theorems": [
    "Gpt.c28_exact",
    "Gpt.c28_fails",
    "Gpt.c28_partial",
    "Gpt.c28_refused",
    "Gpt.c28_update_refused"
   ],
   "note": "The full claim is false (c28_fails): update_partitions shrinks the partition count without permission. c28_partial proves it for tables that do not shrink below the count, and for every refused call. c28_exact: without permission a successful call changes the number of slots if and only if it is an update_partitions with fewer entries than slots on a disk with more than 128 slots."
  },
  {
   "property": "C29",
   "status": "partial",
   "theorems": [
    "Gpt.c29_exact",
    "Gpt.c29_fails",
    "Gpt.c29_fails_update",
    "Gpt.c29_partial",
    "Gpt.c29_add_partial"
   ],
   "note": "The full claim is false (c29_fails, c29_fails_update): a failed init_headers leaves the new entry in memory. c29_partial/c29_add_partial prove it for every other error. c29_exact: a failed call (new GUID, or another table) leaves the table alone if and only if its error is not a header error."
  },
  {
   "property": "C30",
   "status": "proved",
   "theorems": [
    "Gpt.c30_write_open",
    "Gpt.c30_write_returns",
    "Gpt.c30_backup_valid"
   ],
   "note": ""
  },
  {
   "property": "C31",
   "status": "partial",
   "theorems": [
    "Gpt.c31_exact",
    "Gpt.c31_partial",
    "Gpt.c31_fails"
   ],
   "note": "False as stated (c31_fails): on a device longer than the header says (enlarged disk) the backup is written to the header's backup LBA but looked for in the last block. c31_partial: proved for every device whose last block is the backup LBA, every table and every overwriting of everything outside the backup copy. c31_exact: the claim holds if and only if the backup LBA is the last block."
  },
  {
   "property": "C32",
   "status": "proved",
   "theorems": [
    "Gpt.c32_confined",
    "Gpt.c32_user_blocks"
   ],
   "note": ""
  },
  {
   "property": "C33",
   "status": "proved",
   "theorems": [
    "Gpt.c33_readonly_backup",
    "Gpt.c33_memory"
   ],
   "note": ""
  },
  {
   "property": "C34",
   "status": "proved",
   "theorems": [
    "Gpt.c34_refused",
    "Gpt.c34_only",
    "Gpt.c34_history",
    "Gpt.c34_paths"
   ],
   "note": ""
  },
  {
   "property": "C35",
   "status": "proved",
   "theorems": [
    "Gpt.c35_call",
    "Gpt.c35_open_create",
    "Gpt.c35_history"
   ],
   "note": ""
  },
  {
   "property": "C36",
   "status": "proved",
   "theorems": [
    "Gpt.c36_bytes",
    "Gpt.c36_idempotent",
    "Gpt.c36_faults"
   ],
   "note": ""
  },
  {
   "property": "C37",
   "status": "partial",
   "theorems": [
    "Gpt.c37_exact",
    "Gpt.c37_partial",
    "Gpt.c37_fails"
   ],
   "note": "False as stated (c37_fails): a name containing NUL is stored in full but read back cut, so the second write differs. c37_partial: proved for every table whose names are clean (no NUL before the end, not cut inside a surrogate pair). c37_exact: the bytes stay if and only if every name is stable (no character but NUL after a NUL and no pair cut, within the 36 units)."
  },
  {
   "property": "C38",
   "status": "proved",
   "theorems": [
    "Gpt.c38_erased"
   ],
   "note": ""
  },
  {
   "property": "C39",
   "status": "proved",
   "theorems": [
    "Gpt.c39_path",
    "Gpt.c39_flushed"
   ],
   "note": ""
  },
  {
   "property": "C40",
   "status": "proved",
   "theorems": [
    "Gpt.c40_memory",
    "Gpt.c40_read_back"
   ],
   "note": ""
  },
  {
   "property": "C41",
   "status": "proved",
   "theorems": [
    "Gpt.c41_order"
   ],
   "note": ""
  },
  {
   "property": "C42",
   "status": "partial",
   "theorems": [
    "Gpt.c42_window",
    "Gpt.c42_old_partial",
    "Gpt.c42_new_partial",
    "Gpt.c42_fails"
   ],
   "note": "False as stated (c42_fails): slot 0 of the primary array is overwritten first while the old primary header stays, and opening does not fall back to the backup table when the table checksum is wrong; c42_window proves that this whole window is unopenable. Proved: old table while the old primary array and header are untouched (c42_old_partial); new table once the primary header is complete, or torn into an invalid header with the backup at the last block (c42_new_partial). For updates of disks with a backup in the last block c68_exact says exactly which cuts can be opened."
  },
  {
   "property": "C43",
   "status": "partial",
   "theorems": [
    "Gpt.c43_fails",
    "Gpt.c43_partial",
    "Gpt.c43_exact"
   ],
   "note": "False as stated (c43_fails): update_guid changes only the in-memory field; write stores the GUID of the header. c43_partial: proved when update_partitions succeeds in between (it rebuilds the headers). c43_exact: the GUID comes back if and only if it is the one of the header in use."
  },
  {
   "property": "C44",
   "status": "proved",
   "theorems": [
    "Gpt.c44_refused",
    "Gpt.c44_selected"
   ],
   "note": ""
  },
  {
   "property": "C45",
   "status": "proved",
   "theorems": [
    "Gpt.c45_reflects"
   ],
   "note": ""
  },
  {
   "property": "C46",
   "status": "partial",
   "theorems": [
    "Gpt.c46_exact",
    "Gpt.c46_fails",
    "Gpt.c46_partial"
   ],
   "note": "The full claim is false (c46_fails): a valid header whose entry size is not 128 panics. c46_partial proves it for all images whose valid headers have 128-byte entries (debug mode also needs fewer than 2^31 entries or a device under 256 GiB). c46_exact: on a working device, exactly which contents panic in each build."
  },
  {
   "property": "C47",
   "status": "partial",
   "theorems": [
    "Gpt.c47_release",
    "Gpt.c47_partial",
    "Gpt.c47_fails",
    "Gpt.c47_fails_align"
   ],
   "note": "False as stated in debug builds: an image with first_usable = 0 makes find_free_sectors panic on first_usable - 1 (c47_fails), and an alignment near 2^64 makes add_partition panic (c47_fails_align). Proved for release builds on every image (c47_release) and for debug builds on every image whose numbers are modest (c47_partial). Exactly when each call panics is part of c87_update, c91_write, c92_free, c93_at_exact and c93_exact."
  },
  {
   "property": "C48",
   "status": "proved",
   "theorems": [
    "Gpt.c48_with_disk_device",
    "Gpt.c48_update_disk_device",
    "Gpt.c48_clone",
    "Gpt.c48_errors",
    "Gpt.c48_header"
   ],
   "note": ""
  },
  {
   "property": "C49",
   "status": "proved",
   "theorems": [
    "Gpt.c49_guid_kept",
    "Gpt.c49_known",
    "Gpt.c49_unknown",
    "Gpt.c49_distinct",
    "Gpt.c49_unused"
   ],
   "note": ""
  },
  {
   "property": "C50",
   "status": "partial",
   "theorems": [
    "Gpt.c50_name",
    "Gpt.c50_guid",
    "Gpt.c50_guid_os_fails",
    "Gpt.c50_hyphenated_partial",
    "Gpt.c50_other_forms",
    "Gpt.c50_rejects",
    "Gpt.c50_total"
   ],
   "note": "The claim is false as stated for the 32-digit form: from_str on a table GUID written without hyphens returns the type with OS None (c50_guid_os_fails). Proved: every name in any case, the hyphenated form, the GUID kept for every accepted form, and rejection of everything else."
  },
  {
   "property": "C51",
   "status": "proved",
   "theorems": [
    "Gpt.c51_try_from",
    "Gpt.c51_inverse",
    "Gpt.c51_agree",
    "Gpt.c51_no_panic"
   ],
   "note": ""
  },
  {
   "property": "C52",
   "status": "proved",
   "theorems": [
    "Gpt.c52_confined_bootcode",
    "Gpt.c52_confined_disk_signature",
    "Gpt.c52_write_bootcode",
    "Gpt.c52_write_disk_signature",
    "Gpt.c52_confined_overwrite",
    "Gpt.c52_overwrite",
    "Gpt.c52_confined_conservative",
    "Gpt.c52_conservative"
   ],
   "note": ""
  },
  {
   "property": "C53",
   "status": "proved",
   "theorems": [
    "Gpt.c53_content",
    "Gpt.c53_from_disk",
    "Gpt.c53_from_disk_exact",
    "Gpt.c53_read_helpers",
    "Gpt.c53_read_back"
   ],
   "note": ""
  },
  {
   "property": "C54",
   "status": "proved",
   "theorems": [
    "Gpt.c54_utf16_round_trip",
    "Gpt.c54_encode_char"
   ],
   "note": ""
  },
  {
   "property": "C55",
   "status": "partial",
   "theorems": [
    "Gpt.c55_exact",
    "Gpt.c55_partial",
    "Gpt.c55_fails",
    "Gpt.c55_claim_fails"
   ],
   "note": "False as stated (c55_fails, c55_claim_fails): init_headers sizes the table by the number of entries, not the highest id, so ids 2..129 are accepted for 128 slots, the next add_partition takes id 1, and write fails with OverflowPartitionCount. c55_partial: proved for every history from create or open in which calls name no id beyond the table, do not fail while rebuilding the headers, and tables have fewer than 2^32-1 entries. c55_exact: exactly which successful calls lead to more used partitions than slots."
  },
  {
   "property": "C56",
   "status": "partial",
   "theorems": [
    "Gpt.c56_exact",
    "Gpt.c56_path_partial",
    "Gpt.c56_fails",
    "Gpt.c56_entry_partial",
    "Gpt.c56_zero_partial",
    "Gpt.c56_entry_torn",
    "Gpt.c56_zero_torn",
    "Gpt.c56_succeeds",
    "Gpt.c56_overflow",
    "Gpt.c56_capacity",
    "Gpt.c56_sum_debug",
    "Gpt.c56_read_back"
   ],
   "note": "False as stated (c56_fails): the products are checked, but their sum start+offset is a plain addition, so in a release build it wraps and an entry is written near the beginning of the device. Proved: products that overflow are errors that write nothing (c56_overflow), a sum that overflows panics in debug builds (c56_sum_debug), and whenever the sum fits the bytes land exactly in the named slot, in every outcome (c56_entry_partial, c56_zero_partial, c56_entry_torn, c56_zero_torn). c56_exact: a success stores the entry at its offset modulo 2^64, which is its slot if and only if the offset is below 2^64."
  },
  {
   "property": "C57",
   "status": "proved",
   "theorems": [
    "Gpt.c57_path",
    "Gpt.c57_write_header",
    "Gpt.c57_confined",
    "Gpt.c57_succeeds"
   ],
   "note": ""
  },
  {
   "property": "C58",
   "status": "partial",
   "theorems": [
    "Gpt.c58_exact",
    "Gpt.c58_debug",
    "Gpt.c58_partial",
    "Gpt.c58_fails"
   ],
   "note": "False in release builds only (c58_fails): with 2^32-1 used entries num_parts+1 wraps and add_partition makes an entry with id 0. Proved for every reachable state in debug builds (c58_debug), and in release builds while tables have fewer than 2^32-1 entries (c58_partial). c58_exact: add_partition returns id 0 if and only if the build is a release build and all of 2^32-1 slots are used."
  },
  {
   "property": "C59",
   "status": "partial",
   "theorems": [
    "Gpt.c59_exact",
    "Gpt.c59_lax_partial",
    "Gpt.c59_partial",
    "Gpt.c59_fails"
   ],
   "note": "False as stated (c59_fails): an add whose header rebuild fails returns an error but leaves the entry in the table. c59_partial: proved for histories in which no call but write panics or returns a header error; c59_lax_partial: for every history, if such calls may or may not have been carried out. c59_exact: exactly which calls depart from the map."
  },
  {
   "property": "C60",
   "status": "partial",
   "theorems": [
    "Gpt.c60_fails",
    "Gpt.c60_partial",
    "Gpt.c60_exact",
    "Gpt.c60_somewhere_partial"
   ],
   "note": "False as stated (c60_fails): the result of seek is ignored, so with a failing seek the header at the current position is returned. Proved when the seek does not fail, and unconditionally that the header is stored validly at the requested offset or the current position. c60_exact: the header is the one at the requested offset if the seek worked and the one at the position of the stream if it failed."
  },
  {
   "property": "C61",
   "status": "proved",
   "theorems": [
    "Gpt.c61_when",
    "Gpt.c61_created",
    "Gpt.c61_write_open"
   ],
   "note": ""
  },
  {
   "property": "C62",
   "status": "proved",
   "theorems": [
    "Gpt.c62_write_succeeds",
    "Gpt.c62_conditions"
   ],
   "note": ""
  },
  {
   "property": "C63",
   "status": "partial",
   "theorems": [
    "Gpt.c63_fails",
    "Gpt.c63_partial",
    "Gpt.c63_exact"
   ],
   "note": "False as stated (c63_fails): in a release build an alignment above 2^63 makes alignment offset plus size wrap, and the partition lands outside the free section. c63_partial: proved in debug builds, and in release builds for alignments up to 2^63. c63_exact: on disks of less than 2^63 blocks the new blocks were free if and only if overflow checks are on or the alignment is at most 2^63."
  },
  {
   "property": "C64",
   "status": "partial",
   "theorems": [
    "Gpt.c64_exact",
    "Gpt.c64_fails",
    "Gpt.c64_partial"
   ],
   "note": "False as stated (c64_fails): write stores the used partitions without gaps, so ids after a gap change. c64_partial: ids survive when the used ids are 1..n; c30_write_open gives the exact renumbering. c64_exact: the ids survive if and only if those of the n used partitions are at most n."
  },
  {
   "property": "C65",
   "status": "proved",
   "theorems": [
    "Gpt.c65_only",
    "Gpt.c65_all"
   ],
   "note": ""
  },
  {
   "property": "C66",
   "status": "proved",
   "theorems": [
    "Gpt.c66_release",
    "Gpt.c66_debug",
    "Gpt.c66_debug_fails"
   ],
   "note": "c66_release is the claim. c66_debug: the same for debug builds when the numbers are modest; c66_debug_fails: not for all arguments."
  },
  {
   "property": "C67",
   "status": "proved",
   "theorems": [
    "Gpt.c67_header",
    "Gpt.c67_no_panic",
    "Gpt.c67_table",
    "Gpt.c67_data",
    "Gpt.c67_write_open",
    "Gpt.c67_recover",
    "Gpt.c67_crash"
   ],
   "note": ""
  },
  {
   "property": "C68",
   "status": "partial",
   "theorems": [
    "Gpt.c68_partial",
    "Gpt.c68_outcomes",
    "Gpt.c68_exact",
    "Gpt.c68_fails"
   ],
   "note": "False as stated: c68_fails gives two tables whose arrays have the same CRC-32 after the first entry, and the device opens with a mixture. c68_partial: old, new, or such a collision; c68_outcomes: opening succeeds or reports the checksum. c68_exact: a lenient open fails if and only if the primary header block is still the old one and the primary array has another checksum than the old one."
  },
  {
   "property": "C69",
   "status": "proved",
   "theorems": [
    "Gpt.c69_header",
    "Gpt.c69_steps",
    "Gpt.c69_paths",
    "Gpt.c69_content"
   ],
   "note": ""
  },
  {
   "property": "C70",
   "status": "proved",
   "theorems": [
    "Gpt.c70_crc32",
    "Gpt.c70_check_value",
    "Gpt.c70_residue"
   ],
   "note": ""
  },
  {
   "property": "C71",
   "status": "proved",
   "theorems": [
    "Gpt.c71_layout",
    "Gpt.c71_records"
   ],
   "note": ""
  },
  {
   "property": "C72",
   "status": "proved",
   "theorems": [
    "Gpt.c72_block0",
    "Gpt.c72_mbr_writers",
    "Gpt.c72_written",
    "Gpt.c72_write_inplace"
   ],
   "note": ""
  },
  {
   "property": "C73",
   "status": "proved",
   "theorems": [
    "Gpt.c73_read_back",
    "Gpt.c73_form"
   ],
   "note": ""
  },
  {
   "property": "C74",
   "status": "proved",
   "theorems": [
    "Gpt.c74_partition",
    "Gpt.c74_header",
    "Gpt.c74_block_size"
   ],
   "note": ""
  },
  {
   "property": "C75",
   "status": "proved",
   "theorems": [
    "Gpt.c75_header",
    "Gpt.c75_disk",
    "Gpt.c75_mbr"
   ],
   "note": ""
  },
  {
   "property": "C76",
   "status": "proved",
   "theorems": [
    "Gpt.c76_add_partition_at",
    "Gpt.c76_determined",
    "Gpt.c76_exact"
   ],
   "note": ""
  },
  {
   "property": "C77",
   "status": "proved",
   "theorems": [
    "Gpt.c77_add_partition",
    "Gpt.c77_determined",
    "Gpt.c77_exact"
   ],
   "note": ""
  },
  {
   "property": "C78",
   "status": "proved",
   "theorems": [
    "Gpt.c78_errors",
    "Gpt.c78_open",
    "Gpt.c78_create"
   ],
   "note": ""
  },
  {
   "property": "C79",
   "status": "proved",
   "theorems": [
    "Gpt.c79_accepts",
    "Gpt.c79_injective",
    "Gpt.c79_refused",
    "Gpt.c79_unnamed"
   ],
   "note": ""
  },
  {
   "property": "C80",
   "status": "proved",
   "theorems": [
    "Gpt.c80_call",
    "Gpt.c80_open_create",
    "Gpt.c80_functions",
    "Gpt.c80_history"
   ],
   "note": ""
  },
  {
   "property": "C81",
   "status": "proved",
   "theorems": [
    "Gpt.c81_range",
    "Gpt.c81_disjoint",
    "Gpt.c81_untouched"
   ],
   "note": ""
  },
  {
   "property": "C82",
   "status": "proved",
   "theorems": [
    "Gpt.c82_add"
   ],
   "note": ""
  },
  {
   "property": "C83",
   "status": "proved",
   "theorems": [
    "Gpt.c83_added"
   ],
   "note": ""
  },
  {
   "property": "C84",
   "status": "proved",
   "theorems": [
    "Gpt.c84_any",
    "Gpt.c84_outcome",
    "Gpt.c84_succeeds",
    "Gpt.c84_bytes"
   ],
   "note": ""
  },
  {
   "property": "C85",
   "status": "proved",
   "theorems": [
    "Gpt.c85_header",
    "Gpt.c85_entry",
    "Gpt.c85_stale"
   ],
   "note": ""
  },
  {
   "property": "C86",
   "status": "proved",
   "theorems": [
    "Gpt.c86_build",
    "Gpt.c86_settings",
    "Gpt.c86_new",
    "Gpt.c86_from_header"
   ],
   "note": ""
  },
  {
   "property": "C87",
   "status": "proved",
   "theorems": [
    "Gpt.c87_update",
    "Gpt.c87_ok"
   ],
   "note": ""
  },
  {
   "property": "C88",
   "status": "proved",
   "theorems": [
    "Gpt.c88_image",
    "Gpt.c88_any",
    "Gpt.c88_succeeds"
   ],
   "note": ""
  },
  {
   "property": "C89",
   "status": "partial",
   "theorems": [
    "Gpt.c89_primary",
    "Gpt.c89_reopens",
    "Gpt.c89_backup",
    "Gpt.c89_outside",
    "Gpt.c89_partial",
    "Gpt.c89_exact",
    "Gpt.c89_fails"
   ],
   "note": "False as stated (c89_fails): on a disk with 128 partitions and change_partition_count, add_partition of one block succeeds, and on writing the 129th entry of the primary array goes to block 34, into the data of the first partition. c89_partial: a used partition that starts behind the longer array keeps its data. c89_primary, c89_reopens, c89_outside, c89_backup give the exact result: the new table is stored and opens, nothing else changes, and the backup header overwrites the end of its own array. c89_exact: a used partition keeps its data just when its bytes in the longer array were those of the new table already."
  },
  {
   "property": "C90",
   "status": "proved",
   "theorems": [
    "Gpt.c90_call",
    "Gpt.c90_history"
   ],
   "note": ""
  },
  {
   "property": "C91",
   "status": "proved",
   "theorems": [
    "Gpt.c91_write",
    "Gpt.c91_total"
   ],
   "note": ""
  },
  {
   "property": "C92",
   "status": "proved",
   "theorems": [
    "Gpt.c92_free",
    "Gpt.c92_headerless"
   ],
   "note": ""
  },
  {
   "property": "C93",
   "status": "proved",
   "theorems": [
    "Gpt.c93_add_partition_at",
    "Gpt.c93_add_partition",
    "Gpt.c93_at_determined",
    "Gpt.c93_determined",
    "Gpt.c93_at_exact",
    "Gpt.c93_exact",
    "Gpt.c93_headerless"
   ],
   "note": ""
  },
  {
   "property": "C94",
   "status": "proved",
   "theorems": [
    "Gpt.c94_history",
    "Gpt.c94_clone",
    "Gpt.c94_with_disk_device",
    "Gpt.c94_queries"
   ],
   "note": ""
  },
  {
   "property": "C95",
   "status": "proved",
   "theorems": [
    "Gpt.c95_configured",
    "Gpt.c95_kept"
   ],
   "note": ""
  },
  {
   "property": "C96",
   "status": "proved",
   "theorems": [
    "Gpt.c96_mbr",
    "Gpt.c96_tables",
    "Gpt.c96_header_writes",
    "Gpt.c96_header_reads",
    "Gpt.c96_open",
    "Gpt.c96_create",
    "Gpt.c96_history",
    "Gpt.c96_failed_seek",
    "Gpt.c96_failed_seek_matters"
   ],
   "note": ""
  },
  {
   "property": "C97",
   "status": "proved",
   "theorems": [
    "Gpt.c97_from_backup",
    "Gpt.c97_primary_restored",
    "Gpt.c97_from_primary",
    "Gpt.c97_backup_restored",
    "Gpt.c97_array_refused"
   ],
   "note": ""
  },
  {
   "property": "C98",
   "status": "proved",
   "theorems": [
    "Gpt.c98_same",
    "Gpt.c98_succeeds",
    "Gpt.c98_meanwhile",
    "Gpt.c98_revised",
    "Gpt.c98_revised_succeeds"
   ],
   "note": ""
  },
  {
   "property": "C99",
   "status": "partial",
   "theorems": [
    "Gpt.c99_partial",
    "Gpt.c99_release",
    "Gpt.c99_history",
    "Gpt.c99_exception",
    "Gpt.c99_fails"
   ],
   "note": "False as stated (c99_fails): in debug builds add_partition_at with an id past the slots, no permission to change their number and first + length of 2^64 panics while computing the argument of debug!, where a build that skips it returns PartitionCountWouldChange. c99_partial: this is the only difference (the build without panics, the other refuses, the disk unchanged in both). c99_release: none in release builds. c99_history: histories."
  },
  {
   "property": "C100",
   "status": "proved",
   "theorems": [
    "Gpt.Stream.c100_read",
    "Gpt.Stream.c100_write",
    "Gpt.Stream.c100_empty",
    "Gpt.Stream.c100_whole"
   ],
   "note": ""
  },
  {
   "property": "C101",
   "status": "proved",
   "theorems": [
    "Gpt.c101_packed",
    "Gpt.c101_determined",
    "Gpt.c101_all",
    "Gpt.c101_program"
   ],
   "note": ""
  },
  {
   "property": "C102",
   "status": "proved",
   "theorems": [
    "Gpt.c102_update",
    "Gpt.c102_smaller",
    "Gpt.c102_larger",
    "Gpt.c102_copy"
   ],
   "note": ""
  },
  {
   "property": "C103",
   "status": "proved",
   "theorems": [
    "Gpt.c103_call",
    "Gpt.c103_history",
    "Gpt.c103_open",
    "Gpt.c103_writers",
    "Gpt.c103_open_working",
    "Gpt.c103_session",
    "Gpt.c103_accepts",
    "Gpt.c103_blind"
   ],
   "note": ""
  },
  {
   "property": "C104",
   "status": "proved",
   "theorems": [
    "Gpt.c104_guid",
    "Gpt.c104_type",
    "Gpt.c104_unique",
    "Gpt.c104_display"
   ],
   "note": ""
  },
  {
   "property": "C105",
   "status": "proved",
   "theorems": [
    "Gpt.c105_outcomes",
    "Gpt.c105_whole",
    "Gpt.c105_order",
    "Gpt.c105_untouched"
   ],
   "note": ""
  },
  {
   "property": "C106",
   "status": "proved",
   "theorems": [
    "Gpt.c106_flags",
    "Gpt.c106_known",
    "Gpt.c106_sets",
    "Gpt.c106_read",
    "Gpt.c106_written",
    "Gpt.c106_kept"
   ],
   "note": ""
  },
  {
   "property": "C107",
   "status": "proved",
   "theorems": [
    "Gpt.c107_name",
    "Gpt.c107_only",
    "Gpt.c107_stored",
    "Gpt.c107_opened"
   ],
   "note": ""
  },
  {
   "property": "C108",
   "status": "proved",
   "theorems": [
    "Gpt.c108_calls",
    "Gpt.c108_tables",
    "Gpt.c108_headers",
    "Gpt.c108_mbr",
    "Gpt.c108_create",
    "Gpt.c108_ok",
    "Gpt.c108_not_header"
   ],
   "note": ""
  },
  {
   "property": "C109",
   "status": "proved",
   "theorems": [
    "Gpt.c109_open",
    "Gpt.c109_strict",
    "Gpt.c109_primary",
    "Gpt.c109_backup",
    "Gpt.c109_seek"
   ],
   "note": ""
  },
  {
   "property": "C110",
   "status": "proved",
   "theorems": [
    "Gpt.c110_open",
    "Gpt.c110_create",
    "Gpt.c110_calls",
    "Gpt.c110_functions",
    "Gpt.c110_mbr",
    "Gpt.c110_open_exact"
   ],
   "note": ""
  },
  {
   "property": "C111",
   "status": "proved",
   "theorems": [
    "Gpt.c111_add",
    "Gpt.c111_order",
    "Gpt.c111_remove",
    "Gpt.c111_tables",
    "Gpt.c111_make"
   ],
   "note": ""
  },
  {
   "property": "C112",
   "status": "proved",
   "theorems": [
    "Gpt.c112_difference",
    "Gpt.c112_unnoticed",
    "Gpt.c112_exact",
    "Gpt.c112_front",
    "Gpt.c112_read"
   ],
   "note": ""
  },
  {
   "property": "C113",
   "status": "proved",
   "theorems": [
    "Gpt.c113_header",
    "Gpt.c113_five",
    "Gpt.c113_read",
    "Gpt.c113_table",
    "Gpt.c113_three"
   ],
   "note": ""
  },
  {
   "property": "C114",
   "status": "proved",
   "theorems": [
    "Gpt.c114_outcome",
    "Gpt.c114_path",
    "Gpt.c114_written"
   ],
   "note": ""
  },
  {
   "property": "C115",
   "status": "proved",
   "theorems": [
    "Gpt.c115_unaware",
    "Gpt.c115_calls",
    "Gpt.c115_last",
    "Gpt.c115_none",
    "Gpt.c115_data"
   ],
   "note": ""
  },
  {
   "property": "C116",
   "status": "proved",
   "theorems": [
    "Gpt.c116_written",
    "Gpt.c116_opens",
    "Gpt.c116_calls",
    "Gpt.c116_table",
    "Gpt.c116_data",
    "Gpt.c116_write_open",
    "Gpt.c116_own"
   ],
   "note": ""
  },
  {
   "property": "C117",
   "status": "proved",
   "theorems": [
    "Gpt.c117_long",
    "Gpt.c117_short",
    "Gpt.c117_read",
    "Gpt.c117_open",
    "Gpt.c117_blind",
    "Gpt.c117_few"
   ],
   "note": ""
  },
  {
   "property": "C118",
   "status": "proved",
   "theorems": [
    "Gpt.c118_opens",
    "Gpt.c118_session",
    "Gpt.c118_repaired",
    "Gpt.c118_damage"
   ],
   "note": ""
  },
  {
   "property": "C119",
   "status": "proved",
   "theorems": [
    "Gpt.c119_still",
    "Gpt.c119_one",
    "Gpt.c119_mixed"
   ],
   "note": ""
  },
  {
   "property": "C120",
   "status": "proved",
   "theorems": [
    "Gpt.c120_call",
    "Gpt.c120_open",
    "Gpt.c120_exact",
    "Gpt.c120_history",
    "Gpt.c120_header"
   ],
   "note": ""
  },
  {
   "property": "C121",
   "status": "proved",
   "theorems": [
    "Gpt.c121_call",
    "Gpt.c121_history",
    "Gpt.c121_reopen",
    "Gpt.c121_remove",
    "Gpt.c121_unchecked"
   ],
   "note": ""
  },
  {
   "property": "C122",
   "status": "proved",
   "theorems": [
    "Gpt.c122_512",
    "Gpt.c122_4096",
    "Gpt.c122_stale"
   ],
   "note": ""
  },
  {
   "property": "C123",
   "status": "proved",
   "theorems": [
    "Gpt.c123_sum",
    "Gpt.c123_fits",
    "Gpt.c123_add",
    "Gpt.c123_remove",
    "Gpt.c123_session",
    "Gpt.c123_room"
   ],
   "note": ""
  },
  {
   "property": "C124",
   "status": "proved",
   "theorems": [
    "Gpt.c124_first",
    "Gpt.c124_later"
   ],
   "note": ""
  },
  {
   "property": "C125",
   "status": "proved",
   "theorems": [
    "Gpt.c125_update",
    "Gpt.c125_calls",
    "Gpt.c125_refused",
    "Gpt.c125_small",
    "Gpt.c125_write",
    "Gpt.c125_lost",
    "Gpt.c125_stuck"
   ],
   "note": ""
  },
  {
   "property": "C126",
   "status": "proved",
   "theorems": [
    "Gpt.c126_calls",
    "Gpt.c126_table",
    "Gpt.c126_data",
    "Gpt.c126_write_open",
    "Gpt.c126_update"
   ],
   "note": ""
  },
  {
   "property": "C127",
   "status": "proved",
   "theorems": [
    "Gpt.c127_opens",
    "Gpt.c127_update",
    "Gpt.c127_whole",
    "Gpt.c127_plain"
   ],
   "note": ""
  },
  {
   "property": "C128",
   "status": "proved",
   "theorems": [
    "Gpt.c128_opens",
    "Gpt.c128_shrunk",
    "Gpt.c128_update",
    "Gpt.c128_stuck",
    "Gpt.c128_overlap",
    "Gpt.c128_fits",
    "Gpt.c128_plain"
   ],
   "note": ""
  },
  {
   "property": "C129",
   "status": "proved",
   "theorems": [
    "Gpt.c129_cut",
    "Gpt.c129_written"
   ],
   "note": ""
  },
  {
   "property": "C130",
   "status": "proved",
   "theorems": [
    "Gpt.c130_cut",
    "Gpt.c130_data"
   ],
   "note": ""
  },
  {
   "property": "C131",
   "status": "proved",
   "theorems": [
    "Gpt.c131_grown",
    "Gpt.c131_free",
    "Gpt.c131_shrunk"
   ],
   "note": ""
  },
  {
   "property": "C132",
   "status": "proved",
   "theorems": [
    "Gpt.c132_valid",
    "Gpt.c132_writable",
    "Gpt.c132_permit",
    "Gpt.c132_permit_run",
    "Gpt.c132_open",
    "Gpt.c132_strict",
    "Gpt.c132_lenient",
    "Gpt.c132_first",
    "Gpt.c132_grow",
    "Gpt.c132_shrink"
   ],
   "note": ""
  },
  {
   "property": "C133",
   "status": "proved",
   "theorems": [
    "Gpt.c133_call",
    "Gpt.c133_run",
    "Gpt.c133_outcomes",
    "Gpt.c133_write"
   ],
   "note": ""
  },
  {
   "property": "C134",
   "status": "proved",
   "theorems": [
    "Gpt.c134_add",
    "Gpt.c134_add_at",
    "Gpt.c134_remove",
    "Gpt.c134_bytes",
    "Gpt.c134_undo"
   ],
   "note": ""
  },
  {
   "property": "C135",
   "status": "proved",
   "theorems": [
    "Gpt.c135_unseen",
    "Gpt.c135_skip",
    "Gpt.c135_arrives",
    "Gpt.c135_origin"
   ],
   "note": ""
  },
  {
   "property": "C136",
   "status": "proved",
   "theorems": [
    "Gpt.c136_call",
    "Gpt.c136_run",
    "Gpt.c136_open"
   ],
   "note": ""
  },
  {
   "property": "C137",
   "status": "proved",
   "theorems": [
    "Gpt.c137_call",
    "Gpt.c137_run",
    "Gpt.c137_places",
    "Gpt.c137_start"
   ],
   "note": ""
  },
  {
   "property": "C138",
   "status": "proved",
   "theorems": [
    "Gpt.c138_room",
    "Gpt.c138_place",
    "Gpt.c138_same",
    "Gpt.c138_at",
    "Gpt.c138_remove"
   ],
   "note": ""
  },
  {
   "property": "C139",
   "status": "proved",
   "theorems": [
    "Gpt.c139_kept",
    "Gpt.c139_no_panic",
    "Gpt.c139_empty"
   ],
   "note": ""
  },
  {
   "property": "C140",
   "status": "proved",
   "theorems": [
    "Gpt.c140_cut",
    "Gpt.c140_whole"
   ],
   "note": ""
  },
  {
   "property": "C141",
   "status": "proved",
   "theorems": [
    "Gpt.c141_remove",
    "Gpt.c141_unused",
    "Gpt.c141_guid"
   ],
   "note": ""
  },
  {
   "property": "C142",
   "status": "proved",
   "theorems": [
    "Gpt.c142_answers",
    "Gpt.c142_order"
   ],
   "note": ""
  },
  {
   "property": "C143",
   "status": "proved",
   "theorems": [
    "Gpt.c143_calls",
    "Gpt.c143_last"
   ],
   "note": ""
  },
  {
   "property": "C144",
   "status": "proved",
   "theorems": [
    "Gpt.c144_same",
    "Gpt.c144_resume"
   ],
   "note": ""
  },
  {
   "property": "C145",
   "status": "proved",
   "theorems": [
    "Gpt.c145_bytes",
    "Gpt.c145_device",
    "Gpt.c145_shown"
   ],
   "note": ""
  },
  {
   "property": "C146",
   "status": "proved",
   "theorems": [
    "Gpt.c146_course"
   ],
   "note": ""
  }
 ]
}