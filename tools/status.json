{
 "C50": {
  "status": "partial",
  "note": "The claim is false as stated for the 32-digit form: from_str on a table GUID written without hyphens returns the type with OS None (c50_guid_os_fails). Proved: every name in any case, the hyphenated form, the GUID kept for every accepted form, and rejection of everything else."
 },
 "C16": {
  "status": "partial",
  "note": "False as stated (c16_fails, c16_fails_shrunk): build keeps the larger of the previous and the computed last_usable, so growing the count or shrinking the disk puts the backup array over or behind the backup header. c16_partial gives the exact condition, c16_rebuilt_partial that rebuilding with the same or a smaller count is safe."
 },
 "C60": {
  "status": "partial",
  "note": "False as stated (c60_fails): the result of seek is ignored, so with a failing seek the header at the current position is returned. Proved when the seek does not fail, and unconditionally that the header is stored validly at the requested offset or the current position. c60_exact: the header is the one at the requested offset if the seek worked and the one at the position of the stream if it failed."
 },
 "C22": {
  "status": "partial",
  "note": "False as stated (c22_fails, c22_fails_range): only the start and the length of the extent are compared with a free section, not its end, so an extent may run into the next partition or past last_usable. Proved (c22_partial): the start is not before a free section at least as long as the extent; c22_accepts: every free extent is accepted; c22_used_id: a used id is refused."
 },
 "C63": {
  "status": "partial",
  "note": "False as stated (c63_fails): in a release build an alignment above 2^63 makes alignment offset plus size wrap, and the partition lands outside the free section. c63_partial: proved in debug builds, and in release builds for alignments up to 2^63. c63_exact: on disks of less than 2^63 blocks the new blocks were free if and only if overflow checks are on or the alignment is at most 2^63."
 },
 "C28": {
  "status": "partial",
  "note": "The full claim is false (c28_fails): update_partitions shrinks the partition count without permission. c28_partial proves it for tables that do not shrink below the count, and for every refused call. c28_exact: without permission a successful call changes the number of slots if and only if it is an update_partitions with fewer entries than slots on a disk with more than 128 slots."
 },
 "C29": {
  "status": "partial",
  "note": "The full claim is false (c29_fails, c29_fails_update): a failed init_headers leaves the new entry in memory. c29_partial/c29_add_partial prove it for every other error. c29_exact: a failed call (new GUID, or another table) leaves the table alone if and only if its error is not a header error."
 },
 "C46": {
  "status": "partial",
  "note": "The full claim is false (c46_fails): a valid header whose entry size is not 128 panics. c46_partial proves it for all images whose valid headers have 128-byte entries (debug mode also needs fewer than 2^31 entries or a device under 256 GiB). c46_exact: on a working device, exactly which contents panic in each build."
 },
 "C64": {
  "status": "partial",
  "note": "False as stated (c64_fails): write stores the used partitions without gaps, so ids after a gap change. c64_partial: ids survive when the used ids are 1..n; c30_write_open gives the exact renumbering. c64_exact: the ids survive if and only if those of the n used partitions are at most n."
 },
 "C31": {
  "status": "partial",
  "note": "False as stated (c31_fails): on a device longer than the header says (enlarged disk) the backup is written to the header's backup LBA but looked for in the last block. c31_partial: proved for every device whose last block is the backup LBA, every table and every overwriting of everything outside the backup copy. c31_exact: the claim holds if and only if the backup LBA is the last block."
 },
 "C37": {
  "status": "partial",
  "note": "False as stated (c37_fails): a name containing NUL is stored in full but read back cut, so the second write differs. c37_partial: proved for every table whose names are clean (no NUL before the end, not cut inside a surrogate pair). c37_exact: the bytes stay if and only if every name is stable (no character but NUL after a NUL and no pair cut, within the 36 units)."
 },
 "C43": {
  "status": "partial",
  "note": "False as stated (c43_fails): update_guid changes only the in-memory field; write stores the GUID of the header. c43_partial: proved when update_partitions succeeds in between (it rebuilds the headers). c43_exact: the GUID comes back if and only if it is the one of the header in use."
 },
 "C56": {
  "status": "partial",
  "note": "False as stated (c56_fails): the products are checked, but their sum start+offset is a plain addition, so in a release build it wraps and an entry is written near the beginning of the device. Proved: products that overflow are errors that write nothing (c56_overflow), a sum that overflows panics in debug builds (c56_sum_debug), and whenever the sum fits the bytes land exactly in the named slot, in every outcome (c56_entry_partial, c56_zero_partial, c56_entry_torn, c56_zero_torn). c56_exact: a success stores the entry at its offset modulo 2^64, which is its slot if and only if the offset is below 2^64."
 },
 "C42": {
  "status": "partial",
  "note": "False as stated (c42_fails): slot 0 of the primary array is overwritten first while the old primary header stays, and opening does not fall back to the backup table when the table checksum is wrong; c42_window proves that this whole window is unopenable. Proved: old table while the old primary array and header are untouched (c42_old_partial); new table once the primary header is complete, or torn into an invalid header with the backup at the last block (c42_new_partial). For updates of disks with a backup in the last block c68_exact says exactly which cuts can be opened."
 },
 "C58": {
  "status": "partial",
  "note": "False in release builds only (c58_fails): with 2^32-1 used entries num_parts+1 wraps and add_partition makes an entry with id 0. Proved for every reachable state in debug builds (c58_debug), and in release builds while tables have fewer than 2^32-1 entries (c58_partial). c58_exact: add_partition returns id 0 if and only if the build is a release build and all of 2^32-1 slots are used."
 },
 "C59": {
  "status": "partial",
  "note": "False as stated (c59_fails): an add whose header rebuild fails returns an error but leaves the entry in the table. c59_partial: proved for histories in which no call but write panics or returns a header error; c59_lax_partial: for every history, if such calls may or may not have been carried out. c59_exact: exactly which calls depart from the map."
 },
 "C55": {
  "status": "partial",
  "note": "False as stated (c55_fails, c55_claim_fails): init_headers sizes the table by the number of entries, not the highest id, so ids 2..129 are accepted for 128 slots, the next add_partition takes id 1, and write fails with OverflowPartitionCount. c55_partial: proved for every history from create or open in which calls name no id beyond the table, do not fail while rebuilding the headers, and tables have fewer than 2^32-1 entries. c55_exact: exactly which successful calls lead to more used partitions than slots."
 },
 "C23": {
  "status": "partial",
  "note": "False as stated: add_partition_at checks the length but not the end of the extent, so a partition can end behind last_usable (c23_fails); and a growing table moves first_usable behind existing partitions (c23_fails_growth). c23_partial: proved for every history from create in which explicit extents are free, given tables are tidy, alignments do not wrap, the count does not grow, and no call but write panics or fails while rebuilding headers. c23_exact_at, c23_exact: exactly when a successful call keeps the claim (the explicit extent was free; no used partition starts inside the longer array)."
 },
 "C47": {
  "status": "partial",
  "note": "False as stated in debug builds: an image with first_usable = 0 makes find_free_sectors panic on first_usable - 1 (c47_fails), and an alignment near 2^64 makes add_partition panic (c47_fails_align). Proved for release builds on every image (c47_release) and for debug builds on every image whose numbers are modest (c47_partial). Exactly when each call panics is part of c87_update, c91_write, c92_free, c93_at_exact and c93_exact."
 },
 "C66": {
  "status": "proved",
  "note": "c66_release is the claim. c66_debug: the same for debug builds when the numbers are modest; c66_debug_fails: not for all arguments."
 },
 "C68": {
  "status": "partial",
  "note": "False as stated: c68_fails gives two tables whose arrays have the same CRC-32 after the first entry, and the device opens with a mixture. c68_partial: old, new, or such a collision; c68_outcomes: opening succeeds or reports the checksum. c68_exact: a lenient open fails if and only if the primary header block is still the old one and the primary array has another checksum than the old one."
 },
 "C11": {
  "status": "partial",
  "note": "False as stated (c11_fails): without overflow checks num_parts*part_size is computed modulo 2^32, so build accepts 2^25 entries of 128 bytes with arrays of no blocks at all. c11_partial: proved with overflow checks, and without them whenever the product fits 32 bits. c11_exact: among successful builds the claim holds if and only if the product fits."
 },
 "C12": {
  "status": "partial",
  "note": "False as stated (c12_fails): without overflow checks a layout whose array size wraps modulo 2^32 is accepted although there is no room. c12_partial: the three outcomes exactly, whenever the product fits 32 bits; c12_panic: with overflow checks build panics exactly when it does not. c86_build gives the outcomes without this restriction."
 },
 "C19": {
  "status": "partial",
  "note": "False as stated. In a release build an alignment above 2^63 wraps (c19_fails). When every slot is used, the id after the last slot is taken without looking whether it is in use: c19_overwrites exhibits, in both builds, a disk made by the library on which add_partition overwrites an existing partition. c19_partial: proved in debug builds, and in release builds for alignments up to 2^63, when the id after a full array is not in use and the count is below 2^32-1. c19_exact: on disks of less than 2^63 blocks and at most 2^32-2 slots the two conditions of c19_partial are also necessary."
 },
 "C20": {
  "status": "partial",
  "note": "False as stated (c20_fails): in a release build an alignment above 2^63 wraps and the start is not free. c20_partial: proved in debug builds, and in release builds for alignments up to 2^63. c20_exact: on disks of less than 2^63 blocks it holds if and only if overflow checks are on or the alignment is at most 2^63."
 },
 "C89": {
  "status": "partial",
  "note": "False as stated (c89_fails): on a disk with 128 partitions and change_partition_count, add_partition of one block succeeds, and on writing the 129th entry of the primary array goes to block 34, into the data of the first partition. c89_partial: a used partition that starts behind the longer array keeps its data. c89_primary, c89_reopens, c89_outside, c89_backup give the exact result: the new table is stored and opens, nothing else changes, and the backup header overwrites the end of its own array. c89_exact: a used partition keeps its data just when its bytes in the longer array were those of the new table already."
 },
 "C99": {
  "status": "partial",
  "note": "False as stated (c99_fails): in debug builds add_partition_at with an id past the slots, no permission to change their number and first + length of 2^64 panics while computing the argument of debug!, where a build that skips it returns PartitionCountWouldChange. c99_partial: this is the only difference (the build without panics, the other refuses, the disk unchanged in both). c99_release: none in release builds. c99_history: histories."
 }
}