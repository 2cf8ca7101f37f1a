#!/usr/bin/env python3
"""Writes /verif/properties.jsonl. One tuple per property:
id, title, statement, quantifier, why_tests_cant, anchors."""
import json
P = []
def p(i, title, statement, quantifier, why, *anchors):
    P.append(dict(id=i, title=title, statement=statement, quantifier=quantifier,
                  why_tests_cant=why, anchors=list(anchors)))

# ---------------------------------------------------------------- encoders
p("C01", "GUID disk encoding is a bijection",
  "Parsing the 16 bytes the library writes for a UUID (first three groups little endian, last two big endian) yields the same UUID, and re-encoding the UUID parsed from any 16 bytes yields those bytes; a reader holding fewer than 16 bytes gets an UnexpectedEof error, never a wrong UUID.",
  "every UUID (2^128) and every byte string", "2^128 values; a test samples a few",
  "src/header/mod.rs: parse_uuid, Header::to_bytes", "src/partition.rs: Partition::as_bytes")
p("C02", "Partition entry round trip",
  "A used partition whose name has no NUL and at most 36 UTF-16 code units, written as a 128-byte entry and read back by the table reader, comes back with the same type GUID, partition GUID, first LBA, last LBA, flags and name.",
  "every partition value (all GUIDs, LBAs, flags, every Unicode name within the limit)", "the domain is astronomically large and includes surrogate pairs",
  "src/partition.rs: Partition::as_bytes, file_read_partitions")
p("C03", "Over-long and NUL-containing names",
  "For every name, what is read back is the decoding of the first 36 UTF-16 units of the name up to the first NUL: the stored name is a prefix of the given name, followed by one U+FFFD only when the 36-unit cut splits a surrogate pair; nothing of the name spills into neighbouring entries.",
  "every Unicode string of every length", "the cut position against surrogate pairs and NULs has unboundedly many cases",
  "src/partition.rs: Partition::as_bytes, file_read_partitions")
p("C04", "Header encode/parse round trip",
  "A header the library writes to a block is accepted when read back from that block, and every field read equals the field written, with crc32 and crc32_parts equal to the checksums computed at write time.",
  "every header value with the standard signature and every device content and offset", "all 2^(8*92) headers",
  "src/header/mod.rs: Header::file_write_header, Header::to_bytes, file_read_header")
p("C05", "Header acceptance is sound and complete",
  "Reading a header at an offset succeeds exactly when 92 bytes are available there, they begin with \"EFI PART\", and the stored CRC equals the CRC-32 of the 92 bytes with the CRC field zeroed; the fields returned are the little-endian values at the UEFI offsets; otherwise the error names the first failed check.",
  "every 92-byte string at every offset of every device", "all byte strings",
  "src/header/mod.rs: file_read_header, calculate_crc32")
p("C06", "Protective MBR codec",
  "ProtectiveMBR::from_bytes accepts a buffer exactly when its length is the sector size and bytes 510..512 are 55 AA; to_bytes of the result is the first 512 bytes of the buffer; and from_bytes(to_bytes(m)) returns the same MBR for every MBR built through the API.",
  "every buffer, both sector sizes, every MBR value", "256^512 buffers",
  "src/mbr.rs: ProtectiveMBR::from_bytes, ProtectiveMBR::to_bytes")
p("C07", "MBR partition record codec",
  "PartRecord::from_bytes accepts exactly 16-byte buffers and is inverse to to_bytes in both directions.",
  "every record and every buffer", "2^128 records", "src/mbr.rs: PartRecord::from_bytes, PartRecord::to_bytes")
p("C08", "Header corruption detection",
  "If a valid header block on disk is altered in any way confined to four consecutive bytes that do not straddle the CRC field boundary, reading it fails (never returns a header).",
  "every valid header and every corruption of up to 32 consecutive bits at byte granularity", "2^32 corruptions at each of 80+ positions of every header",
  "src/header/mod.rs: file_read_header, calculate_crc32")
p("C09", "Partition table corruption detection",
  "If the on-disk partition array of a disk that opens correctly is altered within any four consecutive bytes, reading the partitions with the same header fails with the CRC-mismatch error (with overflow checks and 2^31 or more slots it may panic instead); in no case is the altered table returned.",
  "every disk image and every corruption of up to four consecutive bytes in the array", "unbounded images times 2^32 corruptions",
  "src/partition.rs: file_read_partitions", "src/header/mod.rs: partentry_checksum")
# ---------------------------------------------------------------- arithmetic
p("C10", "Partition size and offset arithmetic never wraps",
  "sectors_len, bytes_len and bytes_start return the exact mathematical value (last-first+1, times the block size, first times block size) when it is representable in 64 bits and last >= first, and an error otherwise; they never panic and never return a wrapped value.",
  "all 64-bit first/last LBAs and both block sizes", "2^128 pairs", "src/partition.rs: Partition::sectors_len, bytes_len, bytes_start")
p("C11", "HeaderBuilder lays out disjoint regions",
  "A header pair built from a fresh builder places, in this order and without overlap: LBA 0, primary header (LBA 1), primary partition array, usable area (non-empty), backup partition array, backup header at backup_lba; the arrays are just large enough for num_parts*part_size bytes.",
  "every backup_lba, num_parts, part_size and block size accepted by build", "four independent 32/64-bit parameters",
  "src/header/builder.rs: HeaderBuilder::build, u64_div_ceil")
p("C12", "HeaderBuilder rejects exactly the impossible layouts",
  "build on a fresh builder fails with MissingBackupLba exactly when backup_lba is below the primary LBA, with BackupLbaToEarly exactly when the usable area would be empty, and otherwise succeeds; with overflow checks it panics exactly when num_parts*part_size does not fit 32 bits.",
  "every builder configuration", "the boundary depends on four parameters", "src/header/builder.rs: HeaderBuilder::build")
p("C13", "Primary and backup headers mirror each other",
  "The backup header built from a primary header has current/backup LBA exchanged and the same GUID, usable range, partition count and entry size, and vice versa.",
  "every header produced by build, both build modes", "unbounded header space", "src/header/builder.rs: HeaderBuilder::from_header, build")
p("C14", "Rebuilding a header is stable",
  "Feeding a built header back through HeaderBuilder::from_header and build gives the same header; repeated write cycles do not drift.",
  "every header produced by build whose primary and backup LBAs differ, any number of rounds", "fixpoint claim over all headers and all iteration counts",
  "src/header/builder.rs: HeaderBuilder::from_header, build")
p("C15", "Backup location",
  "The backup header location is the last whole block of the device: lb*(lba+1) <= len < lb*(lba+2); it is refused with ToSmallForBackup exactly when the device holds fewer than three blocks; the device's position and content are unchanged.",
  "every device length and position and both block sizes", "every length up to 2^64", "src/header/mod.rs: find_backup_lba")
p("C16", "The usable range never covers the backup structures",
  "Whenever the library builds a header, the backup array that starts right after last_usable fits below the backup header block.",
  "every builder state, including from_header on an existing header with a larger partition count or a smaller disk",
  "depends on the history that produced the header", "src/header/builder.rs: HeaderBuilder::build (last_usable.max)")
# ---------------------------------------------------------------- allocation
p("C17", "find_free_sectors reports only free space",
  "Every LBA in a section returned by find_free_sectors lies in first_usable..=last_usable and in no used partition.",
  "every disk state whose used partitions are ordered, in range and pairwise disjoint", "every partition layout",
  "src/lib.rs: GptDisk::find_free_sectors")
p("C18", "find_free_sectors reports all free space",
  "Every free usable LBA lies in exactly one returned section; sections come in increasing order, are separated by at least one used LBA, and none is empty.",
  "every well-formed layout and every LBA", "every partition layout", "src/lib.rs: GptDisk::find_free_sectors")
p("C19", "add_partition allocates safely",
  "When add_partition returns Ok(id), the new entry id lies inside the usable range, overlaps no used partition, starts at a multiple of the requested alignment, spans exactly ceil(size/block) blocks, carries the given name, type and flags, id was free, and every other entry is unchanged.",
  "every well-formed disk state, size, alignment and build mode", "all layouts and all 64-bit sizes and alignments",
  "src/lib.rs: GptDisk::add_partition")
p("C20", "add_partition is first fit",
  "The start chosen by add_partition is the lowest aligned LBA at which the requested number of blocks is free.",
  "every well-formed disk state and request", "optimality over all candidate positions", "src/lib.rs: GptDisk::add_partition")
p("C21", "add_partition is complete",
  "add_partition returns NotEnoughSpace only when no aligned free extent of the requested length exists anywhere in the usable range.",
  "every well-formed disk state and request", "a universally quantified negative", "src/lib.rs: GptDisk::add_partition")
p("C22", "add_partition_at only accepts free extents",
  "When add_partition_at returns Ok, the extent first_lba .. first_lba+length_lba-1 was entirely free and inside the usable range; a used id is rejected.",
  "every disk state and request", "all extents against all layouts", "src/lib.rs: GptDisk::add_partition_at")
p("C23", "Partitions stay disjoint and in range over any history",
  "Starting from create_from_device, after any sequence of API calls the used partitions are pairwise disjoint and inside the usable range.",
  "every finite sequence of API calls with any arguments", "unbounded histories", "src/lib.rs: GptDisk (all mutating methods)")
p("C24", "find_next_partition_id",
  "find_next_partition_id returns the smallest id in 1..=num_parts whose entry is absent or unused, and None exactly when all of them are used; it is never 0.",
  "every disk state with a non-zero entry count", "all subsets of ids up to 2^32", "src/lib.rs: GptDisk::find_next_partition_id")
p("C25", "Removal removes exactly one entry",
  "remove_partition(id) returns Some(id) and deletes that entry iff it existed, leaving all others; remove_partition_by_guid removes the lowest-numbered entry with that GUID and returns its id, or changes nothing.",
  "every table and id/GUID", "all tables", "src/lib.rs: GptDisk::remove_partition, remove_partition_by_guid")
p("C26", "Removing a partition frees its blocks",
  "After remove_partition of a used entry, precisely its blocks become free in addition to those that were free before.",
  "every well-formed layout and entry", "all layouts", "src/lib.rs: GptDisk::remove_partition, find_free_sectors")
p("C27", "calculate_alignment is exact and terminates",
  "calculate_alignment returns 0 for an empty table and otherwise the largest power of two not above 2048 that divides the first LBA of every used partition; it never underflows or loops forever.",
  "every partition table", "loop termination and maximality over all tables", "src/lib.rs: GptDisk::calculate_alignment")
p("C28", "Partition count changes only with permission",
  "Without change_partition_count, no call changes header().num_parts; the call that would need more slots fails with PartitionCountWouldChange and changes nothing.",
  "every disk state and every API call", "all states and histories", "src/lib.rs: add_partition, add_partition_at, update_partitions, init_headers", "src/header/mod.rs: num_parts_would_change")
p("C29", "A failed call leaves the table as it was",
  "If add_partition, add_partition_at or update_partitions returns Err, partitions() and the headers are as before the call.",
  "every disk state, request and I/O fault schedule", "every failure point", "src/lib.rs: add_partition, add_partition_at, update_partitions, init_headers")
# ---------------------------------------------------------------- persistence
p("C30", "Write then open returns the same table",
  "After write returns Ok, opening the device yields the disk GUID of the written header, the same usable range and count, and exactly the used partitions in id order, each with the same GUIDs, LBAs, flags and (storable) name, numbered 1..n.",
  "every disk state with a sane layout, every table, every device content and every I/O fault schedule under which write reports Ok",
  "all tables and device contents", "src/lib.rs: write_inplace, open_from_device", "src/partition.rs: write_to_device, write_zero_entries_to_device, file_read_partitions", "src/header/mod.rs: file_write_header, file_read_header")
p("C31", "The backup copy alone suffices",
  "After write returns Ok without readonly_backup, destroying the primary header (any way that makes it unreadable) and opening again yields the same table from the backup.",
  "every disk state, every destruction of the primary header and array", "all tables and all corruptions", "src/lib.rs: write_inplace, open_from_device", "src/header/builder.rs: build")
p("C32", "Writing never touches user data",
  "At every point of write_inplace - success, any error, any crash or torn write - every byte outside the two header blocks and the two partition arrays is what it was before; in particular LBA 0 and every LBA in first_usable..=last_usable.",
  "every disk state with a sane header, every fault schedule and every crash point", "all interleavings of faults with a multi-write sequence",
  "src/lib.rs: write_inplace", "src/partition.rs: write_to_device, write_zero_entries_to_device", "src/header/mod.rs: file_write_header")
p("C33", "readonly_backup leaves the backup alone",
  "With readonly_backup, write_inplace modifies only the primary header block and primary array, at every fault and crash point, and never replaces the in-memory backup header.",
  "every sane disk state and fault schedule (for the in-memory header: every disk state)", "all crash points", "src/lib.rs: write_inplace, init_headers")
p("C34", "A read-only disk is never written",
  "If the configuration is not writable, write and write_inplace return ReadOnly and the device (content and position) is untouched; no sequence of calls on such a disk modifies the device. GptConfig::open and create ask for write access to the file only for a writable configuration; read_disk, read_header and read_partitions never do.",
  "every disk state and every call sequence", "all histories", "src/lib.rs: write_inplace, open, create; src/disk.rs: read_disk")
p("C35", "Nothing is written before write",
  "open, create_from_device and every GptDisk method other than write/write_inplace leave the device content unchanged, whatever fails.",
  "every device, argument, history and fault schedule", "all histories and faults", "src/lib.rs: open_from_device, create_from_device, add_partition, update_partitions, init_headers")
p("C36", "Writing is idempotent",
  "Calling write_inplace again after a successful write_inplace, with nothing changed in between, succeeds and leaves every device byte and the in-memory state as they were.",
  "every sane disk state and table", "all tables", "src/lib.rs: write_inplace")
p("C37", "Open then write is the identity on a disk the library wrote",
  "Opening a device that write produced and writing it back at once leaves every byte unchanged.",
  "every sane disk state and table", "all tables", "src/lib.rs: open_from_device, write_inplace")
p("C38", "Deleted entries are really erased",
  "After a successful write every array slot beyond the used partitions is all zeros in both arrays, and the remainder of each header block beyond byte 92 is zero (the backup copies: unless readonly_backup is set).",
  "every sane disk state and previous device content", "all previous contents", "src/lib.rs: write_inplace", "src/partition.rs: write_zero_entries_to_device", "src/header/mod.rs: file_write_header")
p("C39", "Ok means flushed",
  "When write_inplace returns Ok, the device was flushed after the last byte was written, and, for disks opened by path, sync_all succeeded after the flush.",
  "every disk state and fault schedule", "all fault schedules", "src/lib.rs: write_inplace, file_sync_all, open, create")
p("C40", "In-memory headers equal what is on disk after write",
  "After write_inplace returns Ok, primary_header() (and backup_header() when the backup is written) equals the header read back from the device, including both CRCs.",
  "every sane disk state", "all states", "src/lib.rs: write_inplace", "src/header/mod.rs: file_write_header")
p("C41", "Headers are written last, backup before primary",
  "At every crash point of write_inplace: if any byte of the backup header block has changed then both arrays are complete, and if any byte of the primary header block has changed then the backup header block is complete too.",
  "every sane disk state, every fault schedule / crash point", "all crash points of a loop of unbounded length", "src/lib.rs: write_inplace")
p("C42", "A crash during write leaves an openable disk",
  "If the device opened before write_inplace was interrupted at an arbitrary point, it can be opened afterwards, showing either the old or the new table.",
  "every disk state and crash point", "all crash points", "src/lib.rs: write_inplace, open_from_device")
p("C43", "update_guid is persisted by write",
  "After update_guid(Some(g)) and a successful write, opening the device reports guid() = g.",
  "every disk state and GUID", "all states", "src/lib.rs: update_guid, write_inplace, init_headers")
p("C44", "Header selection on open",
  "open_from_device succeeds in selecting a header iff the primary or (failing that) the backup is valid, prefers the primary, reports the primary's error if both are invalid, and with only_valid_headers requires both; primary_header()/backup_header() report each one's own status.",
  "every device content and configuration", "all images", "src/lib.rs: open_from_device", "src/header/mod.rs: read_primary_header, read_backup_header")
p("C45", "Opened state reflects the device",
  "After open, guid() is the selected header's disk GUID, every partition has an id in 1..=num_parts and equals the decoding of the corresponding 128-byte slot, every non-zero slot appears, every all-zero slot does not.",
  "every device content", "all images", "src/lib.rs: open_from_device", "src/partition.rs: file_read_partitions")
p("C46", "Opening an arbitrary image never panics",
  "open_from_device on any byte content and any I/O failure returns Ok or Err and never panics.",
  "every device content, configuration, build mode and fault schedule", "all images (fuzzing samples)", "src/lib.rs: open_from_device", "src/partition.rs: file_read_partitions (assert_eq part_size)", "src/header/mod.rs: file_read_header")
p("C47", "Methods on an opened disk never panic",
  "On any disk that open_from_device returned Ok for, find_free_sectors, add_partition (size > 0, alignment > 0), calculate_alignment, find_next_partition_id, remove_partition and write_inplace do not panic.",
  "every image that opens", "all images", "src/lib.rs: find_free_sectors, add_partition, write_inplace", "src/header/builder.rs: build")
p("C48", "Swapping the device keeps the table",
  "with_disk_device and update_disk_device change only the device and the writable flag (with_disk_device also makes later writes flush without syncing a file); clone changes nothing; guid, headers, partitions and block size are preserved, and where a header could not be read the error kept in its place stays the same error (only the message text of an error the library made is dropped); update_disk_device returns the previous device.",
  "every disk state and device", "all states", "src/lib.rs: with_disk_device, update_disk_device, Clone for GptDisk, take_device", "src/header/mod.rs: lossy_clone")
p("C49", "Known partition types are recognised from their GUID",
  "Converting a GUID to a partition type keeps the GUID; it yields the table's constant with its OS label for each GUID in the table and OS None for every other GUID; no two constants share a GUID.",
  "every GUID (2^128) and the whole table", "2^128 GUIDs", "src/macros.rs: From<Uuid> for Type", "src/partition_types.rs")
p("C50", "Partition types parse from names and GUID strings",
  "Type::from_str accepts every table name in any letter case and every GUID string, gives the same result as converting the parsed GUID, and rejects everything else.",
  "every string", "infinitely many strings", "src/macros.rs: FromStr for Type", "src/partition_types.rs: Type::from_name")
p("C51", "Logical block size conversions",
  "LogicalBlockSize::try_from(v) succeeds exactly for 512 and 4096 and is inverse to conversion to u64/usize.",
  "every 64-bit value", "2^64 values", "src/disk.rs: LogicalBlockSize")
p("C52", "MBR writers touch only their bytes",
  "overwrite_lba0 changes exactly bytes 0..512, update_conservative exactly 446..512, write_bootcode exactly 0..440 and write_disk_signature exactly 440..444, to the MBR's values; all other bytes and (on success) the stream position are unchanged, whatever fails part way.",
  "every device content, position and fault schedule", "all contents and crash points", "src/mbr.rs: overwrite_lba0, update_conservative, write_bootcode, write_disk_signature")
p("C53", "MBR readers read their bytes and restore the position",
  "from_disk equals from_bytes of the first sector; read_bootcode / read_disk_signature return bytes 0..440 / 440..444; reading back what a writer wrote gives it back; position restored on success and the content never changes.",
  "every device content and position", "all contents", "src/mbr.rs: from_disk, read_bootcode, read_disk_signature")
p("C54", "UTF-16 name codec",
  "Lossy UTF-16 decoding of the UTF-16 encoding of any string is that string, for every Unicode scalar value including supplementary planes.",
  "every Unicode string", "unbounded strings over 1.1 million code points", "src/partition.rs: encode_utf16 / from_utf16_lossy uses")
p("C55", "write never runs out of slots",
  "The number of used partitions never exceeds header().num_parts in a state reachable through the API, so write_inplace never fails with OverflowPartitionCount.",
  "every sequence of API calls", "unbounded histories", "src/lib.rs: write_inplace (OverflowPartitionCount), init_headers, add_partition_at, update_partitions")
p("C56", "Entry writers write exactly their slots",
  "Partition::write_to_device writes exactly bytes_per_partition bytes at start_lba*block + index*bytes_per_partition; write_zero_entries_to_device zeroes exactly number_entries slots; products that overflow are errors; 2^63 bytes or more to zero never succeed and nothing is written (below 2^64 bytes: a capacity-overflow panic).",
  "every partition, index, start, entry size and device", "all offsets", "src/partition.rs: write_to_device, write_zero_entries_to_device")
p("C57", "write_header helper",
  "header::write_header writes one valid primary header at LBA 1 describing the whole device and nothing else, returns the GUID it wrote, and the header can be read back.",
  "every device and GUID", "all device contents and sizes", "src/header/mod.rs: write_header")
p("C58", "Partition id 0 never exists",
  "partitions() never contains id 0, in any state reachable through the API.",
  "every sequence of API calls from create or open", "unbounded histories", "src/lib.rs: GptDisk.partitions, add_partition_at, update_partitions", "src/partition.rs: file_read_partitions")
p("C59", "The partition table behaves as a map",
  "Over any sequence of API calls, partitions() is what a plain id->entry map gives when the successful adds, removes, takes and replacements are applied in order.",
  "every call sequence", "unbounded histories", "src/lib.rs: GptDisk mutating methods")
p("C60", "A successful header read read the requested offset",
  "If reading a header returns Ok, the returned header is the one stored at the requested offset, even when some I/O calls fail.",
  "every device, offset and fault schedule", "all fault schedules", "src/header/mod.rs: file_read_header (ignored seek result)")
p("C61", "Creating succeeds exactly on large enough devices",
  "create_from_device without I/O faults succeeds exactly when the device holds the two headers, two 128-entry arrays, LBA 0 and at least one usable block; the resulting headers cover the whole device and the table is empty.",
  "every device length and block size", "every length", "src/lib.rs: create_from_device, init_headers")
p("C62", "Fault-free write succeeds",
  "On a device at least as large as the headers say, without I/O faults, write_inplace of a sane, writable state returns Ok; it never does with more used partitions than the header has slots.",
  "every sane writable state with at most num_parts used partitions, every device content", "all states", "src/lib.rs: write_inplace")
p("C63", "Alignment arithmetic does not overflow",
  "add_partition never places a partition outside a free section because of 64-bit wrap-around, in debug or release builds.",
  "every alignment and size", "2^128 pairs", "src/lib.rs: add_partition (alignment_offset_lba + size_lba)")
p("C64", "Entry ids survive a write/open cycle",
  "A partition with id k before write is found under id k after opening the written device.",
  "every table", "all tables", "src/lib.rs: write_inplace (compaction)")
p("C65", "What a crash can leave",
  "The device contents an interrupted write_inplace can leave are exactly the prefixes of one fixed byte order (each entry to the primary then the backup array, the zeroed slots, the backup header, the primary header), with each byte old or final: no other content occurs, and every such prefix does occur.",
  "every sane state that an undisturbed device would accept, every device content and fault schedule", "all crash points", "src/lib.rs: write_inplace", "src/partition.rs: write_to_device, write_zero_entries_to_device")
p("C66", "Release builds do not panic",
  "In a release build, no call on a disk reached from create or open by any sequence of API calls panics, as long as the call respects its documented preconditions (size, length, alignment and id not 0, no id 0 in update_partitions), whatever the header fields are and whichever I/O fails.",
  "every sequence of API calls, every opened image, every fault schedule", "unbounded histories over arbitrary images", "src/lib.rs: GptDisk methods", "src/header/builder.rs: build")
p("C67", "Whole sessions of ordinary use are sound",
  "Create a table on a device that works (below 2^60 bytes), then make any number of API calls that respect their preconditions, name free extents and ids up to 128, writing and reopening at any time: no call panics (debug builds included), the partitions stay disjoint and between the two arrays, the primary header keeps every field except the disk GUID and the checksums, writing always succeeds, reopening gives the used partitions in order of id, no byte outside the metadata blocks ever changes (even if the device fails during the last write), and after losing everything before the backup array the table is still recovered.",
  "every device size, block size and content; every finite sequence of calls, writes and reopenings", "unbounded histories, all device contents", "src/lib.rs: GptDisk methods", "src/header/builder.rs: build")
p("C68", "An interrupted update shows the old table or the new one",
  "A written disk is given another table and written again; the second write is interrupted anywhere, with the last write torn. If the device can be opened afterwards, its table is the one written first or the one written second, never a mixture; otherwise opening reports a checksum mismatch.",
  "every pair of tables, device content, crash point and torn write", "all crash points for all pairs of tables", "src/lib.rs: write_inplace, open_from_device", "src/partition.rs: file_read_partitions", "src/header/mod.rs: file_read_header")
p("C69", "Reading header and partitions separately agrees with open",
  "read_header followed by read_partitions gives a header and a table exactly when open gives a disk with that primary header and that table; read_header_from_arbitrary_device gives what primary_header() gives, errors included; a path that cannot be opened gives that I/O error from open, create, read_disk, read_header and read_partitions; none of them changes the file.",
  "every file content, block size and configuration", "all file contents", "src/header/mod.rs: read_header, read_header_from_arbitrary_device", "src/partition.rs: read_partitions", "src/lib.rs: GptConfig::open, create", "src/disk.rs: read_disk")
p("C70", "The checksum is CRC-32",
  "The checksum computed for headers and partition arrays is CRC-32/ISO-HDLC: its complement is the remainder of the message polynomial (first 32 bits complemented, times x^32) modulo the generator of ISO 3309, coefficients in reflected order; a message followed by its checksum has the fixed checksum 0x2144DF1C.",
  "every byte string", "all byte strings of all lengths", "src/header/mod.rs: calculate_crc32", "src/partition.rs: file_read_partitions")
p("C71", "A new protective MBR is the one UEFI prescribes",
  "ProtectiveMBR::with_lb_size(n).to_bytes() and ProtectiveMBR::new().to_bytes() are, byte for byte, the protective MBR of the UEFI specification: no boot code, one record of type EE starting at block 1 with n blocks (new: FFFFFFFF), three empty records, 55 AA.",
  "every size", "2^32 sizes", "src/mbr.rs: ProtectiveMBR::new, with_lb_size, PartRecord::new_protective")
p("C72", "MBR and GPT do not disturb each other",
  "Whatever comes of overwrite_lba0, update_conservative, write_bootcode or write_disk_signature, open_from_device gives the same disk or the same error as before (unless a header on the device claims an array in block 0); whatever comes of write_inplace, reading the MBR, boot code and disk signature gives what it gave before.",
  "every device of at least 512 bytes, MBR and fault schedule; every sane disk for write_inplace", "all contents and fault schedules", "src/mbr.rs: overwrite_lba0, update_conservative, write_bootcode, write_disk_signature, from_disk", "src/lib.rs: open_from_device, write_inplace")
p("C73", "A printed GUID is read back",
  "A GUID printed by the library is 36 characters long (groups of 8, 4, 4, 4 and 12 lower-case hexadecimal digits separated by hyphens); parsing it gives the same GUID, and partition_types::Type::from_str gives the type that GUID denotes.",
  "every GUID", "2^128 GUIDs", "src/partition_types.rs: Type::from_str", "src/partition.rs: Display")
p("C74", "Printed partitions, headers and block sizes",
  "Two partitions print the same text exactly if name, GUID, type GUID, extent and flags agree, whatever the names contain; two headers print the same text exactly if disk GUID and both checksums agree; a block size prints as its decimal number.",
  "every two partitions and headers", "names may contain any text, including that of the labels", "src/partition.rs: Display", "src/header/mod.rs: Display for Header", "src/disk.rs: Display")
p("C75", "Errors print differently",
  "Two errors of the same kind (header, disk, MBR) print the same text only if they are the same error, provided different I/O errors do.",
  "every two errors and every injective wording of I/O errors", "all pairs of errors, with any I/O wording", "src/header/mod.rs: Display for HeaderError", "src/lib.rs: Display for GptError", "src/mbr.rs: Display for MBRError")
p("C76", "Every outcome of add_partition_at",
  "On a tidy table: length 0 or id 0 panics; a used id gives PartitionIdAlreadyUsed; if no free extent of that length begins at or before the requested block, NotEnoughSpace; in a debug build an extent that runs past 2^64 panics; otherwise, if the slots suffice, Ok(id) with exactly that entry put; if not, PartitionCountWouldChange without permission, and with permission the entry is put and the headers rebuilt as in C87, which may fail with a header error or panic. Nothing else changes, and every refusal before the entry is put leaves the disk as it was. The cases exclude each other; on a device that works they fix result and state completely.",
  "every disk with a tidy table and a representable usable range, every argument, both build modes", "all tables and arguments", "src/lib.rs: add_partition_at")
p("C77", "Every outcome of add_partition",
  "On a tidy table: size 0 panics; alignment 0 panics if some block is free; if no aligned free extent has the blocks needed for the size, NotEnoughSpace; otherwise the partition takes the lowest such extent and the smallest free id (the id after the last slot if all are used), and goes on as in add_partition_at. The cases exclude each other; on a device that works they fix result and state completely.",
  "every disk with a tidy table and a representable usable range and fewer than 2^32-1 slots, every name, size, type, flags and every alignment up to 2^63, both build modes", "all tables and arguments", "src/lib.rs: add_partition, find_next_partition_id")
p("C78", "The errors each call can return",
  "add_partition fails only with NotEnoughSpace, PartitionCountWouldChange (without permission) or (with permission) a header error of kind Io, MissingBackupLba, BackupLbaToEarly or ToSmallForBackup; add_partition_at also with PartitionIdAlreadyUsed; update_partitions only with the count error or such a header error; write_inplace only with ReadOnly (not writable) or, if writable, Io, OverflowPartitionCount or a header error of those kinds, Overflow or WritingToWrongLba; open_from_device only with Io or a header error of kind Io, InvalidGptSignature, InvalidCrc32Checksum, Overflow or ToSmallForBackup; create_from_device only with the layout errors; remove_partition, remove_partition_by_guid, take_partitions, update_guid, update_disk_device and device_mut never fail. NotEnoughSpace, PartitionCountWouldChange, PartitionIdAlreadyUsed and ReadOnly leave disk and device exactly as they were. CreatingInitializedDisk and GptError::Overflow are never returned.",
  "every disk state, argument, device and fault schedule, both build modes", "all states and fault schedules", "src/lib.rs: all methods of GptDisk, open_from_device, create_from_device")
p("C79", "Names of operating systems",
  "OperatingSystem::from_str accepts exactly sixteen names, each for a different system and with exact case; every other string is refused with an error quoting it; CoreOs, NetBsd, OpenBsd, Plan9, VmWare, Windows, QNX and Custom have no name.",
  "every string", "all strings", "src/partition_types.rs: OperatingSystem::from_str")
p("C80", "Debug and release builds differ only by panics",
  "Every call on an open table, opening and creating, and the standalone read and write functions give in a debug build either a panic or exactly the result, memory state and device content of the release build; so a whole history of calls in which no call panics in a debug build has the same results and effects in both.",
  "all states, devices, arguments and histories of calls", "a test runs one build on chosen inputs",
  "src/lib.rs, src/header/mod.rs, src/partition.rs: unchecked arithmetic in all public functions")
p("C81", "Partition data in a session",
  "In a session (a table created on a working device, changed by calls that respect their documented preconditions, written and reopened any number of times) bytes_start and bytes_len of every used partition succeed, the range is not empty, lies on the device behind the primary array and before the backup array, is disjoint from that of every other used partition, and the library never changes a byte of it.",
  "all devices, block sizes, configurations that keep the number of entries, and sessions", "sessions are unbounded",
  "src/partition.rs: bytes_start, bytes_len; src/lib.rs: all methods")
p("C82", "Adding in a session is a matter of room",
  "In a session add_partition reports NotEnoughSpace when no suitably aligned run of enough free blocks lies between the arrays; PartitionCountWouldChange when there is one but ids 1 to 128 are all taken; in both cases nothing changes. Otherwise it succeeds with the smallest free id at the first such run, with the given type, flags and name, and changes no other entry.",
  "all sessions, sizes above 0, alignments from 1 to 2^63", "sessions and table contents are unbounded",
  "src/lib.rs: add_partition, find_free_sectors, find_next_partition_id")
p("C83", "What is added in a session is found again",
  "In a session, after a successful add_partition with a type other than unused, writing succeeds and opening the device gives a table whose entries are exactly the new one and the used ones that were there before: same type GUID, partition GUID, extent and flags, and the name as far as 36 UTF-16 units hold it.",
  "all sessions, names, sizes and alignments", "sessions and table contents are unbounded",
  "src/lib.rs: add_partition, write_inplace, open_from_device")
p("C84", "When opening succeeds",
  "On a device that works, opening succeeds exactly when a header governs (the primary one, or the backup one if the primary is not valid; with only_valid_headers both must be valid), its entries have 128 bytes, its array lies on the device and the array has the checksum in the header; the table is then exactly the slots that are not all zero, under their slot number counted from 1. Otherwise the outcome is one of: a header error (no header governs), an I/O error of a named kind (array beyond 2^64, not on the device, checksum mismatch), or a panic (entry size other than 128). On devices of 2^38 bytes or more a debug build also panics when it meets 2^31 empty slots. The outcome depends on the bytes of the device alone, not on the cursor nor, apart from that, on the build.",
  "all device contents below 2^64 bytes, configurations, both builds", "device contents are unbounded",
  "src/lib.rs: open_from_device; src/partition.rs: file_read_partitions; src/header/mod.rs: file_read_header, find_backup_lba")
p("C85", "Tables made with the standalone writers",
  "After write_header(path) the file can be opened: the disk has the GUID returned, and its partitions are what the 128 slots from block 2 on held. An entry written before with Partition::write(path, i, 2) is then found under id i+1 with type GUID, GUID, extent and flags, and its name as far as it fits; Partition::write changes no byte outside its slot. An entry changed by Partition::write after the header, within four consecutive bytes, makes the file unreadable (checksum mismatch) until the header is written again.",
  "all files, entries with a used type, slots below 128, GUIDs", "file contents and entries are unbounded",
  "src/header/mod.rs: write_header; src/partition.rs: Partition::write, write_to_device; src/lib.rs: open")
p("C86", "What building a header gives",
  "HeaderBuilder::build reports MissingBackupLba when the backup LBA is below the primary one, BackupLbaToEarly when the two arrays leave no usable block before the backup LBA, and otherwise gives the one header whose fields follow from the settings: the first usable block is the larger of the one set and the first after the primary array, the last usable one the larger of the one set and the last before the backup array (so a value set too large is kept), the backup array begins after the last usable block. A debug build panics when count times entry size does not fit 32 bits, or when the block after the last usable one cannot be named in 64 bits; a release build wraps both. Each setter sets its own value and no other, so the last call of each counts (num_parts takes at least 128); new starts with zero limits, a random disk GUID, 128 entries of 128 bytes, and from_header with the values of the header.",
  "all builder settings, block sizes and builds", "settings are six 32- or 64-bit numbers",
  "src/header/builder.rs: new, from_header, build, all setters")
p("C87", "What replacing the table gives",
  "On a device that works, update_partitions panics when id 0 is in the table; without permission to change the count it reports PartitionCountWouldChange when the table has more entries than slots (and when there are fewer than 128 slots), and changes nothing; otherwise it installs the table, then rebuilds the headers: count the larger of 128 and the number of entries, backup at the last block of the device, disk GUID that of the disk object, usable range and errors as in C86. On a header error the table is already replaced and the headers are not. The device is not written.",
  "all disks with a header, tables, configurations, device contents below 2^64 bytes", "tables and devices are unbounded",
  "src/lib.rs: update_partitions, init_headers")
p("C88", "What a write leaves on the device",
  "After a successful write_inplace the device content is the old one with these writes done in order, and nothing else: for each used partition in order of id, its entry in the next slot of the primary array and in the same slot of the backup array; zeros from the slot after the last used one to the end of each array; the backup header in its block with the checksum of its array as it is at that moment; the primary header in its block likewise. The slots are those of the headers as rebuilt, wherever they lie, so this also says what happens when the regions overlap each other or the data. When the write fails for any reason, the content is the old one with a prefix of these writes, the last perhaps in part. On a device that works, the write succeeds when both arrays and both headers lie on the device and there are enough slots. (Arrays end below 2^64 and are shorter than 2^63 bytes.)",
  "all disks, headers, tables, device contents and fault sequences", "contents, layouts and fault sequences are unbounded",
  "src/lib.rs: write_inplace; src/header/mod.rs: write_primary, write_backup, file_write_header; src/partition.rs: write_to_device, write_zero_entries_to_device")
p("C89", "Growing the partition array keeps the data of the partitions",
  "On a disk laid out by this library (arrays next to their headers), when add_partition, add_partition_at or update_partitions succeeds and changes the number of slots so that the array takes more blocks than before, and write_inplace then succeeds, every byte of every used partition is unchanged.",
  "all such disks, tables, device contents", "tables and contents are unbounded",
  "src/lib.rs: add_partition, add_partition_at, update_partitions, init_headers, write_inplace; src/header/builder.rs: build")
p("C90", "What each call leaves alone",
  "Whatever a call returns, also when it fails or panics: block size, only_valid_headers, readonly_backup and change_partition_count never change, nor whether writing syncs; writable changes only in update_disk_device, the disk GUID only in update_guid. write_inplace, update_guid, update_disk_device and device_mut leave the table alone; remove_partition, remove_partition_by_guid, take_partitions, update_guid, update_disk_device and device_mut leave both headers alone; every call but write_inplace and the two that give access to the device leaves the content of the device alone. Over a history writable and GUID are those of the last such call.",
  "all disks, calls with any arguments, histories, fault sequences", "histories are unbounded",
  "src/lib.rs: all methods of GptDisk")
p("C91", "Every outcome of write_inplace",
  "On a device without I/O errors that can hold a given number of bytes, write_inplace has one plan of writes and one result for it, and the outcome is: the writes are done in order up to the first that does not fit the device, of which the part that fits is done and WriteZero is returned; if all fit, the result. The plan is empty with ReadOnly on a read-only disk, ToSmallForBackup on a device below three blocks, the error of the builder when the primary header cannot be made, and a panic without any header, when the builder panics, or (debug, backup written) when the last usable block is 2^64-1. With more used partitions than slots the plan is the entries that have slots, and the result is OverflowPartitionCount. Otherwise the plan begins with both arrays (C88); if both headers are in the same block nothing more is written and the result is WritingToWrongLba; if the byte offset of the backup header does not fit 64 bits, likewise with Overflow; otherwise the backup header and the primary header follow, and the result is success. As long as the arrays of the headers made end below 2^64 and are shorter than 2^63 bytes one of these cases applies.",
  "all disks, headers, tables, device contents and capacities", "contents, layouts and capacities are unbounded",
  "src/lib.rs: write_inplace; src/header/builder.rs: build; src/header/mod.rs: write_primary, write_backup, file_write_header; src/partition.rs: write_to_device, write_zero_entries_to_device")
p("C92", "Every outcome of find_free_sectors",
  "For every header and table, whether the partitions are apart, overlap, lie outside the usable blocks, have their last block before their first, or not: call boundaries the block before the first usable, the block after the last usable, and the first and the last block of every used partition. find_free_sectors gives, in order, non-empty sections at least one block apart, and a block is in a section exactly when it is no boundary and the number of boundaries below it is odd. In debug builds it panics exactly when the first usable block is 0, the last usable is 2^64-1, or two boundaries are 0 or two are 2^64-1; in release builds each two boundaries 0 put a section (1, 2^64-1) in front and each two boundaries 2^64-1 a section (0, 2^64-1) at the end. Without a header it panics.",
  "all disks, headers and tables, both build modes", "tables and headers are unbounded",
  "src/lib.rs: find_free_sectors")
p("C93", "Every outcome of add_partition and add_partition_at on any table",
  "For every header and table (C76 and C77 suppose the partitions apart and within the usable blocks) and every alignment. add_partition_at: length or id 0 panics; a used id is refused; then if find_free_sectors panics (C92) so does the call; if no section of C92 begins at or before the first block asked for and has as many blocks as asked for, NotEnoughSpace; in debug builds first + length of 2^64 or more panics; otherwise the entry is put as in C76. add_partition: size 0 panics, a panic of find_free_sectors is passed on, alignment 0 panics if there is a section and gives NotEnoughSpace if not; otherwise the sections are tried in order, each with the distance off from its first block to the next aligned one: in debug builds off + n of 2^64 or more panics (n the blocks asked for), a section with fewer than (off + n) mod 2^64 blocks is skipped, the first other one is taken, the entry begins at its first block + off modulo 2^64, with the smallest free id (if all 2^32-1 ids are taken: panic in debug, id 0 in release); if all are skipped NotEnoughSpace. Each outcome excludes the others when the device works. Without a header both panic, except that a used id is refused.",
  "all disks, headers, tables, arguments, both build modes", "tables, headers and arguments are unbounded",
  "src/lib.rs: add_partition, add_partition_at, find_free_sectors, find_next_partition_id")
p("C94", "What the accessors show determines what follows",
  "Two disk objects on the same device with the same configuration for which primary_header, backup_header, header, partitions, guid and logical_block_size show the same return the same from every call of every history, whatever the outcome of each, and end with the same device content, configuration and accessors. So a clone can take the place of the original (its stored header errors are only approximately copied), and so can the disk with_disk_device makes for the same device.",
  "all disks, histories of calls, arguments, fault sequences", "histories are unbounded",
  "src/lib.rs: Clone for GptDisk, with_disk_device, all methods of GptDisk; src/header/mod.rs: lossy_clone")
p("C95", "Each setting of a configuration is the last one made",
  "A configuration made by GptConfig::new() and any sequence of setter calls is writable, uses the block size, accepts only valid headers, keeps the backup read-only and may change the partition count exactly as the last call of the corresponding setter says, and, where there was none: not writable, 512 bytes, no, no, no. A disk opened or created with a configuration has that configuration.",
  "all sequences of setter calls, devices, fault sequences", "sequences of calls are unbounded",
  "src/lib.rs:176-330: GptConfig, its setters, open, create, open_from_device, create_from_device")
p("C96", "The position of the stream does not matter",
  "On two devices that differ only in the position the stream was left at, every history of calls on a disk returns the same and leaves disks and devices that differ at most in that position, whichever device operations fail; so do create, write_header, reading a table, writing entries and headers, and all functions on the MBR. Reading headers and open do so on a device that works; when the seek to the header fails the failure is ignored and the header is read from wherever the stream is.",
  "all devices, positions, fault sequences, histories of calls", "positions and histories are unbounded",
  "src/header/mod.rs: file_read_header, find_backup_lba, file_write_header; src/lib.rs; src/mbr.rs; src/partition.rs")
p("C97", "Writing repairs a damaged copy",
  "After a successful write of both copies (names storable without loss): if the primary header is then made invalid, whatever else is damaged outside the backup array and header (which lie at the end of the device), opening and writing the disk brings the primary header and array back to the bytes written first; if instead the backup copy is damaged, opening and writing (readonly_backup off) brings it back. Bytes outside both copies stay as found, so that damage confined to one copy is undone byte for byte. Damage to the primary array under a valid primary header is refused on opening, whatever the backup holds.",
  "all disks, damage of any kind and place, block sizes", "damage is arbitrary; tests/gpt.rs tries one pattern",
  "src/lib.rs: open_from_device, write_inplace; src/header/mod.rs: HeaderBuilder::from_header, build")
p("C98", "A failed write can be tried again",
  "On a disk whose header describes a layout that fits the device: after any number of calls of write_inplace during which the device failed at any calls (some may have succeeded), the table and settings in memory are unchanged, every byte of the device is the old one or the one a successful write puts there, and another write_inplace on the working device succeeds and leaves the same bytes, headers and state in memory as if the first call had succeeded. If the table is changed between the calls, the one that succeeds leaves what it would have left had there been no call before it.",
  "all disks, numbers of attempts, fault schedules, tables, build modes", "the state in memory after a failure at an arbitrary device call is not reached by tests",
  "src/lib.rs: write_inplace; src/header/mod.rs: write_primary, write_backup, HeaderBuilder::from_header, build")
p("C99", "Turning messages off changes nothing",
  "In a build with the feature log or tracing, where the arguments of debug! and trace! are evaluated only if the message is wanted, every call on every disk returns the same and has the same effect as in a build without, where they are always evaluated.",
  "all reachable disks, calls, arguments, both build modes, levels changing from call to call", "tests run in one configuration of features; the arguments that compute something are hidden in macros",
  "src/logging.rs; src/lib.rs: add_partition, add_partition_at")
p("C100", "Short transfers and interruptions do not show",
  "On a device whose read and write transfer any number of bytes at a time (at least one while there are any) and may be interrupted any number of times, every read_exact returns what it returns on a device that transfers everything at once and leaves the same device, and so does every write_all; if a read or write fails, the outcome is a failure after the bytes transferred so far: a prefix of the buffer is on the device.",
  "all devices, buffers, schedules of short, interrupted and failing transfers", "schedules are unbounded; in-memory devices and files transfer everything at once",
  "src/header/mod.rs:199, 328, 435; src/partition.rs:132, 165, 269, 311; src/mbr.rs:148, 237, 254, 256, 377, 388, 401, 412 (callers of std::io::Read::read_exact and Write::write_all)")
p("C101", "Filling a new disk",
  "On a working device with room for a table (under 2^60 bytes), writing a protective MBR, creating a table, adding any list of partitions (sizes not 0, types not the unused one, no alignment) and writing succeed as a program. The partitions lie one behind the other from the first usable block, numbered from 1, each with just enough blocks, its type, flags, name and the GUID drawn; one that does not fit before the last usable block gives NotEnoughSpace and leaves no trace, and one after the 128th gives PartitionCountWouldChange; so every call succeeds iff there are at most 128 requests and their block counts add up to at most the usable blocks. Afterwards the first 512 bytes are the MBR, the bytes between the arrays are as before, and opening gives the disk GUID and the same partitions under the same ids.",
  "all working devices, block sizes, MBRs, configurations, GUIDs, lists of requests", "the documented program is one list of two requests; lists are unbounded",
  "src/lib.rs:35-67", "src/lib.rs:303-323", "src/lib.rs:495-572", "src/lib.rs:865-976", "src/mbr.rs:233-242")
p("C102", "Moving a table to another device",
  "Take any disk of a session as in C67 (backup writable) and put it on another working device of any content with with_disk_device. With at least as many blocks, update_partitions with the table it has succeeds and gives the disk of a session on the new device: same table and disk GUID, backup at the end of the new device, all blocks between the arrays usable, so all that is said about sessions holds again. With fewer blocks it fails, changing nothing, if one array and a header do not fit before the end (ToSmallForBackup below three blocks, else BackupLbaToEarly); otherwise it succeeds although the backup array then reaches the block of the backup header or lies beyond it, since the last usable block is never lowered. Written to a device with at least as many blocks without update_partitions, the table keeps its layout: opening gives the same partitions and disk GUID, the last usable block is the old one, and no byte outside the old metadata areas changes.",
  "all sessions, all working devices below 2^60 bytes of any content, both modes and block sizes", "sessions and contents are unbounded; tests copy one image to one device",
  "src/lib.rs:439-463", "src/lib.rs:794-812", "src/lib.rs:816-838", "src/header/builder.rs:38-58", "src/header/builder.rs:120-176", "src/lib.rs:865-976")
p("C103", "32-bit targets",
  "On a target with a 32-bit usize every call on a disk does exactly what it does on a 64-bit target (same result, same disk and device after it) as long as the array of the header in use has less than 2^31 bytes, and so does every history of such calls; write_header and Partition::write never differ; opening does not differ, whatever the device does, if every valid header on it has less than 2^24 entries, and on a working device if the header that governs has. In an ordinary session (C67) nothing differs. Without the bound: opening on a 32-bit target succeeds exactly when a header governs, its entries have 128 bytes, the array is on the device and the first 128*num_parts mod 2^32 bytes of it, which must be less than 2^31, have the checksum of the header; so an array of 4 GiB is accepted whatever it contains if the checksum stored is 0, where a 64-bit target refuses it.",
  "all disks, calls, histories, device contents and faults, both modes and block sizes", "tests run on the 64-bit host",
  "src/header/mod.rs:166-203", "src/header/mod.rs:413-440", "src/partition.rs:113-167", "src/partition.rs:247-319", "src/lib.rs:853-976")
p("C104", "Which strings are GUIDs and partition types",
  "A string is parsed as the GUID u exactly when it consists of the 32 hexadecimal digits of u in any letter case, or of these in groups of 8-4-4-4-12 with hyphens, or of the latter in braces or after urn:uuid: in lower case; no string spells two GUIDs, and the strings of one form for a GUID are the same up to letter case. Type::from_str returns t exactly for the name of the constant t in any letter case, for the hyphenated strings of GUIDs that convert to t, and for the other strings of its GUID if t has no operating system; every other string is refused. What Display writes for a GUID is its hyphenated string.",
  "every string, every GUID", "infinitely many strings",
  "src/macros.rs:29-48", "src/macros.rs: From<Uuid> for Type", "src/partition_types.rs: Type::from_name")
p("C105", "Power failure with a write cache",
  "If the power fails during an update and the device had stored, in any order, any of the blocks written since the last flush, then opening what is left finds the disk GUID and the old or the new table (or an array has the checksum of another one), or reports the checksum of the array, or reports a header error when one of the headers is torn. If the primary header was stored before or after the change, a lenient open (or any open when the backup header is valid) succeeds exactly when the primary array has the checksum of that version's array. As there is one flush, at the end, the order of the writes is no protection: if the two tables have different checksums, the power failure can leave a disk that differs from the old one in the primary header block only and cannot be opened with any configuration. The blocks outside the two copies of the table are unchanged.",
  "every disk with a sane header, written once and updated to any other table, every subset and order of stored blocks (torn ones included), every configuration of the later open", "exponentially many combinations of stored blocks; no test cuts the power",
  "src/lib.rs:865-976", "src/lib.rs:267-299", "src/header/mod.rs:296-319")
p("C106", "Partition attributes are the UEFI attribute bits",
  "PartitionAttributes::PLATFORM, EFI and BOOTABLE are attribute bits 0, 1 and 2 of UEFI; contains, intersects, the set operations and set act bit by bit; from_bits refuses exactly the words with a bit above 2 and from_bits_truncate drops these bits. Of every partition of an opened disk, bit i of flags is bit i % 8 of byte 48 + i / 8 of its entry; after a successful write the same holds of the slots of both arrays, and every opening of the result answers contains as the partitions written did.",
  "every u64, every two sets of attributes, every content, every table and every write of it", "2^64 words, unboundedly many tables",
  "src/partition.rs:21-31", "src/partition.rs:82 Partition::as_bytes", "src/partition.rs: file_read_partitions")
p("C107", "The codes of the named partition types",
  "Each of the 113 named types is stored on disk as the 16 bytes of the table of codes in Spec/TypeCodes. Type::from_name and from_str accept each name in any letter case and give the operating system and the GUID of the table; whatever else they accept spells a GUID. The entry of a partition of a named type begins with its code; after opening, a partition whose entry begins with a code of the table has the operating system listed and is the type that the name gives, and one whose entry begins with any other 16 bytes has no operating system.",
  "every string, every partition, every content of a device", "unboundedly many strings, 2^128 codes, every content",
  "src/partition_types.rs:28-97", "src/partition_types.rs:106-333", "src/partition.rs:82 Partition::as_bytes", "src/partition.rs: file_read_partitions")
p("C108", "A failing device is never passed over",
  "For every call on a disk (and create, reading a table, writing entries, headers and the MBR) and every state there is a number k of device operations such that: if one of the next k operations of the device fails, the call returns that I/O error; if none does, the call returns and leaves exactly what it would on a device that never fails, whatever would happen after. So a call that returns Ok did all that it does on a working device. Reading a header is the exception (C60).",
  "every state, call and sequence of device failures", "unboundedly many states and failure sequences",
  "src/lib.rs: write_inplace, init_headers, add_partition, update_partitions, create_from_device", "src/header/mod.rs: file_write_header, find_backup_lba, partentry_checksum, write_header", "src/partition.rs: file_read_partitions, write_to_device, write_zero_entries_to_device", "src/mbr.rs: from_disk, overwrite_lba0, update_conservative")
p("C109", "Opening a failing device",
  "Reading a header gives what stands at its block, the I/O error if the read fails, or what stands at the position of the stream if the seek fails. If the two seeks to the headers do not fail and opening succeeds although other operations fail: unless primary_header() reports the I/O error, opening the same device without failures succeeds with the same disk (but backup_header() may report the I/O error instead); if it does report it, the backup header is valid and in use. With only_valid_headers the disk is always that of the device without failures. When a seek to a header fails this is not so: opening can succeed with the wrong header.",
  "every device content, position, configuration and sequence of failures", "unboundedly many contents and failure sequences",
  "src/lib.rs:267-299 open_from_device", "src/header/mod.rs: file_read_header, read_primary_header, read_backup_header, find_backup_lba")
p("C110", "How many device operations a call makes",
  "Whatever the device holds and however its operations turn out: opening makes at most 14 operations and one for each 128 bytes of the device, and exactly 14 and one for each slot of the array when both headers are valid (13 if the array has no slots); creating, adding and replacing the table make at most 3; removing and taking partitions and update_guid none; write_inplace at most 17 and 4 for each partition (11 and 2 with readonly_backup), whatever the size of the array. The functions on headers, entries and the MBR make at most 2 to 9.",
  "every device, configuration, disk, call and sequence of failures", "a hostile image can announce 2^32 slots of any size; the bound is for all contents",
  "src/lib.rs:267-299 open_from_device", "src/lib.rs:814-836 init_headers", "src/lib.rs:853-976 write_inplace", "src/partition.rs:247-319 file_read_partitions", "src/header/mod.rs: read_primary_header, read_backup_header, find_backup_lba, partentry_checksum, write_header", "src/mbr.rs")
p("C111", "Every table can be made, in any order",
  "Take a table created on a working device and used as documented (the sessions of C67). At any time the tables the session can go on to are exactly those whose ids are from 1 to 128 and whose used entries are not empty, lie between the two partition arrays and do not overlap. Calls of add_partition_at for entries with free ids and free extents that do not meet each other all succeed, return the ids asked for, and leave the table holding what it held plus exactly these entries; the order of the calls does not matter, and nothing but the table changes. So from any session, take_partitions followed by one add_partition_at for each entry of such a table of used entries, in any order, gives that table; it can be written, and opening the device again gives these entries in order of id. Removing entries one by one leaves exactly the entries with other ids, whatever the order.",
  "for all sessions, both block sizes, all tables, all orders of the calls", "The tests add a few partitions in one order. That no admissible table is out of reach, and that no order of the calls is refused or gives another table, is a statement about all tables and all permutations.",
  "src/lib.rs: GptDisk::add_partition_at", "src/lib.rs: GptDisk::remove_partition", "src/lib.rs: GptDisk::take_partitions", "src/lib.rs: GptDisk::update_partitions", "src/lib.rs: GptDisk::write_inplace")
p("C112", "Changes across the checksum field of a header",
  "Whether a change of a valid header block that leaves the signature alone is noticed depends only on the difference (byte-wise exclusive or), not on the header. Of all changes confined to any four consecutive bytes, also those that touch the checksum field and bytes beside it, exactly five differences are not noticed: bytes 17-20 by C3 C4 5D 68, 45 4D E6 B8 or 86 89 BB D0, bytes 18-21 by 72 A6 01 0A, bytes 19-22 by BF 36 9C C9. All others make reading the header fail; so do all changes of four consecutive bytes up to the end of the checksum field. The five leave every valid header valid, and it is read with the same fields except checksum and reserved.",
  "every valid header, every position and content of the change", "2^32 changes at each position of each header; the five exceptions are not found by trying",
  "src/header/mod.rs:321-374 file_read_header", "src/header/mod.rs:403-411 calculate_crc32")
p("C113", "A few changed bits are always noticed",
  "Changing one to four bits of a valid header, anywhere in its 92 bytes (checksum field included), makes it invalid and it is refused when read; five bits can pass, on every header. In a partition array, one or two changed bits less than 512 MiB apart, and up to four changed bits within 128 bytes, are never accepted; three changed bits far apart (e.g. at distances 49961 and 91639) pass in an array of any length that has them.",
  "every header and array, every set of bits, every mode and fault schedule", "about 1.2*10^10 sets of four bits for each header; 2^32-1 distances",
  "src/header/mod.rs: file_read_header, calculate_crc32", "src/partition.rs: file_read_partitions (partition table CRC)")
p("C114", "The example program shows what is on the disk",
  "`examples/inspect` takes its first argument (or the sample image) and never asks for write access; the file is left as it is. It ends with status 0 exactly when a valid header governs and its array can be read, and then shows the header at LBA 1 (or an error if that one is not valid) and exactly the used slots; with status 1, a message made of the library's error and nothing shown when the file cannot be opened, neither header is valid, or the array cannot be read; and it panics when entries are not of 128 bytes. After `write_header` on a file it shows the header with the GUID that was given back.",
  "every file content below 2^64 bytes (2^38 in debug builds), every argument list, every file system", "file contents are unbounded",
  "examples/inspect.rs: main, run", "src/lib.rs: GptConfig::open, GptDisk::primary_header, GptDisk::partitions")
p("C115", "Several programs on one disk: the last writer wins, nobody notices",
  "Several disk objects on one disk, each from its own program (own build and configuration, one block size), in any interleaving of ordinary calls and of opening the disk after it was written. No call panics, every `write_inplace` succeeds, and every call and accessor gives exactly what it would give had the program been alone since it made or opened its object. Once somebody wrote, the disk always opens with exactly the used partitions (numbered from 1) and the GUID of the object written last, as it was then: what others wrote is lost. Until then the disk is unchanged, and block 0, the blocks between the arrays and the tail never change.",
  "any number of programs, every interleaving of calls, every content of a working disk below 2^60 bytes", "interleavings are unbounded",
  "src/lib.rs: GptDisk::write_inplace, GptDisk::add_partition, GptConfig::open_from_device")
p("C116", "Disks by the rules of the UEFI specification, whoever made them",
  "Take a disk below 2^60 bytes whose bytes meet the format rules: entries of 128 bytes (less than 4 GiB of them, also fewer than 128), a header by the rules in the second and in the last whole block that point to each other and agree, equal arrays anywhere in front of and behind the usable blocks with the right checksums, used slots with non-empty, disjoint extents in the usable range. It opens under every configuration with its block size, both headers are reported valid, and the table shows exactly the non-empty slots under their position with the stored fields. In a session of ordinary calls, writes and reopenings on it (count not to be changed, `update_partitions` only if there are 128 entries) no call panics, the table stays tidy, block 0, the blocks between the arrays and the tail never change, and at any time writing succeeds and opening gives the used partitions numbered from 1. Whatever is written with the backup included, by such a session or by one of C67, meets the rules again.",
  "every disk content that meets the rules, every session, both block sizes, any number of entries", "the contents and sessions are unbounded; tests use a few images",
  "src/lib.rs: GptConfig::open_from_device, GptDisk::write_inplace, GptDisk::add_partition", "src/header/mod.rs: read_primary_header, read_backup_header")
p("C117", "What the library looks at in a header, and what the specification allows but it refuses",
  "The UEFI specification lets a header be longer than 92 bytes; its checksum covers as many bytes as the size field says. Of the headers by that rule that are longer than 92 bytes (the rest zero) the library takes exactly those with the checksum 0xFFFFFFFF for valid; a disk with two of the others is refused with InvalidCRC32Checksum under every configuration. Conversely the size, the revision, the reserved field, both LBAs and all other fields are not looked at: whatever they hold, exactly one checksum makes the header valid. On a table with fewer than 128 slots nothing can be added without permission to change the count, however many slots are free, and the object stays as it is.",
  "every header content, every size below 2^29, every device content, all arguments", "that the checksums of a header and of its zero extension differ is a property of the polynomial (it is primitive), not of samples",
  "src/header/mod.rs: file_read_header, calculate_crc32, Header::num_parts_would_change", "src/lib.rs: GptConfig::open_from_device, GptDisk::add_partition")
p("C118", "A disk by the rules with one good copy is opened in full and repaired by one write",
  "Take a disk below 2^60 bytes of which one copy (header and array) is by the rules of C116: either the primary one, or the backup one with no valid header in block 1 and a configuration that does not demand two valid headers. It opens, with exactly the non-zero slots of that copy; no ordinary call panics; the table stays tidy. At any time `write_inplace` succeeds and makes both copies by the rules, whatever was in the place of the other one, without changing block 0, the blocks between the arrays or what follows the last whole block; then the disk opens under every configuration, demanding ones included, with the used partitions numbered from 1. If a disk by the rules is damaged anywhere but in the blocks of one copy, and opening takes that copy, the table and the GUID are the very same as before the damage.",
  "every such content, every damage, every configuration, both build modes, every interleaving of ordinary calls, writes and reopenings", "the damage ranges over all contents of all other blocks; tests zero a block or flip bytes",
  "src/lib.rs: GptConfig::open_from_device, GptDisk::write_inplace, GptDisk::header", "src/header/mod.rs: read_primary_header, read_backup_header, HeaderBuilder", "src/partition.rs: file_read_partitions")
p("C119", "Opening a disk while another program writes it",
  "A written disk with its backup in the last block is updated by another program, which may stop for good anywhere, while `open_from_device` runs; each of its calls on the device finds what has been written by then. If opening succeeds, it has found the GUID and either the whole old table or the whole new one, unless the array at some moment differed from the old one but had the same CRC-32. This holds for one update only: the entries are read one by one and the checksum is formed over a second reading, so if the table is replaced by one with as many entries and then put back, opening can succeed with any mixture of the two tables (overlapping partitions included), though every content it looked at was a correct disk. If nobody writes, the model used here gives what the model of all other properties gives.",
  "every written disk, every new table that fits, every speed of the writer relative to the reader, every configuration with the block size of the disk, both build modes; every mixture of two tables of the same length", "the outcome depends on the interleaving of two programs, byte by byte; tests run one program",
  "src/lib.rs: GptConfig::open_from_device, GptDisk::write_inplace", "src/partition.rs: file_read_partitions", "src/header/mod.rs: read_primary_header, read_backup_header, file_read_header")
p("C120", "How much memory the library asks for",
  "Suppose a machine gives buffers of at most L bytes and a larger request aborts the program. If L is at least the length of the device, opening does exactly what it does with memory for everything, whatever is on the device and whatever fails: a hostile header cannot make opening ask for more memory than the device has bytes. A disk that can be opened at all is opened with L bytes exactly if the array it is opened from has at most L. For a disk opened from a device of at most L bytes, or created, with L at least 16384, the same holds for every history of calls as long as no table has more than L/128 partitions. It does not hold for `Header::write_primary`: it asks for as many bytes as the header promises before it looks at the device, so a header read from a device of 1024 bytes can ask for 512 GiB.",
  "every limit, every device and fault script, every history, every header, both build modes", "the amount asked for depends on 64 bits of the header; a test tries a few headers and does not measure the requests",
  "src/partition.rs: file_read_partitions, Partition::as_bytes, write_zero_entries_to_device", "src/header/mod.rs: partentry_checksum, file_write_header, Header::write_primary", "src/lib.rs: GptConfig::open_from_device, GptDisk::write_inplace")
p("C121", "Partition GUIDs stay unique",
  "The UEFI specification wants the unique GUIDs of the partitions of a disk to be different. If those of the table are, they are after every call, whatever it returns, provided the random number used by `add_partition` or `add_partition_at` is not yet in the table and the table given to `update_partitions` has no GUID twice; so they are after every history of such calls. If they are when the disk is written, they are when it is opened again, and then the GUIDs found are exactly those of the used entries written. With unique GUIDs `remove_partition_by_guid` removes exactly the partition that has the GUID, and none with it is left. The library itself does not look: two tables with the same ids and different partitions are both accepted by `update_partitions` or both refused with the same error, so a table with one GUID twice is accepted.",
  "every disk, table, call and history, every written sane disk, both build modes", "the random numbers of a test are different by luck and the tests never compare GUIDs across calls",
  "src/lib.rs: GptDisk::add_partition, GptDisk::add_partition_at, GptDisk::update_partitions, GptDisk::remove_partition_by_guid, GptDisk::remove_partition, GptDisk::write_inplace")
p("C122", "Opening with the wrong block size",
  "The caller says how large a block is; nothing on the disk does. A sane disk with blocks of 512 bytes, at least 56 slots and the backup header in the last block, on which no partition type begins with the bytes of the signature (GUIDs 20494645-4150-5452-...), is refused with InvalidGptSignature when opened with blocks of 4096 bytes: both places looked at are slots of the arrays. A sane disk with blocks of 4096 bytes that takes the whole device is refused in the same way with blocks of 512, if there was no signature at byte 512 before it was written. If there was a table of 512-byte blocks whose array is in the first 4096 bytes, it is still found after the new table was written, with its old partitions and GUID, because the first block is not written.",
  "every sane disk and table, every device position, both build modes", "tests open with the size they wrote with",
  "src/lib.rs: GptConfig::logical_block_size, GptConfig::open_from_device, GptDisk::write_inplace", "src/header/mod.rs: read_primary_header, read_backup_header, find_backup_lba, file_write_header")
p("C123", "Blocks are conserved",
  "On a tidy table the lengths that find_free_sectors reports and the lengths of the partitions in use add up to the number of usable blocks, and there are at most as many free sections as partitions plus one. A successful add_partition (with the partition count left as it is) lowers the sum of the free lengths by exactly the least number of blocks that hold the size asked for; remove_partition raises it by exactly the length of the partition. In a session that creates a table and calls the API, free and used blocks are all blocks of the device but the first one, the two headers and the two arrays. If more than (n - 1) * (u + 1) blocks are free and u partitions are in use, n free blocks in a row exist, and add_partition without alignment succeeds if an id is free.",
  "every tidy table, every size, alignment and id, every session, both build modes", "a sum over all free sections and all partitions of an arbitrary table, after any number of calls",
  "src/lib.rs: GptDisk::find_free_sectors, GptDisk::add_partition, GptDisk::remove_partition")
p("C124", "The first write to a disk with its primary array elsewhere can be interrupted",
  "write_inplace puts the primary array behind the primary header, wherever the array was before. Take a disk by the rules of C116, made by any tool, whose primary array begins behind the blocks in which this library would put it, and the first write of a session on it, backup included, interrupted anywhere with the last write torn. A lenient open then succeeds and finds exactly the table and GUID that the disk had before, or the table and GUID that were to be written. The one exception is a primary header written in part (between bytes 20 and 88) that has the checksum of the new header by chance. After a successful write the array begins in block 2, so later writes do not have this protection (C42, C68); the bytes of the old array stay on the disk.",
  "every such disk, session, fault sequence and torn write, both block sizes and build modes", "all points of interruption for all foreign layouts; tests write to disks the library made",
  "src/lib.rs: GptDisk::write_inplace, GptConfig::open_from_device", "src/header/builder.rs: HeaderBuilder::build")
p("C125", "Another number of slots where the space for them is reserved",
  "Both ends of the usable range leave the blocks for an array with as many slots as the new table asks for (128, or as many as it has entries), as the UEFI specification demands for 128 slots however few there are; backup header in the last block, working device. Then: update_partitions with permission to change the count succeeds; a successful add_partition, add_partition_at or update_partitions that rebuilds the headers gives a layout with the new number of slots, the first usable block of before and the last usable block right before the backup array; on a table with fewer than 128 slots a call that adds a partition either does this or leaves the disk as it was; the following write succeeds, leaves a disk by the rules of C116 with the new number of slots and changes no byte of the old usable range. Without permission no call adds anything to a table of fewer than 128 slots, free as they may be. Every successful write ends the usable range right before the array as it is, so what was reserved there is lost; after that, asking for more slots succeeds but on a device that ends before the end of the longer array no write does.",
  "both build modes, both block sizes, all tables, all numbers of slots before and after with less than 4 GiB of entries, all arguments of the calls, all contents of the device", "Whether growing is safe depends on the usable range that another program wrote and on whether this library wrote the disk in between; tests start from disks of the library, with 128 slots.",
  "src/lib.rs: GptDisk::add_partition, GptDisk::add_partition_at", "src/lib.rs: GptDisk::update_partitions, GptDisk::init_headers, GptDisk::write_inplace", "src/header/mod.rs: Header::num_parts_would_change", "src/header/builder.rs: HeaderBuilder::build")
p("C126", "Sessions with any ids, with or without permission to change the count",
  "A session on a disk by the rules with 128 slots (C116) under a writable configuration, with change_partition_count on or off, of calls with their documented preconditions (add_partition_at into free extents under any id but 0, update_partitions with tidy tables under any ids but 0) and of writing and opening again at any time, that never has more than 128 entries: no call panics, in either build mode; there are always exactly 128 slots, and the used partitions are non-empty, disjoint and inside a usable range clear of both arrays; block 0, everything between the arrays and what follows the last whole block never change; every write succeeds and leaves a disk by the rules with 128 slots; opening it gives the used partitions in order of id, numbered from 1, whatever ids above 128 they had; update_partitions succeeds with exactly the given table.",
  "both build modes, both block sizes, both values of change_partition_count, all disks by the rules with 128 slots below 2^60 bytes, all sessions of any length", "The claim ranges over all histories of calls on all well-formed disks; permission to change the number of slots opens the branch that rebuilds the headers, and ids above the number of slots cannot be written to their own slot, so both need an invariant over histories.",
  "src/lib.rs: GptDisk::add_partition", "src/lib.rs: GptDisk::add_partition_at", "src/lib.rs: GptDisk::update_partitions", "src/lib.rs: GptDisk::init_headers", "src/header/mod.rs: Header::num_parts_would_change", "src/lib.rs: GptDisk::write_inplace")
p("C127", "Disks on a device that has grown",
  "A disk by the rules (C116) is on a device that then grows: more bytes, of any content, follow the old ones. Opening it gives the same partitions, disk GUID and header as before the growth; with only_valid_headers this succeeds if and only if the new last block happens to hold a valid header. Passing its own table to update_partitions then succeeds for a disk with 128 slots (in general: with any table for which space is reserved and permitted), moves the backup to the new last block and the end of the usable range to just before the new backup array; writing succeeds and leaves a disk by the rules that fills the larger device, with every byte of the old usable range as it was, which opens under every configuration with the same partitions, numbered from 1. Without update_partitions, writing succeeds, keeps the old end of the usable range and the old place of the backup, and changes no byte behind the old last block: opening with only_valid_headers fails as before.",
  "both build modes, both block sizes, all disks by the rules below 2^60 bytes, all contents and sizes of the added part (also less than one block), all configurations", "The claim ranges over all disk contents and all ways a device can grow; a test shows one disk at two sizes.",
  "src/lib.rs: GptConfig::open_from_device", "src/lib.rs: GptDisk::update_partitions", "src/lib.rs: GptDisk::init_headers", "src/header/mod.rs: find_backup_lba", "src/header/builder.rs: HeaderBuilder::from_header", "src/lib.rs: GptDisk::write_inplace")
p("C128", "Disks on a device that was cut off",
  "A disk by the rules (C116) is on a device that is then cut off somewhere behind its first usable block. Opening what remains gives the same partitions, disk GUID and header as before, also partitions that lie behind the end; with only_valid_headers this succeeds if and only if the new last block happens to hold a valid header. For a disk with 128 slots: if the usable range and the array behind it still fit before the new last block, passing the table to update_partitions and writing gives a disk by the rules on the smaller device, with every byte of the usable range as it was and the same partitions when opened again. If they do not fit, update_partitions with a table of at most 128 entries still succeeds, but keeps the old end of the usable range and expects the array of the backup behind it; on a device that cannot grow the disk as opened cannot be written; nor can, after update_partitions, any table with a free slot, if that array reaches behind the device. There is one other case: just the last block was cut off. Then every such table is written without an error, but with the backup header over the last block of its own array: the disk still opens, also with only_valid_headers, but once the primary header is lost, opening fails or finds a partition that is really the backup header.",
  "both build modes, both block sizes, all disks by the rules below 2^60 bytes, all places of the cut behind the first usable block, all tables of at most 128 entries without id 0", "The claim ranges over all disk contents and all places of the cut; a test shows one disk cut at one place.",
  "src/lib.rs: GptConfig::open_from_device", "src/lib.rs: GptDisk::update_partitions", "src/lib.rs: GptDisk::init_headers", "src/header/builder.rs: HeaderBuilder::build", "src/lib.rs: GptDisk::write_inplace")
p("C129", "Making a disk fill a larger device can be interrupted",
  "A disk by the rules with 128 slots, on a device that has grown (C127), is opened, given its own table with update_partitions, and written; the write comes to any end. If the primary array was not where this library puts it, or is there and already as the write leaves it, then opening what is left (without only_valid_headers) succeeds, with the same disk GUID and the same partitions, under the ids they had or numbered from 1. The one exception is a header block that was written in part and has the checksum of the new header by chance. The condition on the array holds for every disk that a write of this library made with names that are read as they were written.",
  "both build modes (also different ones for the write and the later opening), both block sizes, all disks by the rules with 128 slots below 2^60 bytes, all sizes and contents of the added part, all failures of the device during the write", "The claim ranges over all disks, all larger devices and all places where a write can stop.",
  "src/lib.rs: GptDisk::update_partitions", "src/lib.rs: GptDisk::write_inplace", "src/lib.rs: GptConfig::open_from_device")
p("C130", "Making a disk fit a smaller device can be interrupted",
  "A disk by the rules with 128 slots is on a device that was cut off, such that the usable range and an array behind it still fit before the new last block (C128). It is opened, given its own table with update_partitions, and written; the write comes to any end. Every byte of the usable range is then as it was. If the primary array was not where this library puts it, or is there and already as the write leaves it, then opening what is left (without only_valid_headers) succeeds, with the same disk GUID and the same partitions, under the ids they had or numbered from 1. The one exception is a header block that was written in part and has the checksum of the new header by chance.",
  "both build modes (also different ones for the write and the later opening), both block sizes, all disks by the rules with 128 slots below 2^60 bytes, all such places to cut the device off, all failures of the device during the write", "The claim ranges over all disks, all smaller devices and all places where a write can stop.",
  "src/lib.rs: GptDisk::update_partitions", "src/lib.rs: GptDisk::write_inplace", "src/lib.rs: GptConfig::open_from_device")
p("C131", "readonly_backup on a device of another size",
  "A disk by the rules with 128 slots, on a device that has grown (C127) or was cut off with space left for an array behind the usable range (C128), is opened with readonly_backup and given its own table with update_partitions. This and the following write succeed; no byte from the first usable block on is written. The header in the second block then ends the usable range before an array at the new end of the device and names the new last block as the place of the backup, where nothing was put: opening gives the same disk GUID and the same partitions, numbered from 1, but with only_valid_headers only if that block happens to hold a valid header. On a grown device all blocks behind the old usable range up to where the new array would begin are reported free, also those of the old backup header and its array, which are then the only copy.",
  "both build modes (also different ones for the write and the later opening), both block sizes, all disks by the rules with 128 slots below 2^60 bytes, all sizes and contents of the changed device, all later configurations with the block size", "The claim ranges over all disks and all sizes of devices.",
  "src/lib.rs: GptDisk::update_partitions", "src/lib.rs: GptDisk::init_headers", "src/lib.rs: GptDisk::write_inplace", "src/lib.rs: GptDisk::find_free_sectors", "src/lib.rs: GptConfig::open_from_device")
p("C132", "What each setting of the configuration decides",
  "Once a disk is open, only_valid_headers decides nothing: every history of calls returns the same and leaves the same disk and device with either setting, also when calls fail or panic. writable decides nothing but what write_inplace does (with C34). Without change_partition_count a call either returns PartitionCountWouldChange and leaves everything as it was, or does exactly what it does with it; a history in which no call is refused goes the same with it. open_from_device uses the block size and only_valid_headers: the other settings change neither the result nor the operations on the device, whatever it holds and however its operations turn out. With only_valid_headers it succeeds exactly where it succeeds without and reports both headers as valid, and finds the same. So after an interrupted write (C124, C129, C130) a strict opening refuses or finds the old or the new table.",
  "all histories of calls, all disks (well-formed or not), all devices with any faults, both build modes, all configurations", "The claims compare two runs for all histories, all contents and all failures of the device.",
  "src/lib.rs: GptConfig", "src/lib.rs: GptConfig::open_from_device", "src/lib.rs: GptDisk::add_partition", "src/lib.rs: GptDisk::add_partition_at", "src/lib.rs: GptDisk::update_partitions", "src/lib.rs: GptDisk::write_inplace")
p("C133", "What readonly_backup decides",
  "Whatever a history of calls without write_inplace does, also when calls fail: the table, the primary header, the disk GUID, the device and the header in use go the same way with readonly_backup as without it. The results are the same, but for one panic: in a debug build, building the backup header panics when the usable range ends at block 2^64-1, and with readonly_backup the call succeeds. On a working device, where a write of both copies succeeds, the write with readonly_backup succeeds too, leaves the same bytes in the primary copy and the same primary header in memory, and keeps every other byte and the backup header.",
  "all histories of calls without write_inplace, all disks (well-formed or not), all devices with any faults, both build modes; for the write all disks with a well-formed header on a working device", "The claims compare two runs for all histories and all failures of the device.",
  "src/lib.rs: GptConfig::readonly_backup", "src/lib.rs: GptDisk::init_headers", "src/lib.rs: GptDisk::add_partition", "src/lib.rs: GptDisk::add_partition_at", "src/lib.rs: GptDisk::update_partitions", "src/lib.rs: GptDisk::write_inplace")
p("C134", "Changes can be taken back",
  "If the number of slots may not change, a successful add_partition or add_partition_at followed by remove_partition of the returned id gives back the whole disk; only an unused entry that was stored under the same id is lost, and the used entries are always the same. In a table without overlaps a used partition that was removed can be added again at its place with its GUID, and the disk is what it was. In a session (a table created on a working device and used as documented) the bytes of the device after a write of both copies depend only on the device at the beginning, the disk GUID and the used entries; so a partition that was added, written, removed and written leaves the bytes that were there before.",
  "all disks with any table and any device for adding, all tables without overlaps for removing, all pairs of sessions on the same device, both build modes", "The claims compare states and devices reached along all possible histories; tests compare a few.",
  "src/lib.rs: GptDisk::add_partition", "src/lib.rs: GptDisk::add_partition_at", "src/lib.rs: GptDisk::remove_partition", "src/lib.rs: GptDisk::write_inplace")
p("C135", "Where a disk GUID set with update_guid shows",
  "While the number of slots may not change and update_partitions is not called, the GUID in memory decides nothing: whatever is called, also write_inplace, the results, headers, table and device are the same for every GUID, and all calls of update_guid can be left out of a history. A successful update_partitions puts the GUID in memory into the primary header and, without readonly_backup, into the backup header. After any history every header in memory has a GUID that was in a header of the disk at the beginning, was that of the disk, or was set with update_guid.",
  "all histories of calls (also failing ones), all GUIDs, all disks (well-formed or not), all devices with any faults, both build modes", "The claims compare runs of all histories for all GUIDs; C43 shows that the expected behaviour of update_guid fails, this says what happens instead.",
  "src/lib.rs: GptDisk::update_guid", "src/lib.rs: GptDisk::update_partitions", "src/lib.rs: GptDisk::init_headers", "src/lib.rs: GptDisk::write_inplace")
p("C136", "The same calls on a larger device",
  "Take two disks made by ordinary use (C67) with the same block size and the same table, the second on a device at least as large. Every ordinary call on the first is ordinary on the second, and unless it fails with NotEnoughSpace on the first it returns the same on the second and leaves the same table. So a whole history of which no call fails for lack of space gives the same results and the same table, every partition in the same blocks, on the larger device; written and opened, both hold the same partitions. Build modes and the other settings may differ.",
  "all pairs of sessions on devices of any two sizes, all histories of ordinary calls that do not run out of space on the smaller device, both build modes on either side", "Relates two runs of every history on devices of every pair of sizes. A placement that depended on the end of the usable range (largest gap, last gap, middle) would pass tests on one device size.",
  "src/lib.rs: GptDisk::add_partition", "src/lib.rs: GptDisk::add_partition_at", "src/lib.rs: GptDisk::find_free_sectors", "src/lib.rs: GptDisk::remove_partition", "src/lib.rs: GptDisk::update_partitions", "src/lib.rs: GptDisk::write_inplace")
p("C137", "Names, types, attributes and GUIDs of partitions decide nothing",
  "Change all names and attributes in any way, all types in any way that keeps used and unused apart, and all partition GUIDs in any one-to-one way, in the table and in the arguments of the calls. Then every call returns the same (up to the change) or fails or panics in the same way, the tables have the same ids in the same blocks, headers in memory differ in checksums at most, and the device is written in the same places, in the same order, with the same lengths. So no name can make a call fail or move a partition.",
  "all changes of labels, all histories of calls (also write_inplace and failing ones), all disks (well-formed or not), all devices with any faults, both build modes", "Relates two runs of every history for every change of labels, including every failure of the device. Tests use a few names and types; a special case for one name, type or attribute would not show.",
  "src/lib.rs: GptDisk::add_partition", "src/lib.rs: GptDisk::add_partition_at", "src/lib.rs: GptDisk::remove_partition_by_guid", "src/lib.rs: GptDisk::update_partitions", "src/lib.rs: GptDisk::write_inplace", "src/partition.rs: Partition::write_to_device", "src/header/mod.rs: Header::file_write_header")
p("C138", "Asking for less, or with more room, never hurts",
  "Take two disks with disjoint partitions in their usable ranges, where every block free on the first is free on the second. If add_partition of at most as many bytes, with an alignment that divides the other one (or none), fails with NotEnoughSpace on the second, then the larger request fails with NotEnoughSpace on the first. If both succeed, the smaller request begins and ends no later. The same for NotEnoughSpace from add_partition_at with fewer blocks and a later first block. Where the same blocks are free, the same request fails for lack of space on both disks or neither and goes to the same blocks. Removing a partition gives such a second disk.",
  "all pairs of disks with disjoint partitions in range (any device, with or without permission to change the count), all sizes, alignments up to 2^63, labels, both build modes on either side", "Relates the outcomes of two different calls on two different disks, for all of them. Tests check single requests; an allocator that handles one size or alignment worse than a harder one passes them.",
  "src/lib.rs: GptDisk::add_partition", "src/lib.rs: GptDisk::add_partition_at", "src/lib.rs: GptDisk::find_free_sectors", "src/lib.rs: GptDisk::remove_partition")
p("C139", "Adding with the calculated alignment",
  "On a table with entries, a partition added with Some(calculate_alignment()) begins at a multiple of that alignment, and calculate_alignment afterwards gives a multiple of it: the same again, unless a used entry was replaced. The alignment never makes the call panic there. On an empty table calculate_alignment returns 0, and adding with Some(0) panics in every build as soon as one block is free, leaving the disk as it was.",
  "all disks with disjoint partitions in range, all sizes and labels, any device, both build modes", "Combines two calls on every table; whether the alignment stays the same depends on all partitions. The panic on the empty table follows from two values that are each documented.",
  "src/lib.rs: GptDisk::calculate_alignment", "src/lib.rs: GptDisk::add_partition")
p("C140", "Adding in a reported section",
  "Every section that find_free_sectors reports can be used: any run of its blocks can be given to add_partition_at under any free id within the slots, with a type other than unused. The call succeeds, the partition holds exactly those blocks, and find_free_sectors afterwards returns the same list with those blocks cut out of that section: what is left of it before and after them, each if not empty. A section used whole is gone from the list.",
  "all disks with disjoint partitions in range, all sections reported and all runs of blocks in them, all ids up to the number of slots (at least 128), both build modes", "Fixes the returned list exactly, for every table and every run of blocks in every section; a test compares one list.",
  "src/lib.rs: GptDisk::find_free_sectors", "src/lib.rs: GptDisk::add_partition_at")
p("C141", "Removing joins the sections",
  "Removing a used partition joins its blocks with the free sections next to it: find_free_sectors afterwards returns a list with one section around the partition, and the list before was the same with the partition's blocks cut out of that section. The other sections stay, in the same order. Removing an entry of unused type, or an id that has no entry, leaves the list as it was. remove_partition_by_guid does the same as remove_partition for the id it returns.",
  "all disks with disjoint partitions in range, all ids and GUIDs, both build modes", "Fixes the list exactly for every table, whatever lies next to the partition: nothing, one section or two.",
  "src/lib.rs: GptDisk::remove_partition", "src/lib.rs: GptDisk::remove_partition_by_guid", "src/lib.rs: GptDisk::find_free_sectors")
p("C142", "The order of independent changes does not matter",
  "Take any list of additions with add_partition_at, removals and at most one update_guid, about different ids, where each addition is for a free id within the slots and for blocks that are free at the beginning, and no two additions share a block. Made in any order, every call returns what it would have returned as the first one, and the disk is the same in the end.",
  "all disks with disjoint partitions in range, all lists of independent changes and all their permutations, both build modes", "Every permutation of every list; the number of orders grows as the factorial of the number of changes.",
  "src/lib.rs: GptDisk::add_partition_at", "src/lib.rs: GptDisk::remove_partition", "src/lib.rs: GptDisk::update_guid")
p("C143", "Only the last write counts",
  "In a session on a writable disk, calls of write_inplace in between change nothing that later calls can tell: the other calls return what they return when those writes are left out, and the table and disk GUID are the same. Two histories that make the same calls except for writes, each ended by write_inplace, leave the same bytes on the device, the same headers and the same table.",
  "all sessions (working device, any block size, any options except changing the partition count), all histories of ordinary calls with writes at any places, both build modes", "Every history with every placement of writes; a stale header or table left by an early write shows only in particular histories.",
  "src/lib.rs: GptDisk::write_inplace", "src/lib.rs: GptDisk::update_partitions", "src/header/builder.rs: HeaderBuilder::build")
p("C144", "Closing a disk and opening it again",
  "In a session, the disk is written, closed and opened again. The new handle shows the same table and disk GUID exactly when every entry is used, the ids are 1 to n, every type is the one listed for its GUID, every name is one that is read back, and the disk GUID is the one in the header. In that case the new handle takes the place of the old one: every later history of ordinary calls, writes included, returns the same on both and leaves the same bytes, table and GUID.",
  "all sessions (working device, any block size, any options except changing the partition count), all histories of ordinary calls after opening, both build modes", "The difference between a handle kept open and one opened anew (headers with other checksums, another backup header in memory) would only show in particular later histories.",
  "src/lib.rs: GptConfig::open_from_device", "src/lib.rs: GptDisk::write_inplace", "src/partition.rs: file_read_partitions")
p("C145", "Table and GUID decide what is on the device",
  "Take two sessions on devices of one length with one block size, in any build modes, after any calls, writes and reopenings. If the used partitions in order of id and the disk GUIDs in the headers are the same, write_inplace leaves the same bytes in the headers and arrays, and on the whole device if both began on the same content and write the backup. Conversely, if two writes leave the same bytes, the disk GUIDs in the headers are the same and the used partitions are shown alike, one by one, when they are read back.",
  "all pairs of sessions (working devices, any block size, any options except changing the partition count), all histories of ordinary calls in them, both build modes", "That no trace of the history is left (old checksums, an old usable range, old entries) concerns all pairs of histories with the same result.",
  "src/lib.rs: GptDisk::write_inplace", "src/header/builder.rs: HeaderBuilder::build", "src/partition.rs: Partition::write_to_device")
p("C146", "Saving and reopening at any places",
  "Two programs make the same calls in a session, and write the disk, or write, close and open it again, wherever they like (reopening where the new handle shows the same table and GUID, see C144). Their calls return the same, they end with the same table and GUID, and once both have written the disk, the same bytes are on the device.",
  "all sessions (working device, any block size, any options except changing the partition count), all lists of ordinary calls, all placements of writes and reopenings in both programs, both build modes", "Every list of calls with every pair of placements of writes and reopenings.",
  "src/lib.rs: GptDisk::write_inplace", "src/lib.rs: GptConfig::open_from_device")
with open("/verif/properties.jsonl", "w") as f:
    for q in P:
        f.write(json.dumps(q, ensure_ascii=False) + "\n")
print(len(P))
