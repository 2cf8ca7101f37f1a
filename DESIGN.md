# Formal model of Quyzi/gpt in Lean 4 — design

## 1. What is modelled

The model lives in `lean/Verif/Model/`, one file per source file, every definition citing the lines it models.

| Lean module | models |
|---|---|
| `Verif/Model/Base.lean` | Rust results, panics, build mode (overflow checks on/off), u32/u64 arithmetic |
| `Verif/Model/Bytes.lean` | little/big-endian integers (`simple_bytes`, `to_le_bytes`) |
| `Verif/Model/Crc32.lean` | `crc::CRC_32_ISO_HDLC` |
| `Verif/Model/Device.lean` | a `DiskDevice` (`Read + Write + Seek`) with fault injection and an operation log |
| `Verif/Model/Uuid.lean` | `uuid::Uuid` fields and string parser, `parse_uuid` |
| `Verif/Model/Utf16.lean` | `str::encode_utf16`, `String::from_utf16_lossy` |
| `Verif/Model/PartitionTypes.lean` | `src/partition_types.rs`, `src/macros.rs` |
| `Verif/Model/Disk.lean` | `src/disk.rs` |
| `Verif/Model/Header.lean` | `src/header/mod.rs`, `src/header/builder.rs` |
| `Verif/Model/Partition.lean` | `src/partition.rs` |
| `Verif/Model/Mbr.lean` | `src/mbr.rs` |
| `Verif/Model/Gpt.lean` | `src/lib.rs` |
| `Verif/Model/Logging.lean` | the functions whose `debug!` arguments compute something, in a build with the feature `log` or `tracing` whose level is off |
| `Verif/Model/Stream.lean` | `read_exact` and `write_all` as loops over `read` and `write` |
| `Verif/Model/Attributes.lean` | `PartitionAttributes` of `src/partition.rs`, with the methods `bitflags` generates |
| `Verif/Model/Narrow.lean` | the functions that convert to `usize`, for a target where it has 32 bits |
| `Verif/Model/File.lean` | the functions that take a path, over a file system that maps path and mode to an I/O error or a device (reading, creating, `write_header`, `Partition::write`) |
| `Verif/Model/Display.lean` | the `Display` implementations, as UTF-8 bytes; the wording of I/O errors is a parameter |
| `Verif/Model/Live.lean` | the reading side (`open_from_device` and what it calls) over a device that other programs change between two calls; each call finds one content, and only reading past the end fails |
| `Verif/Model/Memory.lean` | the functions that ask for a buffer whose length depends on a header, and their callers, on a machine with buffers of at most so many bytes |
| `Verif/Model/Inspect.lean` | `examples/inspect.rs`; what it prints is the values, not their `Debug` text |

Modelling decisions

* **Results and panics.** A Rust computation becomes a function returning `Res ε α = ok a | err e | panic`.
  Stateful code (`&mut self`, `&mut device`) becomes a state transformer that returns the new state *for every
  outcome*, so the state after an `Err` or a panic is visible.
* **Build mode.** Unchecked `+ - *` on `u32`/`u64` panic in debug builds and wrap in release builds. Every function
  that uses them takes `m : Mode`; theorems quantify over it.
* **Integers** are `UInt8/16/32/64`, i.e. exactly the machine domains.
* **Devices** are a byte list, a position, a capacity (`cap`: writes beyond it are short and fail – a fixed-size block
  device has `cap = length`, a growing file a larger one), a list of injected outcomes for the coming I/O calls, and a
  ghost log of the effects. An injected failure of a `write_all` leaves an arbitrary prefix written. Quantifying over
  the fault list is quantifying over every crash point and every torn write; the log gives statements about reordered
  or dropped writes. `read_exact` and `write_all` are one step each; C100 shows that the loops of the standard library over a device
  that cuts transfers short or is interrupted end as such a step does, so nothing is lost by it (except that the log has one write where
  there were several).
* **Randomness** (`Uuid::new_v4`) is an argument.
* **Maps.** `BTreeMap<u32, Partition>` is a key-sorted association list; sortedness is a theorem.

## 2. How each property is proved

Technique letters: **A** algebraic law/round trip, **I** invariant by induction over operations, **R** refinement to a
small spec, **D** decision logic stated outright, **N** the property is false of the code: negation proved with a
witness, plus a `_partial` theorem saying what does hold.

| property | technique | plan |
|---|---|---|
| C01 | A | little/big endian codec lemmas |
| C02, C03, C54 | A | UTF-16 codec by induction over the string; entry = concatenation of fixed-width fields |
| C04, C05 | A, D | header reader reduced to a pure parser of 92 bytes; writer reduced to `patch` of the device bytes |
| C06, C07 | A | fixed-width fields |
| C08, C09 | A | CRC step is linear and injective over GF(2); a 4-byte window acts as an injective 32-bit word |
| C10, C51 | D | 64-bit arithmetic against exact `Nat` arithmetic |
| C11, C12 | D, N | `build` unfolded to `Nat` arithmetic; without overflow checks the array size wraps modulo 2^32; `c11_exact` says for which settings C11 holds, C86 does so for C12 |
| C13, C14 | D, A | as C11; without overflow checks `build` sees the two counts only through their wrapped product (`build_flat`) |
| C15 | D | |
| C16 | N | `max` instead of `min` on `last_usable`; holds for fresh builders and for headers that satisfy it already with an unchanged count |
| C17, C18 | D | sorted boundary list of disjoint intervals pairs up as gaps |
| C19, C20 | D, N | from C17/C18 and the section scan; release builds wrap on alignments above 2^63 (C63); an id beyond the slots can be overwritten; `c19_exact`, `c20_exact` (`Props/Limits`) say just when they hold |
| C21 | D | from C17/C18 and the section scan |
| C22 | N | the end of the extent is not checked |
| C23 | I, N | invariant over histories; `add_partition_at`/`update_partitions`/count changes can break it; `c23_exact_at`, `c23_exact` (`Props/Calls`) say which successful calls keep it |
| C24, C25, C27 | D | |
| C26 | D | from C17/C18 |
| C28 | N | `update_partitions` silently shrinks the count; holds for the other calls; `c28_exact` names the calls that change it |
| C29 | N | the entry is inserted before `init_headers` can fail; holds when the count does not change; `c29_exact`: the table is kept just when the error is not a header error |
| C30, C31, C36–C38, C40 | A, R | `write_inplace` = composition of four `patch`es; reader run on the patched bytes |
| C31 | N too | false after the partition count was grown (C16); `c31_exact`: holds just when the backup header is in the last block, `c37_exact`: re-writing what was opened changes nothing just when every name is `Stable` |
| C32, C33, C41 | I | every device write lands in a metadata region, by a Hoare-style argument over all outcomes |
| C34, C35 | I | C34 by path: two file systems that answer alike when asked as the configuration says give the same outcome |
| C39 | I | `Dev.Frame` for "the content is the log replayed", then the log suffix; by path: `open`, `create` and `read_disk` set the sync function and no call takes it away (C90) |
| C42 | N | no fallback to the backup table when the primary table CRC mismatches; `c68_exact` says exactly which cuts of an update can be opened |
| C43 | N | `write_inplace` takes the GUID from the old header; `c43_exact` |
| C44, C45 | D | |
| C46 | N | `assert_eq!(part_size, 128)`; `c46_exact` says exactly which contents panic, in each build (also the `i32` counter of empty slots), with a 256 GiB witness |
| C47 | N | `first_usable - 1`, `last_usable + 1`, … on unvalidated header fields; partial under explicit bounds |
| C48 | D | what becomes of a stored header error is stated apart (`HandedOut`, `HeaderGiven`): the kind stays, the words of the library's own errors go |
| C49, C50 | D, N | finite table by kernel evaluation lifted to all GUIDs/strings; non-hyphenated known GUIDs lose the OS label |
| C52, C53 | I, A | |
| C55 | N | `init_headers` counts entries instead of the highest id; `c55_exact` names the calls that overfill the table |
| C56, C57 | D | `c56_exact`: the offset is taken modulo 2^64 in release builds |
| C58 | I | `c58_exact`: id 0 just in release builds with 2^32 - 1 slots, all used |
| C59 | R | abstract map; `c59_exact` names the calls that depart from it |
| C60 | N | the `seek` result is ignored; `c60_exact` says which header is returned |
| C61, C62 | D | |
| C63 | N | release builds wrap; `c63_exact` says just when |
| C64 | N | slots are compacted on write; holds just when ids are 1..n (`c64_exact`) |
| C65 | I | `Cuts` (every torn prefix of the write plan is realised by a fault list) and `Follows` (nothing else occurs) |
| C66 | I | every reachable state has a header with entries of 128 bytes (induction over `Reach`); each call then by inspection of every arithmetic step |
| C67 | I | invariant over sessions combining the single-call theorems; `Dev.Frame` carries "the device works" through every call |
| C68 | I | partial: up to CRC-32 collisions of the primary array (`Spec.Collision`); `c68_fails` constructs one. Every byte the second write leaves is old or new (`Follows`), so a torn header is the old or the new one by its own checksum; `c68_exact`: which cuts can be opened |
| C69 | R | both readers are rewritten to functions of the content (`readHeaderAt`, `fileReadPartitions_nil`) and compared with `openFromDevice_nil` |
| C70 | R | invariant of the bit-serial register: its polynomial is congruent to the dividend read so far (`poly_crcUpdate`), then uniqueness of the remainder modulo a monic polynomial (Mathlib) |
| C71 | A | the bytes are compared with a list of numbers taken from the specification |
| C72 | R | two runs on devices that agree from block 1 on give the same (`M.Twin`); the MBR writers by C52, `write_inplace` by C32 |
| C73 | D | the printed GUID, digit by digit, through the hyphenated parser |
| C74 | D | the fields are split off from the right: a number or GUID contains no tab, so the last label ends uniquely; the name comes first |
| C75 | D | errors of different kinds start differently (`tag`, a fixed number of bytes); within a kind the payload is what remains |
| C76 | R | an inductive table of outcomes (`Spec.AddAt`, `Spec.Insert`) over free blocks; the loop is evaluated, its sections are related to free extents (`Sections`); `c76_determined`: the table admits one outcome unless headers are rebuilt |
| C77 | R | likewise (`Spec.Add`); first fitting section (`first_or_none`), lowest start by order of the sections, id by C24; `c77_determined` |
| C78 | R | `M.Errs P x`: every error `x` can return satisfies `P`, composed along each function; states by the `_any` lemmas |
| C79 | D | the chain of comparisons is a lookup in the list of names |
| C80 | R | `M.Unless`: debug panics or equals release; closed under sequencing, so it is shown function by function and, for histories, by induction on the list of calls |
| C81 | I | the table of C67 bounds the blocks; `bytes_start`/`bytes_len` do not overflow below 2^60 bytes; disjoint blocks give disjoint bytes |
| C82 | D | the outcome table of C77 with the header of C67 put in |
| C83 | R | C82's entry, then write and reopen of C67 |
| C84 | R | an inductive table of outcomes (`Spec.ArrayRead`, `Spec.Opened`) over the bytes; the reading loop is evaluated by induction (`readEntries_runs`); `c84_any` drops the bound on the device |
| C85 | R | `c57_write_header` fixes the header, C84 opens it; the slot by C56; `c85_stale`: CRC-32 detects a burst of four bytes (C08) |
| C86 | R | an inductive table of outcomes (`Spec.Built`, `Spec.Makes`), shown to admit one outcome; `build` meets it (release arithmetic by the builder with a flattened size); setters by induction on the calls (`Spec.Last`) |
| C87 | R | likewise (`Spec.Rebuilt`, `Spec.Updated`); the builder filled in from the header in use, C86 for both headers |
| C88 | R | a separate description of the writes (`Spec.Writes`) and of their effect byte by byte (`Spec.overlay`); the run follows a plan of writes (`Follows`, C61) and the plan meets the description, for any headers the builder gives (C86) |
| C89 | R | C76, C77 and C87 for the new headers, C88 for the content; false as stated: `c89_fails`: the 129th `add_partition` on a device of 300 blocks; `c89_exact` says when a partition keeps its data |
| C90 | I | a relation between the states before and after (`Spec.LeavesAlone`), kept by every step of every call (`M.Pres`); induction over the history |
| C91 | R | the plan and its result are given case by case (`Spec.WritePlan`), what a device of limited size does with a plan by recursion over it (`Spec.carried`, `Spec.endOf`); each step of the write runs its part of the plan (`Runs`), sequencing composes (`Runs.bind`, `Runs.stop`); the header blocks of the specification are unique (`headerBlock_unique`) |
| C92 | R | boundaries (`Spec.bounds`) and the sections between them (`Spec.Gaps`: membership by parity of the number of boundaries below) do not mention sorting or pairs; sections are determined by the boundaries (`gaps_unique`), the pairs of any sorted list of even length are the sections (`gapsOf_gaps`, induction by pairs), 64-bit arithmetic wraps only in pairs 0,0 and max,max (`freeChunks_all`) |
| C93 | R | as C76/C77 with the sections of C92 in place of free extents (`Spec.AddAtAny`, `Spec.AddAny`); induction over the sections with those already skipped (`addLoop_any`), debug sections end below 2^64 by counting boundaries (`freeSectors_below`); the outcomes exclude each other (`c93_determined`, `c93_at_determined`), so result and state are characterized by an equivalence (`c93_exact`, `c93_at_exact`) |
| C94 | R | bisimulation: `Spec.Alike` is kept by every primitive the calls are made of (`Both`, closed under sequencing), hence by every call (`both_step`) and by induction by every history |
| C95 | I | induction on the setter calls (`Spec.Last`: the last call of a kind); the results of open and create by inversion |
| C96 | R | bisimulation up to the position: programs that seek first agree from there on (`Loose.seek`), sequencing (`Par.bind`), the calls by `Sim` (shared with C94), histories by induction |
| C97 | A | the header in use after opening, whichever copy it is, rebuilds to the headers written first (`rebuiltP`); the bytes of a complete write (`finalByte`) do not depend on the old content of the structures; the refusal from C84 |
| C98 | I | invariant over attempts (`Tried`): bytes old or final (`write_bytes`), the header in memory rebuilds to the same headers (`rebuiltP_idem`); with changes of the table the bytes outside the structures are old (`TriedAny`) |
| C99 | R N | `M.Milder` (one program does what the other does or refuses where it panics) through both loops; histories by induction; false as stated: `c99_fails`, id 129 at block 2^64-1 of a created disk, debug build |
| C100 | R I | strong induction on bytes left plus schedule; a transfer of `t` bytes followed by the one-step call is the one-step call (`readExact_later`, `writeAll_later`) |
| C101 | I R | C82 for each request with the invariant `RowTo` (the table is a row of numbered neighbours), then C67 write and reopen; `Packs` (what each call returns and the entries made) has one solution (`c101_determined`) |
| C102 | R D | C87 gives the headers for the new device (`moved_update`); for a larger one they are those of a table created there and filled by one call, so the disk is in a session (`c102_larger`) |
| C103 | R D | the functions with `as usize`, `try_into` to `usize` and `vec!` are modelled a second time (`Model/Narrow`) and shown equal to the first where the length fits (`Handy`); the acceptance criterion follows the proof of C84 |
| C104 | R D | the strings are described by their characters (`Digits`, `Hyphenated`, `Braced`, `Urn`, `SameText`), the parser is shown to accept just these by induction over the digits |
| C105 | R D | each block is as some interruption leaves it (`Scattered`), so the results of C65 about one interruption are applied block by block; a torn header block is invalid or one of the two versions, as in C66; the witness of `c105_order` is built from two interruptions with `c65_all` |
| C106 | A D | `bitflags` modelled method by method on `UInt64`; bits compared with the bytes of the entry by induction over `leVal` |
| C107 | A D | table of codes written as numbers, byte order of the disk; its rows compared with those of the model by kernel evaluation (finite data), everything else by C01, C45, C49, C50, C104 |
| C108 | A D | relation between runs with different failures to come (`Honest`), closed under sequencing; each primitive counts one operation (none for an empty buffer); witness that reading a header is not honest |
| C109 | R D | the operations of the two header reads numbered 0-10, the outcome of each read as a function of the failures; the table by C108; witness of the ignored seek by kernel evaluation |
| C110 | R D | operations counted by the outcomes used up; a bound per function closed under sequencing, induction over the slots with the position of the stream; exact count for success |
| C111 | R D | induction over the list of calls with C76 for each and the session invariant of C67; tables with the same members are equal, which gives independence of the order; exactness with `update_partitions` |
| C112 | A | the check is linear in the difference; for each of the six positions a table of 32 words that undoes it on single bits is checked by kernel evaluation, which gives all differences mapped to zero |
| C113 | R D | the powers of x modulo the polynomial: primitive by the prime factors of 2^32-1 (`minimalPeriod_crcBit`), no four below x^1024 add up to zero (`Lemmas/Pairs`: all pairs evaluated by the kernel, the tables are checked data), shifted by injectivity of `crcBit` |
| C114 | R | `c84_outcome`, `c44_selected`, `c85_header` and `c69_content` carried through `inspect` (`Model/Inspect`) |
| C115 | I | invariant over interleavings: each object is `Sound` for the shared content, and equals, but for the content of its device, the object alone (`apart_step`); `open_written` for the last writer |
| C116 | R, I | rules stated on the bytes (`Spec.Uefi`); `steady_open`: such bytes give the invariant `Steady` (as `Sound`, any count and usable range); `c116_written`: what is written over a sane layout meets them |
| C117 | A | every non-zero register is a power of x (`exists_xpow`, counting), so zeros at the end change it (`crc32_zeros`) |
| C118 | R | `open_copy` (selection, array of the chosen copy), then the invariant `Steady` of C116 and `c116_written`; a copy depends only on its own bytes (`UefiCopy.transfer`) |
| C119 | R | `Model/Live.lean`: the reading side over a device that changes between calls; `open_ok` says which call found what; `torn_header` and the order of writing (C65) for one update; `live_opens` for mixtures; `c119_still` by a simulation, call by call |
| C120 | R D | `Model/Memory.lean`: the functions that ask for a buffer whose length comes from a header, with a limit; shown equal to the first model where the array fits; for opening, the entries were read one by one before the buffer is asked for, so the array lies on the device (`fileReadPartitionsWithin_eq`); histories by the invariant `FitsIn` |
| C121 | R D | `Distinct` (no GUID twice) kept by every `Op`, by cases on what the call did to the table (`Inserted`, `initHeaders_same`); after writing and opening, the list of GUIDs is that of the used entries (`distinct_numbered`); removal with C25; that `update_partitions` looks at ids only is shown by comparing two runs |
| C122 | R D | where the other block size looks for the headers, computed: slot 24 of the primary array and a slot of the backup array, or the first block and the padding of the backup header; the bytes there from what was written (`Regions`, `write_front`); a slot begins with a type GUID or with zeros; the exception by reading the old header and array from bytes that were not written |
| C123 | R D | counting: the free blocks as a finite set, its size from the sections (disjoint intervals) and from the usable range without the partitions (`sections_card`, `intervals_card`); an insertion or removal changes the set by one interval (`total_extent`, from C77 and C26); the number of sections from their right neighbours; room by the pigeonhole principle; sessions by C67 and C82 |
| C124 | R D | if the header block is the old one, the damage theorem of C118 for the primary copy (C32 for the array, which is outside the blocks written); otherwise the arrays and the backup are complete (C42, C65) and the header is the new one, or invalid, or torn; torn headers by C08 up to byte 20 and from byte 88 on, a collision in between |
| C125 | R D | where `k'` blocks are reserved the old header with the new count is itself sane, so the rebuilt headers are those of a sane disk and C32, C62, C116 apply; `c125_stuck` compares the length that C88 gives with the capacity |
| C126 | R D | Invariant `Held` over sessions: `Steady` of C116 for 128 slots with any ids but 0 and at most 128 entries; calls that rebuild the headers through `initHeaders_sane`; writing and opening through `write_nil`, `open_written`, `c116_written`. Not for other numbers of slots: C89, C125 |
| C127 | R D | `c127_opens` compares the reads on both devices (`slice_append_left`, `valid_congr`, `tableAt_congr`); `stretch_init` computes the rebuilt headers for the new last block; then C125 (`c125_write`) and `open_written`; `c127_plain` from C32. Opening is for disks whose primary is valid (part of the rules) |
| C128 | R D | `c128_opens` is `front_opens` for devices that agree up to the cut; `c128_fits` is `refit` (C127, C125); `shrunk_built` inverts `c87_update` and `c86_build` for the headers; `c128_stuck` and `c128_plain` from `image_run`: the final length would exceed the capacity. `c128_overlap` from `image_run`, `c84_succeeds` and `c84_any`. The failing and the overlapping writes are for devices that cannot grow and `readonly_backup` off |
| C129 | R D | `cut_head` (taken out of C124: C65, `torn_foreign`, C42) leaves three cases; with the old header `front_opens` applies, since `c65_only` and C32 show that the array the old header points to has not changed; `c129_written` from the regions of C30 and `tableBytes_iff` (C37) |
| C130 | R D | `moved_cut` (the common part of C129 and C130) for a device that is the same up to its end; the new headers from `c127_update`; `c130_data` from C32; the example is the disk of another tool of C124, cut off |
| C131 | R D | `keep_refit`: the headers from `c127_update`, the write from C62 and C33; `keep_opens` with `open_written` and `open_headers`, since the last block is as it was; `c131_free` from C18 |
| C132 | R D | `M.Blind`: a program that does the same before and after a change of settings, closed under sequencing; `M.Asks` for the permission; induction on the history; `open_both` and `openRest_config` for opening |
| C133 | R D | `Kept` is preserved by every call (`M.Near`); `second_build` from C86: where the primary header can be built, so can the backup but for the one overflow; C33 and `Written` for the write |
| C134 | R D | outcomes of C93 and C76 (`Insert`, `Put`), maps with the same entries are equal; the invariant of C67 (`Sound`) fixes the header up to the GUID and the bytes outside the two copies, `Written` the bytes inside |
| C135 | R D | the calls are `Blind` to the GUID (as in C132); `GuidsIn` is an invariant of every call; `initHeaders_any`, `build_keeps` for the rebuilt headers |
| C136 | R D | lock-step of two sessions (`c136_call`), free extents of the smaller range are free in the larger and the same below (`Reaches`), then the determinacy of C76/C77; induction over the history |
| C137 | R D | relational: `M.Abreast` (two programs side by side from related states), shown for every device operation and call; devices related by size, position, failures and places written (`DevLike`) |
| C138 | R D | from the exact outcomes of C76/C77: the place of the larger request is one the smaller could take, and the smaller takes the first |
| C139 | R D | exactness of `calculate_alignment` (C27) before and after, outcomes of C77; both alignments are powers of two that divide each other |
| C140 | R D | the list is determined by the free blocks (`runs_unique`: maximal runs in order); outcome of `add_partition_at` from C76 |
| C141 | R D | free blocks after a removal (C26) and the uniqueness of the list of runs (C140) |
| C142 | R D | each change has an exact effect (C76); two independent changes commute and keep the conditions of the others; induction over permutations |
| C143 | R D | in a session the primary header is always as HeaderBuilder makes it, but for the checksums; two runs in step, one written more often, related by that; every write covers the bytes of every earlier one |
| C144 | R D | the relation of C143 holds between the two handles; every call keeps it, a write on both leaves equal devices; the table read back equals the written one iff numbering and decoding are the identity on it |
| C145 | R D | in a session the header written is a function of block size, length and disk GUID (C143); the bytes written are a function of it and the used partitions; conversely opening the same content shows the same |
| C146 | R D | the relation of C143 between a program and the one that never saves is kept by every call made on both, by a write on one side and by a reopening on one side |

## 3. Trusted base

* Lean's kernel, and the axioms `propext`, `Classical.choice`, `Quot.sound`. No other axiom, no `sorry`, no
  `native_decide`, no `bv_decide`. `AXIOMS.md` (written by `tools/gen_axioms.py` from `#print axioms`) lists the axioms
  of every theorem named in `MANIFEST.json`.
* Closed examples and counterexamples are evaluated with `decide +kernel`, i.e. by the kernel itself.
* The reading of the Rust source into the model (no mechanical extraction).
* External crates, modelled from their documented behaviour: `uuid` 1.5, `crc` 3.0 (CRC-32/ISO-HDLC), `simple-bytes`
  0.2, `std` (`BTreeMap`, `sort_unstable`, `encode_utf16`, `from_utf16_lossy`, `read_exact`, `write_all`).
* A 64-bit target (`usize = u64`); C103 compares it with a 32-bit one (`Model/Narrow`).

Not modelled: `Debug` output, the receivers of log messages (the default
no-logging build is modelled, in which the macro arguments *are* evaluated; C99 compares it with builds in which they are not),
memory exhaustion (but the panic for a vector of 2^63 bytes or more is modelled, `vecOf`; C120 looks at limited memory for buffers of
bytes, `Model/Memory`), concurrent modification of the device by others (but C115 and C119 look at it).

## 4. Words used in the statements

The statements use these words, which are defined without the model's functions (apart from the data types).

| word | meaning | where |
|---|---|---|
| `ValidAt`, `HeaderAt`, `HeaderRead`, `EntryAt`, `SlotFull` | what bytes at an offset mean, by number of byte | `Spec/Header`, `Spec/Entry` |
| `JustEnough`, `Layout`, `Room` | number of blocks for a number of bytes; order of the regions of a disk | `Spec/Layout`, `Props/Builder` |
| `Covers`, `Used`, `Free`, `FreeExtent`, `Range`, `Tidy` | blocks of partitions, free blocks, tables without overlaps | `Spec/Alloc` |
| `Taken`, `NextId`, `Put`, `Insert`, `AddAt`, `Add` | ids in use; the tables of outcomes of C76, C77 | `Props/Alloc`, `Props/Outcomes` |
| `SaneHeader`, `SaneDisk`, `InPrimary`, `InBackup` | a layout that fits the device; the bytes of the metadata | `Spec/Sane` |
| `SameEntry`, `Numbered`, `ArrayHolds`, `storedName`, `Clean` | what comes back of entries and names | `Spec/Stored`, `Spec/Name`, `Props/Rewrite` |
| `bitAt`, `Flipped`, `FewBits` | bit n of a string; exactly these bits differ; one or two bits anywhere, or up to four within 128 bytes | `Props/FewBits` |
| `HandedOut`, `HeaderGiven` | a header error with its kind and without the library's words; a header as it is | `Props/Table` |
| `SameLetter`, `SameText` | letters and texts that differ only in case | `Spec/Text` |
| `typeCodes`, `codeBytes` | the 16 bytes on disk, name and system of each named type | `Spec/TypeCodes` |
| `Map`, `MapStep`, `MapRun`, `LaxStep` | a table as a function from ids, and what each call does to it | `Spec/Map` |
| `Reach`, `From`, `Session`, `InSession` | states reachable by any calls, by restricted calls, in ordinary use | `Props/Reach`, `Props/Disjoint`, `Props/Ordinary` |
| `Modest`, `ModestCall`, `ModestImage`, `Calm` | numbers that stay clear of the ends of the 64-bit range | `Lemmas/Panic`, `Props/Panic` |
| `writeOrder`, `CutAt`, `CutUpdate`, `Collision` | contents an interrupted write leaves; equal checksums of different arrays | `Props/Crash`, `Props/Mixed` |
| `Untouched`, `lastGiven`, `grantsWrite` | devices in histories | `Props/Device` |
| `IsCrc32` | CRC-32 as a remainder of polynomials over GF(2) | `Props/Crc` |
| `MayFail`, `Early`, `LayoutError`, `WriteError`, `ReadError` | errors of each call | `Props/Errors` |
| `Governs`, `emptySlots`, `TooEmpty` | the header that counts when opening; empty slots counted by opening and when their counter overflows | `Props/Opens`, `Props/Crashes` |
| `Inspected` | outcomes of the example program | `Props/Paths` |
| `Handy`, `cutLength` | arrays of less than 2^31 bytes; the number of bytes of an array that a 32-bit target looks at | `Props/Narrow` |
| `Scattered`, `PowerCut`, `FoundAfter` | contents a power failure leaves when a cache stores blocks in any order | `Props/Power` |
| `onlyBackup`, `Stable` | a device with the backup copy only; names that are encoded, read and encoded again to the same units | `Props/Exact` |
| `attr`, `diskAttr` | attribute bits of a word and of an entry on disk | `Props/Attributes` |
| `Digits`, `Hyphenated`, `Braced`, `Urn` | strings of GUIDs | `Props/Spelling` |
| `Works`, `Honest`, `Fails` | which operations of the device fail; functions that report every failure | `Props/Honest`, `Props/OpenFaults` |
| `AtMost`, `opCost` | number of device operations | `Props/Cost` |
| `unnoticed`, `DiffersBy` | the five differences of a header that the checksum does not show | `Props/Straddle` |
| `TableFor`, `Entry.Fits`, `Entry.Apart` | tables for a device of N blocks with arrays of k blocks | `Props/AnyOrder` |
| `World`, `Shared`, `Agree` | several disk objects on one disk | `Props/Shared` |
| `LongHeader`, `withChecksum` | headers longer than 92 bytes; a content with another checksum | `Props/Long` |
| `InUse`, `UefiHeader`, `Uefi`, `OnUefi` | slots in use, headers and whole disks by the rules of the UEFI specification, on the bytes; sessions on such disks | `Props/Uefi` |
| `UefiCopy`, `OpensFrom`, `OnCopy` | one copy by those rules; the copy that opening takes; sessions on disks with one good copy | `Props/Halves` |
| `Live`, `Update`, `Racing` | a device with a content of its own at each call; an update of a written disk; a reader beside its writer | `Model/Live`, `Props/Race` |
| `ArrayWithin`, `FitsIn` | arrays of at most so many bytes; disks in memory whose header has such an array of entries of 128 bytes | `Props/Memory` |
| `Distinct`, `BringsNew` | tables in which no partition GUID is there twice; calls whose random GUID is not in the table, or whose table is `Distinct` | `Props/Unique` |
| `NotSignature` | GUIDs whose first eight bytes, as stored, are not `EFI PART` | `Props/WrongSize` |
| `blocks`, `total` | the number of blocks of a partition; the sum of the lengths in a list of sections | `Props/Conserve` |
| `FirstWrite` | the first write of a session on a disk by the rules whose primary array lies elsewhere, interrupted in any way | `Props/FirstWrite` |
| `Reserve`, `Resized` | a usable range that leaves room for the array the new table asks for; the disk with that many slots | `Props/Reserve` |
| `Within128`, `Roaming`, `OnRoaming` | calls after which there are at most 128 entries; sessions of such calls; the setting | `Props/Permit` |
| `Enlarged`, `Stretch` | a working device with the bytes of another and more behind them; a disk with a sane header on a device with space behind the usable range for the slots of a table | `Props/Enlarge` |
| `CutOff`, `Shrunk`, `Unfit` | a working device with only the first bytes of another; a disk with a sane header on a device that ends in the usable range or the array behind it; the headers such a disk is given by `update_partitions` | `Props/Shrink` |
| `GrowCut`, `ArrayStays` | a write that comes to any end after a disk was given its own table on a larger device; the old primary array is elsewhere, or as the write leaves it | `Props/GrowCut` |
| `ShrinkCut` | a disk on a device that was cut off behind the space for a backup array is made to fit it, and the write comes to any end | `Props/ShrinkCut` |
| `withValid`, `withWritable`, `permitted`, `underConfig` | the same disk under another setting | `Props/Decides` |
| `outcomes` | what the calls of a history return, in order | `Props/Decides` |
| `Kept`, `keeping`, `SameBut` | the same disk with `readonly_backup`; the same result but for one panic | `Props/Keeps` |
| `Without` | the disk without the entry under an id | `Props/Undo` |
| `withGuid`, `Replaces`, `SetsGuid`, `GuidsIn` | the disk with another GUID in memory; calls that rebuild the headers or set the GUID; where the GUIDs of a disk come from | `Props/NewGuid` |
| `Relabel`, `DevLike`, `HdrLike`, `DiskLike`, `OpLike`, `ValLike`, `Both`, `shape` | a change of labels; devices, headers, disks, calls, results that are the same up to it; both succeed or both fail alike; where a write went and its length | `Props/Labels` |
| `Ready`, `MoreRoom`, `Coarser` | a disk C77 specifies `add_partition` for; every free block of one disk is free on the other; an alignment that demands no more | `Props/Less` |
| `Runs`, `cutOut` | a list of the maximal runs of a set of blocks, in order; what is left of a section when blocks are taken out of it | `Props/Sector` |
| `Change`, `op`, `key`, `Takes`, `Indep`, `Fits`, `answer`, `after` | an addition, a removal or a new disk GUID, its call, what it is about, the blocks it takes; two such are about different things and share no block; it can be made now; what it returns and makes of a disk | `Props/Indep` |
| `noWrite`, `outcomesBut` | a call is not `write_inplace`; what the calls of a history other than writes return | `Props/LastWrite` |
| `ShownAlike` | two entries that are shown alike when they are read back | `Props/Canonical` |
| `Course` | a program makes given calls and gets given results, with writes and reopenings (showing the same table and GUID) anywhere between | `Props/Course` |
| `OrdinaryAll`, `Reaches` | every call of a history is ordinary (C67) in its state; the usable range begins at the same block and ends no earlier | `Props/Larger` |

## 5. What was found in the code

Each item is a theorem about the model (a witness), beside a theorem saying what does hold.

* `add_partition_at` compares only the start and the length with a free section, so an extent can run into the next
  partition or past `last_usable` (`c22_fails`, `c22_fails_range`, `c23_fails`).
* `HeaderBuilder::build` keeps the larger of the old and the computed `last_usable`: after growing the count or shrinking
  the disk the backup array overlaps (`c16_fails`, `c16_fails_shrunk`). Growing the count also moves `first_usable`
  behind existing partitions (`c23_fails_growth`).
* `num_parts * part_size` wraps in release builds (`c11_fails`, `c12_fails`).
* Headers are sized by the number of entries, not the highest id: a table can be accepted that cannot be written
  (`c55_fails`).
* With all slots in use `add_partition` takes the next id without looking, and overwrites a partition
  (`c19_overwrites`); with 2^32-1 entries the id wraps to 0 (`c58_fails`).
* An alignment above 2^63 wraps in release builds (`c19_fails`, `c20_fails`, `c63_fails`) and panics in debug builds
  (`c47_fails_align`).
* `calculate_alignment` returns 0 for an empty table, and `add_partition` with an alignment of 0 panics in every build
  (`c139_empty`).
* A failed header rebuild leaves the new entry in memory (`c29_fails`, `c59_fails`); `update_partitions` shrinks the
  count without permission (`c28_fails`).
* The array is overwritten before the headers, and opening does not fall back to the backup array when the primary
  array's checksum is wrong, so an interrupted update makes the disk unopenable (`c42_fails`, `c42_window`).
* There is one flush, at the end of the write. With a cache that stores blocks in any order, the order of the writes protects nothing: a
  power failure can leave the new primary header alone, and the disk cannot be opened although its backup is intact (`c105_order`).
* Nothing guards against two programs on one disk: the second to write destroys the table of the first and is told that all is well
  (`c115_last`, `c115_calls`, with an example).
* `Header::write_primary` and `write_backup` ask for a buffer of `num_parts * part_size` bytes before looking at the device: a header read
  from a tiny device can ask for 512 GiB (`c120_header`). Opening does not have this flaw (`c120_open`).
* Nothing checks that partition GUIDs are unique: `update_partitions` accepts a table with one GUID twice (`c121_unchecked`), and
  `remove_partition_by_guid` then removes the first only.
* A new table of 4096-byte blocks does not erase an old one of 512-byte blocks: with at most 24 slots the old one is still found when the
  disk is opened with blocks of 512 bytes (`c122_stale`).
* A table of fewer than 128 slots accepts no new partition without permission to change the count, even if slots are free (`c125_refused`),
  and a plain write of such a disk takes the space that the specification reserves for 128 slots at the end (`c125_lost`): after it, growing
  succeeds in memory and the write fails (`c125_stuck`). Growing first and writing then is fine (`c125_small`, `c125_write`).
* On an enlarged disk the backup header is written where nobody looks for it (`c31_fails`).
* The reserved field is not compared with zero. Since the checksum field is in the middle of what it covers, five differences of four
  bytes across its end are not noticed, on any header (`c112_unnoticed`, `c112_exact`).
* The checksum of a header is computed over 92 bytes, whatever its size field says: longer headers, which the specification allows, are
  refused (`c117_long`, `c117_open`). The size, the revision and the block in which a header says it is are not looked at (`c117_blind`).
  Tables with fewer than 128 slots cannot be added to (`c117_few`).
* Three changed bits of a partition array of the usual size (128 entries) can pass unnoticed, e.g. at distances 49961 and 91639
  (`c113_three`); five bits of a header can (`c113_five`). These are limits of CRC-32, not of the library.
* `update_guid` never reaches the device without `update_partitions` (`c43_fails`).
* An entry size other than 128 panics on opening (`c46_fails`); `first_usable = 0` panics in debug builds (`c47_fails`).
* In debug builds without `log`/`tracing` an overflow in the argument of a `debug!` panics before the check that would refuse the call
  (`c99_fails`).
* The result of the seek before reading a header is ignored (`c60_fails`): opening can take the backup header for the primary, even with
  `only_valid_headers` (`c109_seek`).
* The position of an entry is a plain addition and wraps in release builds (`c56_fails`).
* Names with NUL are stored whole and read back cut (`c37_fails`); ids are not preserved by writing (`c64_fails`).
* GUIDs without hyphens lose the operating system (`c50_guid_os_fails`); seven systems cannot be named
  (`c79_unnamed`).
* On a 32-bit target the checksum of an array covers its length modulo 2^32: an array of 4 GiB is accepted whatever it holds
  (`c103_blind`).
* `PartitionAttributes` names bits 0–2 only: `from_bits` refuses, and `from_bits_truncate` strips, the bits 48–63 that partition types
  use, e.g. read-only or hidden (`c106_known`).
* The entries are read one by one, then the array is read again for its checksum (src/partition.rs:264-318): if other programs replace the
  table and put it back meanwhile, opening succeeds with a mixture (`c119_mixed`). The checksum of the bytes the entries came from is never
  formed.
* After a device has grown, `write` alone keeps the backup header in the old last block, where opening does not look
  for it: such a disk cannot be opened with `only_valid_headers`. `update_partitions` with the disk's own table
  repairs this (C127).
* A device that was cut off cannot be repaired with `update_partitions` (C128): it succeeds, but `build` takes the larger of the old and the possible end of the usable range (src/header/builder.rs:143-149), so the array of the backup is expected behind the end of the device and every later write fails, although `update_partitions` reported success. If just one block was cut off, the write succeeds too, but puts the backup header over the last slots of the backup array (`c128_overlap`).
* With `readonly_backup` on a device that has grown, `update_partitions` and a write leave a header that points to a backup that is not there, and hand out the blocks of the one valid backup as free space (C131; src/lib.rs:814-836 moves the backup LBA and the end of the usable range whether or not the backup may be written). With `only_valid_headers` the disk cannot be opened afterwards.

## 6. Testing the model

`Verif/Tests/Repo.lean` runs every test of the repository (tests/*.rs and the `#[cfg(test)]` modules, with the disk image made by `fdisk`)
on the model, in both builds, and compares with what the test asserts. These are tests, evaluated by `#guard`; no proof depends on them.

## 7. Testing the theorems

Definitions of the model are edited in a copy outside this directory (wrong bound, missed case, swapped argument, dropped
update), everything is rebuilt, and the theorems of the claims the edit makes false must fail. `seeded/LOG.jsonl` has one
line per attempt. A claim whose theorems survive is tightened, and the line says which theorem was.
