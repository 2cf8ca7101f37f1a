# Axioms per theorem

Generated by `tools/gen_axioms.py` from `#print axioms`.

| property | theorem | axioms |
|---|---|---|
| C01 | `Gpt.c01_guid_bytes` | propext, Quot.sound |
| C01 | `Gpt.c01_parse_write` | propext, Classical.choice, Quot.sound |
| C01 | `Gpt.c01_write_parse` | propext, Classical.choice, Quot.sound |
| C01 | `Gpt.c01_short` | propext, Quot.sound |
| C02 | `Gpt.c02_entry_round_trip` | propext, Classical.choice, Quot.sound |
| C02 | `Gpt.c02_entry_layout` | propext, Classical.choice, Quot.sound |
| C03 | `Gpt.c03_name_truncation` | propext, Classical.choice, Quot.sound |
| C03 | `Gpt.c03_name_prefix` | propext, Classical.choice, Quot.sound |
| C04 | `Gpt.c04_write_read` | propext, Classical.choice, Quot.sound |
| C04 | `Gpt.c04_primary_backup` | propext, Quot.sound |
| C05 | `Gpt.c05_read_header` | propext, Classical.choice, Quot.sound |
| C05 | `Gpt.c05_accepts` | propext, Classical.choice, Quot.sound |
| C05 | `Gpt.c05_primary_backup` | propext, Classical.choice, Quot.sound |
| C06 | `Gpt.c06_accepts` | propext, Classical.choice, Quot.sound |
| C06 | `Gpt.c06_write_read` | propext, Classical.choice, Quot.sound |
| C06 | `Gpt.c06_read_write` | propext, Classical.choice, Quot.sound |
| C06 | `Gpt.c06_set_partition` | propext, Classical.choice, Quot.sound |
| C07 | `Gpt.c07_accepts` | propext, Quot.sound |
| C07 | `Gpt.c07_read_write` | propext, Classical.choice, Quot.sound |
| C07 | `Gpt.c07_write_read` | propext, Classical.choice, Quot.sound |
| C07 | `Gpt.c07_layout` | propext, Classical.choice, Quot.sound |
| C08 | `Gpt.c08_corruption` | propext, Classical.choice, Quot.sound |
| C08 | `Gpt.c08_read_fails` | propext, Classical.choice, Quot.sound |
| C09 | `Gpt.c09_table` | propext, Classical.choice, Quot.sound |
| C09 | `Gpt.c09_never_accepted` | propext, Classical.choice, Quot.sound |
| C10 | `Gpt.c10_sectors_len` | propext, Quot.sound |
| C10 | `Gpt.c10_bytes_len` | propext, Quot.sound |
| C10 | `Gpt.c10_bytes_start` | propext, Quot.sound |
| C10 | `Gpt.c10_no_panic` | propext, Quot.sound |
| C11 | `Gpt.c11_fails` | propext, Quot.sound |
| C11 | `Gpt.c11_partial` | propext, Classical.choice, Quot.sound |
| C11 | `Gpt.c11_exact` | propext, Classical.choice, Quot.sound |
| C12 | `Gpt.c12_fails` | propext, Classical.choice, Quot.sound |
| C12 | `Gpt.c12_partial` | propext, Classical.choice, Quot.sound |
| C12 | `Gpt.c12_panic` | propext, Classical.choice, Quot.sound |
| C13 | `Gpt.c13_mirror` | propext, Classical.choice, Quot.sound |
| C14 | `Gpt.c14_stable` | propext, Classical.choice, Quot.sound |
| C15 | `Gpt.c15_location` | propext, Quot.sound |
| C15 | `Gpt.c15_refusal` | propext, Quot.sound |
| C15 | `Gpt.c15_content` | propext |
| C16 | `Gpt.c16_fails` | propext, Classical.choice, Quot.sound |
| C16 | `Gpt.c16_fails_shrunk` | propext |
| C16 | `Gpt.c16_partial` | propext, Classical.choice, Quot.sound |
| C16 | `Gpt.c16_rebuilt_partial` | propext, Classical.choice, Quot.sound |
| C17 | `Gpt.c17_only_free` | propext, Classical.choice, Quot.sound |
| C17 | `Gpt.c17_overlap_fails` | propext |
| C18 | `Gpt.c18_all_free` | propext, Classical.choice, Quot.sound |
| C19 | `Gpt.c19_partial` | propext, Classical.choice, Quot.sound |
| C19 | `Gpt.c19_fails` | propext, Classical.choice, Quot.sound |
| C19 | `Gpt.c19_exact` | propext, Classical.choice, Quot.sound |
| C19 | `Gpt.c19_overwrites` | propext, Classical.choice, Quot.sound |
| C20 | `Gpt.c20_partial` | propext, Classical.choice, Quot.sound |
| C20 | `Gpt.c20_fails` | propext, Quot.sound |
| C20 | `Gpt.c20_exact` | propext, Classical.choice, Quot.sound |
| C21 | `Gpt.c21_complete` | propext, Classical.choice, Quot.sound |
| C21 | `Gpt.c21_sound` | propext, Classical.choice, Quot.sound |
| C22 | `Gpt.c22_fails` | propext, Quot.sound |
| C22 | `Gpt.c22_fails_range` | propext |
| C22 | `Gpt.c22_partial` | propext, Classical.choice, Quot.sound |
| C22 | `Gpt.c22_used_id` | propext, Classical.choice, Quot.sound |
| C22 | `Gpt.c22_accepts` | propext, Classical.choice, Quot.sound |
| C23 | `Gpt.c23_exact_at` | propext, Classical.choice, Quot.sound |
| C23 | `Gpt.c23_exact` | propext, Classical.choice, Quot.sound |
| C23 | `Gpt.c23_partial` | propext, Classical.choice, Quot.sound |
| C23 | `Gpt.c23_fails` | propext, Classical.choice, Quot.sound |
| C23 | `Gpt.c23_fails_growth` | propext, Classical.choice, Quot.sound |
| C24 | `Gpt.c24_next_id` | propext, Classical.choice, Quot.sound |
| C24 | `Gpt.c24_not_zero` | propext, Classical.choice, Quot.sound |
| C25 | `Gpt.c25_remove` | propext, Classical.choice, Quot.sound |
| C25 | `Gpt.c25_remove_order` | propext |
| C25 | `Gpt.c25_remove_by_guid` | propext, Quot.sound |
| C26 | `Gpt.c26_remove_frees` | propext, Classical.choice, Quot.sound |
| C27 | `Gpt.c27_alignment` | propext, Classical.choice, Quot.sound |
| C28 | `Gpt.c28_exact` | propext, Classical.choice, Quot.sound |
| C28 | `Gpt.c28_fails` | propext, Classical.choice, Quot.sound |
| C28 | `Gpt.c28_partial` | propext, Classical.choice, Quot.sound |
| C28 | `Gpt.c28_refused` | propext, Classical.choice, Quot.sound |
| C28 | `Gpt.c28_update_refused` | propext, Classical.choice, Quot.sound |
| C29 | `Gpt.c29_exact` | propext, Classical.choice, Quot.sound |
| C29 | `Gpt.c29_fails` | propext, Classical.choice, Quot.sound |
| C29 | `Gpt.c29_fails_update` | propext |
| C29 | `Gpt.c29_partial` | propext, Classical.choice, Quot.sound |
| C29 | `Gpt.c29_add_partial` | propext, Classical.choice, Quot.sound |
| C30 | `Gpt.c30_write_open` | propext, Classical.choice, Quot.sound |
| C30 | `Gpt.c30_write_returns` | propext, Classical.choice, Quot.sound |
| C30 | `Gpt.c30_backup_valid` | propext, Classical.choice, Quot.sound |
| C31 | `Gpt.c31_exact` | propext, Classical.choice, Quot.sound |
| C31 | `Gpt.c31_partial` | propext, Classical.choice, Quot.sound |
| C31 | `Gpt.c31_fails` | propext, Classical.choice, Quot.sound |
| C32 | `Gpt.c32_confined` | propext, Classical.choice, Quot.sound |
| C32 | `Gpt.c32_user_blocks` | propext, Classical.choice, Quot.sound |
| C33 | `Gpt.c33_readonly_backup` | propext, Classical.choice, Quot.sound |
| C33 | `Gpt.c33_memory` | propext, Classical.choice, Quot.sound |
| C34 | `Gpt.c34_refused` | propext, Classical.choice, Quot.sound |
| C34 | `Gpt.c34_only` | propext, Classical.choice, Quot.sound |
| C34 | `Gpt.c34_history` | propext, Classical.choice, Quot.sound |
| C34 | `Gpt.c34_paths` | propext, Quot.sound |
| C35 | `Gpt.c35_call` | propext, Classical.choice, Quot.sound |
| C35 | `Gpt.c35_open_create` | propext, Quot.sound |
| C35 | `Gpt.c35_history` | propext, Classical.choice, Quot.sound |
| C36 | `Gpt.c36_bytes` | propext, Classical.choice, Quot.sound |
| C36 | `Gpt.c36_idempotent` | propext, Classical.choice, Quot.sound |
| C36 | `Gpt.c36_faults` | propext, Classical.choice, Quot.sound |
| C37 | `Gpt.c37_exact` | propext, Classical.choice, Quot.sound |
| C37 | `Gpt.c37_partial` | propext, Classical.choice, Quot.sound |
| C37 | `Gpt.c37_fails` | propext, Classical.choice, Quot.sound |
| C38 | `Gpt.c38_erased` | propext, Classical.choice, Quot.sound |
| C39 | `Gpt.c39_path` | propext, Classical.choice, Quot.sound |
| C39 | `Gpt.c39_flushed` | propext, Classical.choice, Quot.sound |
| C40 | `Gpt.c40_memory` | propext, Classical.choice, Quot.sound |
| C40 | `Gpt.c40_read_back` | propext, Classical.choice, Quot.sound |
| C41 | `Gpt.c41_order` | propext, Classical.choice, Quot.sound |
| C42 | `Gpt.c42_window` | propext, Classical.choice, Quot.sound |
| C42 | `Gpt.c42_old_partial` | propext, Classical.choice, Quot.sound |
| C42 | `Gpt.c42_new_partial` | propext, Classical.choice, Quot.sound |
| C42 | `Gpt.c42_fails` | propext, Classical.choice, Quot.sound |
| C43 | `Gpt.c43_fails` | propext, Classical.choice, Quot.sound |
| C43 | `Gpt.c43_partial` | propext, Classical.choice, Quot.sound |
| C43 | `Gpt.c43_exact` | propext, Classical.choice, Quot.sound |
| C44 | `Gpt.c44_refused` | propext, Classical.choice, Quot.sound |
| C44 | `Gpt.c44_selected` | propext, Classical.choice, Quot.sound |
| C45 | `Gpt.c45_reflects` | propext, Classical.choice, Quot.sound |
| C46 | `Gpt.c46_exact` | propext, Classical.choice, Quot.sound |
| C46 | `Gpt.c46_fails` | propext, Classical.choice, Quot.sound |
| C46 | `Gpt.c46_partial` | propext, Classical.choice, Quot.sound |
| C47 | `Gpt.c47_release` | propext, Classical.choice, Quot.sound |
| C47 | `Gpt.c47_partial` | propext, Classical.choice, Quot.sound |
| C47 | `Gpt.c47_fails` | propext, Classical.choice, Quot.sound |
| C47 | `Gpt.c47_fails_align` | propext, Classical.choice, Quot.sound |
| C48 | `Gpt.c48_with_disk_device` | propext |
| C48 | `Gpt.c48_update_disk_device` | propext |
| C48 | `Gpt.c48_clone` | propext |
| C48 | `Gpt.c48_errors` | propext |
| C48 | `Gpt.c48_header` | propext |
| C49 | `Gpt.c49_guid_kept` | propext |
| C49 | `Gpt.c49_known` | propext, Quot.sound |
| C49 | `Gpt.c49_unknown` | propext, Quot.sound |
| C49 | `Gpt.c49_distinct` | propext, Quot.sound |
| C49 | `Gpt.c49_unused` | propext, Quot.sound |
| C50 | `Gpt.c50_name` | propext, Classical.choice, Quot.sound |
| C50 | `Gpt.c50_guid` | propext, Quot.sound |
| C50 | `Gpt.c50_guid_os_fails` | propext |
| C50 | `Gpt.c50_hyphenated_partial` | propext, Classical.choice, Quot.sound |
| C50 | `Gpt.c50_other_forms` | propext, Quot.sound |
| C50 | `Gpt.c50_rejects` | propext, Classical.choice, Quot.sound |
| C50 | `Gpt.c50_total` | none |
| C51 | `Gpt.c51_try_from` | propext, Quot.sound |
| C51 | `Gpt.c51_inverse` | propext |
| C51 | `Gpt.c51_agree` | none |
| C51 | `Gpt.c51_no_panic` | propext |
| C52 | `Gpt.c52_confined_bootcode` | propext, Classical.choice, Quot.sound |
| C52 | `Gpt.c52_confined_disk_signature` | propext, Classical.choice, Quot.sound |
| C52 | `Gpt.c52_write_bootcode` | propext, Quot.sound |
| C52 | `Gpt.c52_write_disk_signature` | propext, Quot.sound |
| C52 | `Gpt.c52_confined_overwrite` | propext, Classical.choice, Quot.sound |
| C52 | `Gpt.c52_overwrite` | propext, Quot.sound |
| C52 | `Gpt.c52_confined_conservative` | propext, Classical.choice, Quot.sound |
| C52 | `Gpt.c52_conservative` | propext, Classical.choice, Quot.sound |
| C53 | `Gpt.c53_content` | propext |
| C53 | `Gpt.c53_from_disk` | propext, Quot.sound |
| C53 | `Gpt.c53_from_disk_exact` | propext, Classical.choice, Quot.sound |
| C53 | `Gpt.c53_read_helpers` | propext, Quot.sound |
| C53 | `Gpt.c53_read_back` | propext, Classical.choice, Quot.sound |
| C54 | `Gpt.c54_utf16_round_trip` | propext, Classical.choice, Quot.sound |
| C54 | `Gpt.c54_encode_char` | propext, Classical.choice, Quot.sound |
| C55 | `Gpt.c55_exact` | propext, Classical.choice, Quot.sound |
| C55 | `Gpt.c55_partial` | propext, Classical.choice, Quot.sound |
| C55 | `Gpt.c55_fails` | propext, Classical.choice, Quot.sound |
| C55 | `Gpt.c55_claim_fails` | propext, Classical.choice, Quot.sound |
| C56 | `Gpt.c56_exact` | propext, Classical.choice, Quot.sound |
| C56 | `Gpt.c56_path_partial` | propext, Classical.choice, Quot.sound |
| C56 | `Gpt.c56_fails` | propext, Classical.choice, Quot.sound |
| C56 | `Gpt.c56_entry_partial` | propext, Classical.choice, Quot.sound |
| C56 | `Gpt.c56_zero_partial` | propext, Classical.choice, Quot.sound |
| C56 | `Gpt.c56_entry_torn` | propext, Classical.choice, Quot.sound |
| C56 | `Gpt.c56_zero_torn` | propext, Classical.choice, Quot.sound |
| C56 | `Gpt.c56_succeeds` | propext, Classical.choice, Quot.sound |
| C56 | `Gpt.c56_overflow` | propext, Classical.choice, Quot.sound |
| C56 | `Gpt.c56_capacity` | propext, Quot.sound |
| C56 | `Gpt.c56_sum_debug` | propext, Classical.choice, Quot.sound |
| C56 | `Gpt.c56_read_back` | propext, Classical.choice, Quot.sound |
| C57 | `Gpt.c57_path` | propext, Classical.choice, Quot.sound |
| C57 | `Gpt.c57_write_header` | propext, Classical.choice, Quot.sound |
| C57 | `Gpt.c57_confined` | propext, Classical.choice, Quot.sound |
| C57 | `Gpt.c57_succeeds` | propext, Classical.choice, Quot.sound |
| C58 | `Gpt.c58_exact` | propext, Classical.choice, Quot.sound |
| C58 | `Gpt.c58_debug` | propext, Classical.choice, Quot.sound |
| C58 | `Gpt.c58_partial` | propext, Classical.choice, Quot.sound |
| C58 | `Gpt.c58_fails` | propext, Classical.choice, Quot.sound |
| C59 | `Gpt.c59_exact` | propext, Classical.choice, Quot.sound |
| C59 | `Gpt.c59_lax_partial` | propext, Classical.choice, Quot.sound |
| C59 | `Gpt.c59_partial` | propext, Classical.choice, Quot.sound |
| C59 | `Gpt.c59_fails` | propext, Classical.choice, Quot.sound |
| C60 | `Gpt.c60_fails` | propext, Classical.choice, Quot.sound |
| C60 | `Gpt.c60_partial` | propext, Classical.choice, Quot.sound |
| C60 | `Gpt.c60_exact` | propext, Classical.choice, Quot.sound |
| C60 | `Gpt.c60_somewhere_partial` | propext, Classical.choice, Quot.sound |
| C61 | `Gpt.c61_when` | propext, Classical.choice, Quot.sound |
| C61 | `Gpt.c61_created` | propext, Classical.choice, Quot.sound |
| C61 | `Gpt.c61_write_open` | propext, Classical.choice, Quot.sound |
| C62 | `Gpt.c62_write_succeeds` | propext, Classical.choice, Quot.sound |
| C62 | `Gpt.c62_conditions` | propext, Classical.choice, Quot.sound |
| C63 | `Gpt.c63_fails` | propext, Quot.sound |
| C63 | `Gpt.c63_partial` | propext, Classical.choice, Quot.sound |
| C63 | `Gpt.c63_exact` | propext, Classical.choice, Quot.sound |
| C64 | `Gpt.c64_exact` | propext, Classical.choice, Quot.sound |
| C64 | `Gpt.c64_fails` | propext, Classical.choice, Quot.sound |
| C64 | `Gpt.c64_partial` | propext, Classical.choice, Quot.sound |
| C65 | `Gpt.c65_only` | propext, Classical.choice, Quot.sound |
| C65 | `Gpt.c65_all` | propext, Classical.choice, Quot.sound |
| C66 | `Gpt.c66_release` | propext, Classical.choice, Quot.sound |
| C66 | `Gpt.c66_debug` | propext, Classical.choice, Quot.sound |
| C66 | `Gpt.c66_debug_fails` | propext, Classical.choice, Quot.sound |
| C67 | `Gpt.c67_header` | propext, Classical.choice, Quot.sound |
| C67 | `Gpt.c67_no_panic` | propext, Classical.choice, Quot.sound |
| C67 | `Gpt.c67_table` | propext, Classical.choice, Quot.sound |
| C67 | `Gpt.c67_data` | propext, Classical.choice, Quot.sound |
| C67 | `Gpt.c67_write_open` | propext, Classical.choice, Quot.sound |
| C67 | `Gpt.c67_recover` | propext, Classical.choice, Quot.sound |
| C67 | `Gpt.c67_crash` | propext, Classical.choice, Quot.sound |
| C68 | `Gpt.c68_partial` | propext, Classical.choice, Quot.sound |
| C68 | `Gpt.c68_outcomes` | propext, Classical.choice, Quot.sound |
| C68 | `Gpt.c68_exact` | propext, Classical.choice, Quot.sound |
| C68 | `Gpt.c68_fails` | propext, Classical.choice, Quot.sound |
| C69 | `Gpt.c69_header` | propext, Classical.choice, Quot.sound |
| C69 | `Gpt.c69_steps` | propext, Quot.sound |
| C69 | `Gpt.c69_paths` | propext, Quot.sound |
| C69 | `Gpt.c69_content` | propext, Quot.sound |
| C70 | `Gpt.c70_crc32` | propext, Classical.choice, Quot.sound |
| C70 | `Gpt.c70_check_value` | propext, Classical.choice, Quot.sound |
| C70 | `Gpt.c70_residue` | propext, Quot.sound |
| C71 | `Gpt.c71_layout` | propext |
| C71 | `Gpt.c71_records` | propext, Quot.sound |
| C72 | `Gpt.c72_block0` | propext, Classical.choice, Quot.sound |
| C72 | `Gpt.c72_mbr_writers` | propext, Classical.choice, Quot.sound |
| C72 | `Gpt.c72_written` | propext, Classical.choice, Quot.sound |
| C72 | `Gpt.c72_write_inplace` | propext, Classical.choice, Quot.sound |
| C73 | `Gpt.c73_read_back` | propext, Classical.choice, Quot.sound |
| C73 | `Gpt.c73_form` | propext |
| C74 | `Gpt.c74_partition` | propext, Classical.choice, Quot.sound |
| C74 | `Gpt.c74_header` | propext, Classical.choice, Quot.sound |
| C74 | `Gpt.c74_block_size` | none |
| C75 | `Gpt.c75_header` | propext, Quot.sound |
| C75 | `Gpt.c75_disk` | propext, Quot.sound |
| C75 | `Gpt.c75_mbr` | propext, Quot.sound |
| C76 | `Gpt.c76_add_partition_at` | propext, Classical.choice, Quot.sound |
| C76 | `Gpt.c76_determined` | propext, Classical.choice, Quot.sound |
| C76 | `Gpt.c76_exact` | propext, Classical.choice, Quot.sound |
| C77 | `Gpt.c77_add_partition` | propext, Classical.choice, Quot.sound |
| C77 | `Gpt.c77_determined` | propext, Classical.choice, Quot.sound |
| C77 | `Gpt.c77_exact` | propext, Classical.choice, Quot.sound |
| C78 | `Gpt.c78_errors` | propext, Classical.choice, Quot.sound |
| C78 | `Gpt.c78_open` | propext, Quot.sound |
| C78 | `Gpt.c78_create` | propext, Quot.sound |
| C79 | `Gpt.c79_accepts` | propext |
| C79 | `Gpt.c79_injective` | propext |
| C79 | `Gpt.c79_refused` | propext |
| C79 | `Gpt.c79_unnamed` | propext, Quot.sound |
| C80 | `Gpt.c80_call` | propext, Classical.choice, Quot.sound |
| C80 | `Gpt.c80_open_create` | propext, Quot.sound |
| C80 | `Gpt.c80_functions` | propext, Classical.choice, Quot.sound |
| C80 | `Gpt.c80_history` | propext, Classical.choice, Quot.sound |
| C81 | `Gpt.c81_range` | propext, Classical.choice, Quot.sound |
| C81 | `Gpt.c81_disjoint` | propext, Classical.choice, Quot.sound |
| C81 | `Gpt.c81_untouched` | propext, Classical.choice, Quot.sound |
| C82 | `Gpt.c82_add` | propext, Classical.choice, Quot.sound |
| C83 | `Gpt.c83_added` | propext, Classical.choice, Quot.sound |
| C84 | `Gpt.c84_any` | propext, Classical.choice, Quot.sound |
| C84 | `Gpt.c84_outcome` | propext, Classical.choice, Quot.sound |
| C84 | `Gpt.c84_succeeds` | propext, Classical.choice, Quot.sound |
| C84 | `Gpt.c84_bytes` | propext, Classical.choice, Quot.sound |
| C85 | `Gpt.c85_header` | propext, Classical.choice, Quot.sound |
| C85 | `Gpt.c85_entry` | propext, Classical.choice, Quot.sound |
| C85 | `Gpt.c85_stale` | propext, Classical.choice, Quot.sound |
| C86 | `Gpt.c86_build` | propext, Classical.choice, Quot.sound |
| C86 | `Gpt.c86_settings` | propext, Quot.sound |
| C86 | `Gpt.c86_new` | none |
| C86 | `Gpt.c86_from_header` | propext, Quot.sound |
| C87 | `Gpt.c87_update` | propext, Classical.choice, Quot.sound |
| C87 | `Gpt.c87_ok` | propext, Classical.choice, Quot.sound |
| C88 | `Gpt.c88_image` | propext, Classical.choice, Quot.sound |
| C88 | `Gpt.c88_any` | propext, Classical.choice, Quot.sound |
| C88 | `Gpt.c88_succeeds` | propext, Classical.choice, Quot.sound |
| C89 | `Gpt.c89_primary` | propext, Classical.choice, Quot.sound |
| C89 | `Gpt.c89_reopens` | propext, Classical.choice, Quot.sound |
| C89 | `Gpt.c89_backup` | propext, Classical.choice, Quot.sound |
| C89 | `Gpt.c89_outside` | propext, Classical.choice, Quot.sound |
| C89 | `Gpt.c89_partial` | propext, Classical.choice, Quot.sound |
| C89 | `Gpt.c89_exact` | propext, Classical.choice, Quot.sound |
| C89 | `Gpt.c89_fails` | propext, Classical.choice, Quot.sound |
| C90 | `Gpt.c90_call` | propext, Classical.choice, Quot.sound |
| C90 | `Gpt.c90_history` | propext, Classical.choice, Quot.sound |
| C91 | `Gpt.c91_write` | propext, Classical.choice, Quot.sound |
| C91 | `Gpt.c91_total` | propext, Classical.choice, Quot.sound |
| C92 | `Gpt.c92_free` | propext, Classical.choice, Quot.sound |
| C92 | `Gpt.c92_headerless` | propext |
| C93 | `Gpt.c93_add_partition_at` | propext, Classical.choice, Quot.sound |
| C93 | `Gpt.c93_add_partition` | propext, Classical.choice, Quot.sound |
| C93 | `Gpt.c93_at_determined` | propext, Classical.choice, Quot.sound |
| C93 | `Gpt.c93_determined` | propext, Classical.choice, Quot.sound |
| C93 | `Gpt.c93_at_exact` | propext, Classical.choice, Quot.sound |
| C93 | `Gpt.c93_exact` | propext, Classical.choice, Quot.sound |
| C93 | `Gpt.c93_headerless` | propext, Classical.choice, Quot.sound |
| C94 | `Gpt.c94_history` | propext, Classical.choice, Quot.sound |
| C94 | `Gpt.c94_clone` | propext, Classical.choice, Quot.sound |
| C94 | `Gpt.c94_with_disk_device` | propext, Classical.choice, Quot.sound |
| C94 | `Gpt.c94_queries` | propext, Classical.choice, Quot.sound |
| C95 | `Gpt.c95_configured` | propext, Quot.sound |
| C95 | `Gpt.c95_kept` | propext, Quot.sound |
| C96 | `Gpt.c96_mbr` | Quot.sound |
| C96 | `Gpt.c96_tables` | propext, Classical.choice, Quot.sound |
| C96 | `Gpt.c96_header_writes` | propext, Quot.sound |
| C96 | `Gpt.c96_header_reads` | propext, Quot.sound |
| C96 | `Gpt.c96_open` | propext, Quot.sound |
| C96 | `Gpt.c96_create` | propext, Classical.choice, Quot.sound |
| C96 | `Gpt.c96_history` | propext, Classical.choice, Quot.sound |
| C96 | `Gpt.c96_failed_seek` | propext, Classical.choice, Quot.sound |
| C96 | `Gpt.c96_failed_seek_matters` | propext, Quot.sound |
| C97 | `Gpt.c97_from_backup` | propext, Classical.choice, Quot.sound |
| C97 | `Gpt.c97_primary_restored` | propext, Classical.choice, Quot.sound |
| C97 | `Gpt.c97_from_primary` | propext, Classical.choice, Quot.sound |
| C97 | `Gpt.c97_backup_restored` | propext, Classical.choice, Quot.sound |
| C97 | `Gpt.c97_array_refused` | propext, Classical.choice, Quot.sound |
| C98 | `Gpt.c98_same` | propext, Classical.choice, Quot.sound |
| C98 | `Gpt.c98_succeeds` | propext, Classical.choice, Quot.sound |
| C98 | `Gpt.c98_meanwhile` | propext, Classical.choice, Quot.sound |
| C98 | `Gpt.c98_revised` | propext, Classical.choice, Quot.sound |
| C98 | `Gpt.c98_revised_succeeds` | propext, Classical.choice, Quot.sound |
| C99 | `Gpt.c99_partial` | propext, Classical.choice, Quot.sound |
| C99 | `Gpt.c99_release` | propext, Classical.choice, Quot.sound |
| C99 | `Gpt.c99_history` | propext, Classical.choice, Quot.sound |
| C99 | `Gpt.c99_exception` | propext, Classical.choice, Quot.sound |
| C99 | `Gpt.c99_fails` | propext, Classical.choice, Quot.sound |
| C100 | `Gpt.Stream.c100_read` | propext, Classical.choice, Quot.sound |
| C100 | `Gpt.Stream.c100_write` | propext, Classical.choice, Quot.sound |
| C100 | `Gpt.Stream.c100_empty` | propext, Quot.sound |
| C100 | `Gpt.Stream.c100_whole` | propext, Classical.choice, Quot.sound |
| C101 | `Gpt.c101_packed` | propext, Classical.choice, Quot.sound |
| C101 | `Gpt.c101_determined` | propext, Quot.sound |
| C101 | `Gpt.c101_all` | propext, Classical.choice, Quot.sound |
| C101 | `Gpt.c101_program` | propext, Classical.choice, Quot.sound |
| C102 | `Gpt.c102_update` | propext, Classical.choice, Quot.sound |
| C102 | `Gpt.c102_smaller` | propext, Classical.choice, Quot.sound |
| C102 | `Gpt.c102_larger` | propext, Classical.choice, Quot.sound |
| C102 | `Gpt.c102_copy` | propext, Classical.choice, Quot.sound |
| C103 | `Gpt.c103_call` | propext, Classical.choice, Quot.sound |
| C103 | `Gpt.c103_history` | propext, Classical.choice, Quot.sound |
| C103 | `Gpt.c103_open` | propext, Classical.choice, Quot.sound |
| C103 | `Gpt.c103_writers` | propext, Classical.choice, Quot.sound |
| C103 | `Gpt.c103_open_working` | propext, Classical.choice, Quot.sound |
| C103 | `Gpt.c103_session` | propext, Classical.choice, Quot.sound |
| C103 | `Gpt.c103_accepts` | propext, Classical.choice, Quot.sound |
| C103 | `Gpt.c103_blind` | propext, Classical.choice, Quot.sound |
| C104 | `Gpt.c104_guid` | propext, Classical.choice, Quot.sound |
| C104 | `Gpt.c104_type` | propext, Classical.choice, Quot.sound |
| C104 | `Gpt.c104_unique` | propext, Classical.choice, Quot.sound |
| C104 | `Gpt.c104_display` | propext, Classical.choice, Quot.sound |
| C105 | `Gpt.c105_outcomes` | propext, Classical.choice, Quot.sound |
| C105 | `Gpt.c105_whole` | propext, Classical.choice, Quot.sound |
| C105 | `Gpt.c105_order` | propext, Classical.choice, Quot.sound |
| C105 | `Gpt.c105_untouched` | propext, Classical.choice, Quot.sound |
| C106 | `Gpt.c106_flags` | propext, Classical.choice, Quot.sound |
| C106 | `Gpt.c106_known` | propext, Classical.choice, Quot.sound |
| C106 | `Gpt.c106_sets` | propext, Classical.choice, Quot.sound |
| C106 | `Gpt.c106_read` | propext, Classical.choice, Quot.sound |
| C106 | `Gpt.c106_written` | propext, Classical.choice, Quot.sound |
| C106 | `Gpt.c106_kept` | propext, Classical.choice, Quot.sound |
| C107 | `Gpt.c107_name` | propext, Classical.choice, Quot.sound |
| C107 | `Gpt.c107_only` | propext, Classical.choice, Quot.sound |
| C107 | `Gpt.c107_stored` | propext, Classical.choice, Quot.sound |
| C107 | `Gpt.c107_opened` | propext, Classical.choice, Quot.sound |
| C108 | `Gpt.c108_calls` | propext, Classical.choice, Quot.sound |
| C108 | `Gpt.c108_tables` | propext, Classical.choice, Quot.sound |
| C108 | `Gpt.c108_headers` | propext, Classical.choice, Quot.sound |
| C108 | `Gpt.c108_mbr` | propext, Classical.choice, Quot.sound |
| C108 | `Gpt.c108_create` | propext, Classical.choice, Quot.sound |
| C108 | `Gpt.c108_ok` | propext, Classical.choice, Quot.sound |
| C108 | `Gpt.c108_not_header` | propext, Classical.choice, Quot.sound |
| C109 | `Gpt.c109_open` | propext, Classical.choice, Quot.sound |
| C109 | `Gpt.c109_strict` | propext, Classical.choice, Quot.sound |
| C109 | `Gpt.c109_primary` | propext, Classical.choice, Quot.sound |
| C109 | `Gpt.c109_backup` | propext, Classical.choice, Quot.sound |
| C109 | `Gpt.c109_seek` | propext, Quot.sound |
| C110 | `Gpt.c110_open` | propext, Quot.sound |
| C110 | `Gpt.c110_create` | propext, Quot.sound |
| C110 | `Gpt.c110_calls` | propext, Classical.choice, Quot.sound |
| C110 | `Gpt.c110_functions` | propext, Classical.choice, Quot.sound |
| C110 | `Gpt.c110_mbr` | propext, Quot.sound |
| C110 | `Gpt.c110_open_exact` | propext, Classical.choice, Quot.sound |
| C111 | `Gpt.c111_add` | propext, Classical.choice, Quot.sound |
| C111 | `Gpt.c111_order` | propext, Classical.choice, Quot.sound |
| C111 | `Gpt.c111_remove` | propext, Classical.choice, Quot.sound |
| C111 | `Gpt.c111_tables` | propext, Classical.choice, Quot.sound |
| C111 | `Gpt.c111_make` | propext, Classical.choice, Quot.sound |
| C112 | `Gpt.c112_difference` | propext, Classical.choice, Quot.sound |
| C112 | `Gpt.c112_unnoticed` | propext, Classical.choice, Quot.sound |
| C112 | `Gpt.c112_exact` | propext, Classical.choice, Quot.sound |
| C112 | `Gpt.c112_front` | propext, Classical.choice, Quot.sound |
| C112 | `Gpt.c112_read` | propext, Classical.choice, Quot.sound |
| C113 | `Gpt.c113_header` | propext, Classical.choice, Quot.sound |
| C113 | `Gpt.c113_five` | propext, Classical.choice, Quot.sound |
| C113 | `Gpt.c113_read` | propext, Classical.choice, Quot.sound |
| C113 | `Gpt.c113_table` | propext, Classical.choice, Quot.sound |
| C113 | `Gpt.c113_three` | propext, Classical.choice, Quot.sound |
| C114 | `Gpt.c114_outcome` | propext, Classical.choice, Quot.sound |
| C114 | `Gpt.c114_path` | propext, Quot.sound |
| C114 | `Gpt.c114_written` | propext, Classical.choice, Quot.sound |
| C115 | `Gpt.c115_unaware` | propext, Classical.choice, Quot.sound |
| C115 | `Gpt.c115_calls` | propext, Classical.choice, Quot.sound |
| C115 | `Gpt.c115_last` | propext, Classical.choice, Quot.sound |
| C115 | `Gpt.c115_none` | propext, Classical.choice, Quot.sound |
| C115 | `Gpt.c115_data` | propext, Classical.choice, Quot.sound |
| C116 | `Gpt.c116_written` | propext, Classical.choice, Quot.sound |
| C116 | `Gpt.c116_opens` | propext, Classical.choice, Quot.sound |
| C116 | `Gpt.c116_calls` | propext, Classical.choice, Quot.sound |
| C116 | `Gpt.c116_table` | propext, Classical.choice, Quot.sound |
| C116 | `Gpt.c116_data` | propext, Classical.choice, Quot.sound |
| C116 | `Gpt.c116_write_open` | propext, Classical.choice, Quot.sound |
| C116 | `Gpt.c116_own` | propext, Classical.choice, Quot.sound |
| C117 | `Gpt.c117_long` | propext, Classical.choice, Quot.sound |
| C117 | `Gpt.c117_short` | propext, Classical.choice, Quot.sound |
| C117 | `Gpt.c117_read` | propext, Classical.choice, Quot.sound |
| C117 | `Gpt.c117_open` | propext, Classical.choice, Quot.sound |
| C117 | `Gpt.c117_blind` | propext, Classical.choice, Quot.sound |
| C117 | `Gpt.c117_few` | propext, Classical.choice, Quot.sound |
| C118 | `Gpt.c118_opens` | propext, Classical.choice, Quot.sound |
| C118 | `Gpt.c118_session` | propext, Classical.choice, Quot.sound |
| C118 | `Gpt.c118_repaired` | propext, Classical.choice, Quot.sound |
| C118 | `Gpt.c118_damage` | propext, Classical.choice, Quot.sound |
| C119 | `Gpt.c119_still` | propext, Quot.sound |
| C119 | `Gpt.c119_one` | propext, Classical.choice, Quot.sound |
| C119 | `Gpt.c119_mixed` | propext, Classical.choice, Quot.sound |
| C120 | `Gpt.c120_call` | propext, Classical.choice, Quot.sound |
| C120 | `Gpt.c120_open` | propext, Quot.sound |
| C120 | `Gpt.c120_exact` | propext, Quot.sound |
| C120 | `Gpt.c120_history` | propext, Classical.choice, Quot.sound |
| C120 | `Gpt.c120_header` | propext, Quot.sound |
| C121 | `Gpt.c121_call` | propext, Classical.choice, Quot.sound |
| C121 | `Gpt.c121_history` | propext, Classical.choice, Quot.sound |
| C121 | `Gpt.c121_reopen` | propext, Classical.choice, Quot.sound |
| C121 | `Gpt.c121_remove` | propext, Classical.choice, Quot.sound |
| C121 | `Gpt.c121_unchecked` | propext, Classical.choice, Quot.sound |
| C122 | `Gpt.c122_512` | propext, Classical.choice, Quot.sound |
| C122 | `Gpt.c122_4096` | propext, Classical.choice, Quot.sound |
| C122 | `Gpt.c122_stale` | propext, Classical.choice, Quot.sound |
| C123 | `Gpt.c123_sum` | propext, Classical.choice, Quot.sound |
| C123 | `Gpt.c123_fits` | propext, Classical.choice, Quot.sound |
| C123 | `Gpt.c123_add` | propext, Classical.choice, Quot.sound |
| C123 | `Gpt.c123_remove` | propext, Classical.choice, Quot.sound |
| C123 | `Gpt.c123_session` | propext, Classical.choice, Quot.sound |
| C123 | `Gpt.c123_room` | propext, Classical.choice, Quot.sound |
| C124 | `Gpt.c124_first` | propext, Classical.choice, Quot.sound |
| C124 | `Gpt.c124_later` | propext, Classical.choice, Quot.sound |
| C125 | `Gpt.c125_update` | propext, Classical.choice, Quot.sound |
| C125 | `Gpt.c125_calls` | propext, Classical.choice, Quot.sound |
| C125 | `Gpt.c125_refused` | propext, Classical.choice, Quot.sound |
| C125 | `Gpt.c125_small` | propext, Classical.choice, Quot.sound |
| C125 | `Gpt.c125_write` | propext, Classical.choice, Quot.sound |
| C125 | `Gpt.c125_lost` | propext, Classical.choice, Quot.sound |
| C125 | `Gpt.c125_stuck` | propext, Classical.choice, Quot.sound |
| C126 | `Gpt.c126_calls` | propext, Classical.choice, Quot.sound |
| C126 | `Gpt.c126_table` | propext, Classical.choice, Quot.sound |
| C126 | `Gpt.c126_data` | propext, Classical.choice, Quot.sound |
| C126 | `Gpt.c126_write_open` | propext, Classical.choice, Quot.sound |
| C126 | `Gpt.c126_update` | propext, Classical.choice, Quot.sound |
| C127 | `Gpt.c127_opens` | propext, Classical.choice, Quot.sound |
| C127 | `Gpt.c127_update` | propext, Classical.choice, Quot.sound |
| C127 | `Gpt.c127_whole` | propext, Classical.choice, Quot.sound |
| C127 | `Gpt.c127_plain` | propext, Classical.choice, Quot.sound |
| C128 | `Gpt.c128_opens` | propext, Classical.choice, Quot.sound |
| C128 | `Gpt.c128_shrunk` | propext, Classical.choice, Quot.sound |
| C128 | `Gpt.c128_update` | propext, Classical.choice, Quot.sound |
| C128 | `Gpt.c128_stuck` | propext, Classical.choice, Quot.sound |
| C128 | `Gpt.c128_overlap` | propext, Classical.choice, Quot.sound |
| C128 | `Gpt.c128_fits` | propext, Classical.choice, Quot.sound |
| C128 | `Gpt.c128_plain` | propext, Classical.choice, Quot.sound |
| C129 | `Gpt.c129_cut` | propext, Classical.choice, Quot.sound |
| C129 | `Gpt.c129_written` | propext, Classical.choice, Quot.sound |
| C130 | `Gpt.c130_cut` | propext, Classical.choice, Quot.sound |
| C130 | `Gpt.c130_data` | propext, Classical.choice, Quot.sound |
| C131 | `Gpt.c131_grown` | propext, Classical.choice, Quot.sound |
| C131 | `Gpt.c131_free` | propext, Classical.choice, Quot.sound |
| C131 | `Gpt.c131_shrunk` | propext, Classical.choice, Quot.sound |
| C132 | `Gpt.c132_valid` | propext, Classical.choice, Quot.sound |
| C132 | `Gpt.c132_writable` | propext, Classical.choice, Quot.sound |
| C132 | `Gpt.c132_permit` | propext, Classical.choice, Quot.sound |
| C132 | `Gpt.c132_permit_run` | propext, Classical.choice, Quot.sound |
| C132 | `Gpt.c132_open` | propext, Quot.sound |
| C132 | `Gpt.c132_strict` | propext, Quot.sound |
| C132 | `Gpt.c132_lenient` | propext, Quot.sound |
| C132 | `Gpt.c132_first` | propext, Classical.choice, Quot.sound |
| C132 | `Gpt.c132_grow` | propext, Classical.choice, Quot.sound |
| C132 | `Gpt.c132_shrink` | propext, Classical.choice, Quot.sound |
| C133 | `Gpt.c133_call` | propext, Classical.choice, Quot.sound |
| C133 | `Gpt.c133_run` | propext, Classical.choice, Quot.sound |
| C133 | `Gpt.c133_outcomes` | propext, Classical.choice, Quot.sound |
| C133 | `Gpt.c133_write` | propext, Classical.choice, Quot.sound |
| C134 | `Gpt.c134_add` | propext, Classical.choice, Quot.sound |
| C134 | `Gpt.c134_add_at` | propext, Classical.choice, Quot.sound |
| C134 | `Gpt.c134_remove` | propext, Classical.choice, Quot.sound |
| C134 | `Gpt.c134_bytes` | propext, Classical.choice, Quot.sound |
| C134 | `Gpt.c134_undo` | propext, Classical.choice, Quot.sound |
| C135 | `Gpt.c135_unseen` | propext, Classical.choice, Quot.sound |
| C135 | `Gpt.c135_skip` | propext, Classical.choice, Quot.sound |
| C135 | `Gpt.c135_arrives` | propext, Quot.sound |
| C135 | `Gpt.c135_origin` | propext, Classical.choice, Quot.sound |
| C136 | `Gpt.c136_call` | propext, Classical.choice, Quot.sound |
| C136 | `Gpt.c136_run` | propext, Classical.choice, Quot.sound |
| C136 | `Gpt.c136_open` | propext, Classical.choice, Quot.sound |
| C137 | `Gpt.c137_call` | propext, Classical.choice, Quot.sound |
| C137 | `Gpt.c137_run` | propext, Classical.choice, Quot.sound |
| C137 | `Gpt.c137_places` | propext, Classical.choice, Quot.sound |
| C137 | `Gpt.c137_start` | none |
| C138 | `Gpt.c138_room` | propext, Classical.choice, Quot.sound |
| C138 | `Gpt.c138_place` | propext, Classical.choice, Quot.sound |
| C138 | `Gpt.c138_same` | propext, Classical.choice, Quot.sound |
| C138 | `Gpt.c138_at` | propext, Classical.choice, Quot.sound |
| C138 | `Gpt.c138_remove` | propext |
| C139 | `Gpt.c139_kept` | propext, Classical.choice, Quot.sound |
| C139 | `Gpt.c139_no_panic` | propext, Classical.choice, Quot.sound |
| C139 | `Gpt.c139_empty` | propext, Classical.choice, Quot.sound |
| C140 | `Gpt.c140_cut` | propext, Classical.choice, Quot.sound |
| C140 | `Gpt.c140_whole` | propext, Classical.choice, Quot.sound |
| C141 | `Gpt.c141_remove` | propext, Classical.choice, Quot.sound |
| C141 | `Gpt.c141_unused` | propext, Classical.choice, Quot.sound |
| C141 | `Gpt.c141_guid` | propext, Classical.choice, Quot.sound |
| C142 | `Gpt.c142_answers` | propext, Classical.choice, Quot.sound |
| C142 | `Gpt.c142_order` | propext, Classical.choice, Quot.sound |
| C143 | `Gpt.c143_calls` | propext, Classical.choice, Quot.sound |
| C143 | `Gpt.c143_last` | propext, Classical.choice, Quot.sound |
| C144 | `Gpt.c144_same` | propext, Classical.choice, Quot.sound |
| C144 | `Gpt.c144_resume` | propext, Classical.choice, Quot.sound |
| C145 | `Gpt.c145_bytes` | propext, Classical.choice, Quot.sound |
| C145 | `Gpt.c145_device` | propext, Classical.choice, Quot.sound |
| C145 | `Gpt.c145_shown` | propext, Classical.choice, Quot.sound |
| C146 | `Gpt.c146_course` | propext, Classical.choice, Quot.sound |
