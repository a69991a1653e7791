'Tuf.C01_threshold_soundness' depends on axioms: [propext, Classical.choice, Quot.sound]
'Tuf.C01_signatures_are_present' depends on axioms: [propext, Classical.choice, Quot.sound]
'Tuf.C02_threshold_completeness' depends on axioms: [propext, Classical.choice, Quot.sound]
'Tuf.C02_exact_rule' depends on axioms: [propext, Classical.choice, Quot.sound]
'Tuf.C03_key_id_counts_once' depends on axioms: [propext, Classical.choice, Quot.sound]
'Tuf.C03_one_id_never_two' depends on axioms: [propext, Classical.choice, Quot.sound]
'Tuf.C04_unsigned_accepted' depends on axioms: [propext, Quot.sound]
'Tuf.C04_partial' depends on axioms: [propext, Classical.choice, Quot.sound]
'Tuf.C04_extent_partial' depends on axioms: [propext, Classical.choice, Quot.sound]
'Tuf.C05_same_key_counts_twice' depends on axioms: [propext]
'Tuf.C05_partial' depends on axioms: [propext, Classical.choice, Quot.sound]
'Tuf.C06_foreign_signature_irrelevant' depends on axioms: [propext, Quot.sound]
'Tuf.C07_order_irrelevant' depends on axioms: [propext, Classical.choice, Quot.sound]
'Tuf.C08_sign_appends' depends on axioms: [propext, Quot.sound]
'Tuf.C08_sign_then_verify' depends on axioms: [propext, Classical.choice, Quot.sound]
'Tuf.C08_all_types' depends on axioms: [propext]
'Tuf.C09_partial' depends on axioms: [propext, Quot.sound]
'Tuf.C09_nothing_without_delegation_partial' depends on axioms: [propext, Classical.choice, Quot.sound]
'Tuf.C09_succinct_accepts_any_name' depends on axioms: [propext]
'Tuf.C10_scheme_is_ignored' depends on axioms: [propext, Classical.choice, Quot.sound]
'Tuf.C10_wrong_scheme_accepted' depends on axioms: [propext]
'Tuf.C10_partial' depends on axioms: [propext, Classical.choice, Quot.sound]
'Tuf.C100_read' depends on axioms: [propext, Classical.choice, Quot.sound]
'Tuf.C100_reads_back' depends on axioms: [propext, Classical.choice, Quot.sound]
'Tuf.C100_calendar' depends on axioms: [propext, Classical.choice, Quot.sound]
'Tuf.C100_expired' depends on axioms: [propext, Classical.choice, Quot.sound]
'Tuf.C100_text_order' depends on axioms: [propext, Classical.choice, Quot.sound]
'Tuf.C100_instants' depends on axioms: [propext, Classical.choice, Quot.sound]
'Tuf.C101_kept_partial' depends on axioms: [propext, Classical.choice, Quot.sound]
'Tuf.C101_stable_partial' depends on axioms: [propext]
'Tuf.C101_decimals_partial' depends on axioms: [propext, Classical.choice, Quot.sound]
'Tuf.C101_close_partial' depends on axioms: [propext, Classical.choice, Quot.sound]
'Tuf.C101_false' depends on axioms: [propext]
'Tuf.C102_sound' depends on axioms: [propext, Classical.choice, Quot.sound]
'Tuf.C102_ascii' depends on axioms: [propext, Classical.choice, Quot.sound]
'Tuf.C102_role' depends on axioms: [propext, Classical.choice, Quot.sound]
'Tuf.C102_malformed' depends on axioms: [propext, Classical.choice, Quot.sound]
'Tuf.C102_plain' depends on axioms: [propext, Classical.choice, Quot.sound]
'Tuf.C102_star' depends on axioms: [propext, Classical.choice, Quot.sound]
'Tuf.C102_false' depends on axioms: [propext]
'Tuf.C102_map' depends on axioms: [propext, Classical.choice, Quot.sound]
'Tuf.C102_map_skips' depends on axioms: [propext, Classical.choice, Quot.sound]
'Tuf.C102_map_malformed' depends on axioms: [propext, Classical.choice, Quot.sound]
'Tuf.C102_map_star' depends on axioms: [propext, Quot.sound]
'Tuf.C102_map_false' depends on axioms: [propext, Quot.sound]
'Tuf.C103_text' depends on axioms: [propext]
'Tuf.C103_distinct' depends on axioms: [propext, Classical.choice, Quot.sound]
'Tuf.C103_again' depends on axioms: [propext]
'Tuf.C103_filed' depends on axioms: [propext, Quot.sound]
'Tuf.C103_false' depends on axioms: [propext]
'Tuf.C103_read_false' depends on axioms: [propext, Quot.sound]
'Tuf.C104_declared' does not depend on any axioms
'Tuf.C104_round_trip' depends on axioms: [propext, Quot.sound]
'Tuf.C104_add_sign_verify' depends on axioms: [propext, Classical.choice, Quot.sound]
'Tuf.C104_false' depends on axioms: [propext]
'Tuf.C105_grammar' depends on axioms: [propext, Classical.choice, Quot.sound]
'Tuf.C105_refused' depends on axioms: [propext, Classical.choice, Quot.sound]
'Tuf.C105_unambiguous' depends on axioms: [propext, Classical.choice, Quot.sound]
'Tuf.C105_layout' depends on axioms: [propext, Classical.choice, Quot.sound]
'Tuf.C105_spelling_root_partial' depends on axioms: [propext, Classical.choice, Quot.sound]
'Tuf.C105_spelling_timestamp_partial' depends on axioms: [propext, Classical.choice, Quot.sound]
'Tuf.C105_spelling_snapshot_partial' depends on axioms: [propext, Classical.choice, Quot.sound]
'Tuf.C105_spelling_targets_partial' depends on axioms: [propext, Classical.choice, Quot.sound]
'Tuf.C105_spelling_payload' depends on axioms: [propext]
'Tuf.C105_written' depends on axioms: [propext, Classical.choice, Quot.sound]
'Tuf.C105_trailing' depends on axioms: [propext, Classical.choice, Quot.sound]
'Tuf.C105_map' depends on axioms: [propext, Classical.choice, Quot.sound]
'Tuf.C105_false' depends on axioms: [propext, Quot.sound]
'Tuf.C105_false_spelling' depends on axioms: [propext, Classical.choice, Quot.sound]
'Tuf.C106_after_refresh' depends on axioms: [propext, Classical.choice, Quot.sound]
'Tuf.C106_lookup' depends on axioms: [propext, Classical.choice, Quot.sound]
'Tuf.C106_stable' depends on axioms: [propext, Classical.choice, Quot.sound]
'Tuf.C106_not_listed' depends on axioms: [propext]
'Tuf.C107_listed_partial' depends on axioms: [propext, Classical.choice, Quot.sound]
'Tuf.C107_names_partial' depends on axioms: [propext, Classical.choice, Quot.sound]
'Tuf.C107_no_consensus_partial' depends on axioms: [propext, Classical.choice, Quot.sound]
'Tuf.C107_false' depends on axioms: [propext]
'Tuf.C108_before_refresh' depends on axioms: [propext, Classical.choice, Quot.sound]
'Tuf.C108_multi_before_refresh' depends on axioms: [propext, Classical.choice, Quot.sound]
'Tuf.C108_after_refresh_partial' depends on axioms: [propext, Classical.choice, Quot.sound]
'Tuf.C108_false' depends on axioms: [propext]
'Tuf.C109_root' depends on axioms: [propext, Classical.choice, Quot.sound]
'Tuf.C109_snapshot' depends on axioms: [propext, Classical.choice, Quot.sound]
'Tuf.C109_timestamp' depends on axioms: [propext, Classical.choice, Quot.sound]
'Tuf.C109_targets' depends on axioms: [propext, Classical.choice, Quot.sound]
'Tuf.C109_unverifiable' depends on axioms: [propext, Classical.choice, Quot.sound]
'Tuf.C109_read_not_signed' depends on axioms: [propext]
'Tuf.C11_root_rotations_partial' depends on axioms: [propext, Classical.choice, Quot.sound]
'Tuf.C11_one_call_partial' depends on axioms: [propext, Classical.choice, Quot.sound]
'Tuf.C11_version_wraps' depends on axioms: [propext]
'Tuf.C110_generates' depends on axioms: [propext, Classical.choice, Quot.sound]
'Tuf.C110_clients_partial' depends on axioms: [propext, Classical.choice, Quot.sound]
'Tuf.C110_false' depends on axioms: [propext]
'Tuf.C111_stored_partial' depends on axioms: [propext, Classical.choice, Quot.sound]
'Tuf.C111_found_partial' depends on axioms: [propext, Classical.choice, Quot.sound]
'Tuf.C111_separate_partial' depends on axioms: [propext, Classical.choice, Quot.sound]
'Tuf.C111_false' depends on axioms: [propext]
'Tuf.C112_new_partial' depends on axioms: [propext, Quot.sound]
'Tuf.C112_target_partial' depends on axioms: [propext, Classical.choice, Quot.sound]
'Tuf.C112_metadata_partial' depends on axioms: [propext, Classical.choice, Quot.sound]
'Tuf.C112_defaults' does not depend on any axioms
'Tuf.C112_metadata_any' depends on axioms: [propext, Classical.choice, Quot.sound]
'Tuf.C112_tail_metadata' depends on axioms: [propext, Classical.choice, Quot.sound]
'Tuf.C112_tail_targets' depends on axioms: [propext, Classical.choice, Quot.sound]
'Tuf.C112_false' depends on axioms: [propext]
'Tuf.C112_false_fragment' depends on axioms: [propext]
'Tuf.C113_recovers_partial' depends on axioms: [propext, Classical.choice, Quot.sound]
'Tuf.C113_after_attack_partial' depends on axioms: [propext, Classical.choice, Quot.sound]
'Tuf.C113_false' depends on axioms: [propext]
'Tuf.C114_root_partial' depends on axioms: [propext, Classical.choice, Quot.sound]
'Tuf.C114_timestamp_partial' depends on axioms: [propext, Classical.choice, Quot.sound]
'Tuf.C114_snapshot_partial' depends on axioms: [propext, Classical.choice, Quot.sound]
'Tuf.C114_targets_partial' depends on axioms: [propext, Classical.choice, Quot.sound]
'Tuf.C114_refresh_partial' depends on axioms: [propext, Classical.choice, Quot.sound]
'Tuf.C114_false' depends on axioms: [propext]
'Tuf.C115_root' depends on axioms: [propext, Classical.choice, Quot.sound]
'Tuf.C115_snapshot' depends on axioms: [propext, Classical.choice, Quot.sound]
'Tuf.C115_timestamp' depends on axioms: [propext, Classical.choice, Quot.sound]
'Tuf.C115_targets' depends on axioms: [propext, Classical.choice, Quot.sound]
'Tuf.C115_threshold' depends on axioms: [propext, Classical.choice, Quot.sound]
'Tuf.C116_root' depends on axioms: [propext, Classical.choice, Quot.sound]
'Tuf.C116_snapshot' depends on axioms: [propext, Classical.choice, Quot.sound]
'Tuf.C116_timestamp' depends on axioms: [propext, Classical.choice, Quot.sound]
'Tuf.C116_targets' depends on axioms: [propext, Classical.choice, Quot.sound]
'Tuf.C117_exactly' depends on axioms: [propext, Classical.choice, Quot.sound]
'Tuf.C118_succeeds' depends on axioms: [propext, Classical.choice, Quot.sound]
'Tuf.C118_clients' depends on axioms: [propext, Classical.choice, Quot.sound]
'Tuf.C119_clients' depends on axioms: [propext, Classical.choice, Quot.sound]
'Tuf.C119_isolated_partial' depends on axioms: [propext, Classical.choice, Quot.sound]
'Tuf.C119_roots_partial' depends on axioms: [propext, Classical.choice, Quot.sound]
'Tuf.C119_false' depends on axioms: [propext]
'Tuf.C12_frozen' depends on axioms: [propext, Classical.choice, Quot.sound]
'Tuf.C120_targets_partial' depends on axioms: [propext, Classical.choice, Quot.sound]
'Tuf.C120_false' depends on axioms: [propext, Classical.choice, Quot.sound]
'Tuf.C121_calls_partial' depends on axioms: [propext, Classical.choice, Quot.sound]
'Tuf.C121_new_partial' depends on axioms: [propext, Classical.choice, Quot.sound]
'Tuf.C121_false' depends on axioms: [propext]
'Tuf.C122_agreement' depends on axioms: [propext, Classical.choice, Quot.sound]
'Tuf.C122_honest' depends on axioms: [propext, Classical.choice, Quot.sound]
'Tuf.C123_read_partial' depends on axioms: [propext, Classical.choice, Quot.sound]
'Tuf.C123_accepted_partial' depends on axioms: [propext, Classical.choice, Quot.sound]
'Tuf.C123_repeated_partial' depends on axioms: [propext, Classical.choice, Quot.sound]
'Tuf.C123_false' depends on axioms: [propext]
'Tuf.C124_delivers' depends on axioms: [propext, Classical.choice, Quot.sound]
'Tuf.C124_anchor_partial' depends on axioms: [propext, Classical.choice, Quot.sound]
'Tuf.C124_later_partial' depends on axioms: [propext, Classical.choice, Quot.sound]
'Tuf.C124_bad_anchor' depends on axioms: [propext, Classical.choice, Quot.sound]
'Tuf.C124_false_stat' depends on axioms: [propext, Classical.choice, Quot.sound]
'Tuf.C124_false_first' depends on axioms: [propext]
'Tuf.C125_bootstrap' depends on axioms: [propext, Classical.choice, Quot.sound]
'Tuf.C125_main' depends on axioms: [propext, Classical.choice, Quot.sound]
'Tuf.C125_anchor_partial' depends on axioms: [propext, Classical.choice, Quot.sound]
'Tuf.C125_inside' depends on axioms: [propext, Quot.sound]
'Tuf.C125_false_order' depends on axioms: [propext]
'Tuf.C125_false_traversal' depends on axioms: [propext, Classical.choice, Quot.sound]
'Tuf.C126_info' depends on axioms: [propext, Classical.choice, Quot.sound]
'Tuf.C126_data' depends on axioms: [propext, Classical.choice, Quot.sound]
'Tuf.C126_listing' depends on axioms: [propext, Classical.choice, Quot.sound]
'Tuf.C127_target' depends on axioms: [propext, Quot.sound]
'Tuf.C127_target_written' does not depend on any axioms
'Tuf.C127_meta' depends on axioms: [propext, Quot.sound]
'Tuf.C127_meta_written' depends on axioms: [propext, Quot.sound]
'Tuf.C128_load' depends on axioms: [propext, Quot.sound]
'Tuf.C128_loads' depends on axioms: [propext, Quot.sound]
'Tuf.C128_not_loaded' depends on axioms: [propext]
'Tuf.C128_save' depends on axioms: [propext, Quot.sound]
'Tuf.C128_saves' depends on axioms: [propext, Quot.sound]
'Tuf.C128_not_saved' depends on axioms: [propext]
'Tuf.C128_round_trip' depends on axioms: [propext, Quot.sound]
'Tuf.C128_root' depends on axioms: [propext, Classical.choice, Quot.sound]
'Tuf.C128_snapshot' depends on axioms: [propext, Classical.choice, Quot.sound]
'Tuf.C128_timestamp' depends on axioms: [propext, Classical.choice, Quot.sound]
'Tuf.C128_targets' depends on axioms: [propext, Classical.choice, Quot.sound]
'Tuf.C128_failed_partial' depends on axioms: [propext]
'Tuf.C128_target' depends on axioms: [propext, Classical.choice, Quot.sound]
'Tuf.C128_target_succeeds' depends on axioms: [propext, Quot.sound]
'Tuf.C128_false' depends on axioms: [propext]
'Tuf.C129_keeps_up' depends on axioms: [propext, Classical.choice, Quot.sound]
'Tuf.C13_no_timestamp_rollback' depends on axioms: [propext, Classical.choice, Quot.sound]
'Tuf.C13_equal_version' depends on axioms: [propext, Classical.choice, Quot.sound]
'Tuf.C130_run' depends on axioms: [propext, Classical.choice, Quot.sound]
'Tuf.C130_one_partial' depends on axioms: [propext, Classical.choice, Quot.sound]
'Tuf.C130_cached_partial' depends on axioms: [propext, Classical.choice, Quot.sound]
'Tuf.C130_error' depends on axioms: [propext, Classical.choice, Quot.sound]
'Tuf.C130_crash_partial' depends on axioms: [propext, Classical.choice, Quot.sound]
'Tuf.C130_session_partial' depends on axioms: [propext, Classical.choice, Quot.sound]
'Tuf.C130_false_empty' depends on axioms: [propext]
'Tuf.C130_false_unknown' depends on axioms: [propext]
'Tuf.C131_new' depends on axioms: [propext, Classical.choice, Quot.sound]
'Tuf.C131_keeps_up' depends on axioms: [propext, Classical.choice, Quot.sound]
'Tuf.C131_false_lost' depends on axioms: [propext]
'Tuf.C132_wrong_path' depends on axioms: [propext, Quot.sound]
'Tuf.C132_never' depends on axioms: [propext, Quot.sound]
'Tuf.C132_crash' depends on axioms: [propext, Quot.sound]
'Tuf.C132_hash_prefix' depends on axioms: [propext, Quot.sound]
'Tuf.C132_root_crash' depends on axioms: [propext, Quot.sound]
'Tuf.C132_other' depends on axioms: [propext, Quot.sound]
'Tuf.C133_added' depends on axioms: [propext, Classical.choice, Quot.sound]
'Tuf.C133_lost' depends on axioms: [propext, Quot.sound]
'Tuf.C133_succinct' depends on axioms: [propext]
'Tuf.C134_cache' depends on axioms: [propext, Classical.choice, Quot.sound]
'Tuf.C134_recovers' depends on axioms: [propext, Classical.choice, Quot.sound]
'Tuf.C135_cache' depends on axioms: [propext, Classical.choice, Quot.sound]
'Tuf.C135_search' depends on axioms: [propext, Classical.choice, Quot.sound]
'Tuf.C136_session' depends on axioms: [propext, Classical.choice, Quot.sound]
'Tuf.C136_gets' depends on axioms: [propext, Classical.choice, Quot.sound]
'Tuf.C136_caught_up' depends on axioms: [propext, Classical.choice, Quot.sound]
'Tuf.C136_demo_runs' depends on axioms: [propext, Classical.choice, Quot.sound]
'Tuf.C136_demo_caught_up' depends on axioms: [propext, Classical.choice, Quot.sound]
'Tuf.C136_no_further' depends on axioms: [propext, Classical.choice, Quot.sound]
'Tuf.C136_false' depends on axioms: [propext]
'Tuf.C137_root' depends on axioms: [propext, Classical.choice, Quot.sound]
'Tuf.C137_timestamp' depends on axioms: [propext, Classical.choice, Quot.sound]
'Tuf.C137_snapshot' depends on axioms: [propext, Classical.choice, Quot.sound]
'Tuf.C137_targets' depends on axioms: [propext, Classical.choice, Quot.sound]
'Tuf.C138_reads' depends on axioms: [propext, Classical.choice, Quot.sound]
'Tuf.C138_round_trip' depends on axioms: [propext, Classical.choice, Quot.sound]
'Tuf.C138_written' depends on axioms: [propext, Classical.choice, Quot.sound]
'Tuf.C138_sound' depends on axioms: [propext, Quot.sound]
'Tuf.C138_surroundings' depends on axioms: [propext, Classical.choice, Quot.sound]
'Tuf.C138_texts' depends on axioms: [propext, Classical.choice, Quot.sound]
'Tuf.C138_add_sign_verify' depends on axioms: [propext, Classical.choice, Quot.sound]
'Tuf.C138_example' depends on axioms: [propext, Classical.choice, Quot.sound]
'Tuf.C139_requests' depends on axioms: [propext, Classical.choice, Quot.sound]
'Tuf.C139_steps' depends on axioms: [propext, Classical.choice, Quot.sound]
'Tuf.C139_new' depends on axioms: [propext, Quot.sound]
'Tuf.C139_refresh_bytes' depends on axioms: [propext, Classical.choice, Quot.sound]
'Tuf.C139_refused_bytes' depends on axioms: [propext, Classical.choice, Quot.sound]
'Tuf.C139_search_bytes' depends on axioms: [propext, Classical.choice, Quot.sound]
'Tuf.C139_target_bytes' depends on axioms: [propext, Quot.sound]
'Tuf.C139_default_fetcher' depends on axioms: [propext, Quot.sound]
'Tuf.C139_example' depends on axioms: [propext]
'Tuf.C139_example_bytes' depends on axioms: [propext]
'Tuf.C14_no_snapshot_rollback' depends on axioms: [propext, Classical.choice, Quot.sound]
'Tuf.C140_same_code' depends on axioms: [propext]
'Tuf.C140_same_new' depends on axioms: [propext]
'Tuf.C140_alone' depends on axioms: [propext]
'Tuf.C140_files' depends on axioms: [propext, Classical.choice, Quot.sound]
'Tuf.C140_trusted' depends on axioms: [propext, Classical.choice, Quot.sound]
'Tuf.C140_evolves' depends on axioms: [propext, Classical.choice, Quot.sound]
'Tuf.C140_example' depends on axioms: [propext, Quot.sound]
'Tuf.C141_false' depends on axioms: [propext, Quot.sound]
'Tuf.C141_process_partial' depends on axioms: [propext, Classical.choice, Quot.sound]
'Tuf.C141_alone_example' depends on axioms: [propext]
'Tuf.C142_found_partial' depends on axioms: [propext, Classical.choice, Quot.sound]
'Tuf.C142_downloaded_partial' depends on axioms: [propext, Classical.choice, Quot.sound]
'Tuf.C142_false' depends on axioms: [propext, Classical.choice, Quot.sound]
'Tuf.C142_found_example' depends on axioms: [propext]
'Tuf.C142_downloaded_example' depends on axioms: [propext, Classical.choice, Quot.sound]
'Tuf.C143_cache' depends on axioms: [propext, Classical.choice, Quot.sound]
'Tuf.C143_sessions' depends on axioms: [propext, Classical.choice, Quot.sound]
'Tuf.C143_example' depends on axioms: [propext, Classical.choice, Quot.sound]
'Tuf.C144_root' depends on axioms: [propext, Classical.choice, Quot.sound]
'Tuf.C144_delegations' depends on axioms: [propext, Classical.choice, Quot.sound]
'Tuf.C144_stale' depends on axioms: [propext]
'Tuf.C144_stale_paths' depends on axioms: [propext]
'Tuf.C145_again_partial' depends on axioms: [propext, Classical.choice, Quot.sound]
'Tuf.C145_stuck' depends on axioms: [propext, Classical.choice, Quot.sound]
'Tuf.C145_rotated' depends on axioms: [propext, Classical.choice, Quot.sound]
'Tuf.C145_false' depends on axioms: [propext]
'Tuf.C146_dump_partial' depends on axioms: [propext, Classical.choice, Quot.sound]
'Tuf.C146_false' depends on axioms: [propext]
'Tuf.C146_escaped' depends on axioms: [propext]
'Tuf.C146_crash' depends on axioms: [propext]
'Tuf.C147_root' depends on axioms: [propext, Quot.sound]
'Tuf.C147_new' depends on axioms: [propext, Classical.choice, Quot.sound]
'Tuf.C148_copy' depends on axioms: [propext, Quot.sound]
'Tuf.C148_setup' depends on axioms: [propext, Quot.sound]
'Tuf.C149_refresh' depends on axioms: [propext, Classical.choice, Quot.sound]
'Tuf.C149_next_run' depends on axioms: [propext, Classical.choice, Quot.sound]
'Tuf.C149_lookup' depends on axioms: [propext, Classical.choice, Quot.sound]
'Tuf.C15_no_targets_rollback' depends on axioms: [propext, Classical.choice, Quot.sound]
'Tuf.C150_order' depends on axioms: [propext, Classical.choice, Quot.sound]
'Tuf.C151_named' depends on axioms: [propext, Classical.choice, Quot.sound]
'Tuf.C151_succinct' depends on axioms: [propext, Classical.choice, Quot.sound]
'Tuf.C16_targets_match_snapshot' depends on axioms: [propext, Classical.choice, Quot.sound]
'Tuf.C17_root_fresh' depends on axioms: [propext, Classical.choice, Quot.sound]
'Tuf.C17_timestamp_fresh' depends on axioms: [propext, Classical.choice, Quot.sound]
'Tuf.C17_snapshot_fresh' depends on axioms: [propext, Classical.choice, Quot.sound]
'Tuf.C18_failed_update' depends on axioms: [propext, Classical.choice, Quot.sound]
'Tuf.C19_trusted_types' depends on axioms: [propext, Classical.choice, Quot.sound]
'Tuf.C19_declared' depends on axioms: [propext, Classical.choice, Quot.sound]
'Tuf.C19_returned_type_partial' depends on axioms: [propext, Classical.choice, Quot.sound]
'Tuf.C19_type_confusion' depends on axioms: [propext]
'Tuf.C20_expiry_exact' depends on axioms: [propext]
'Tuf.C20_reference_time' depends on axioms: [propext, Classical.choice, Quot.sound]
'Tuf.C21_crash' depends on axioms: [propext, Quot.sound]
'Tuf.C21_fromBytes_partial' depends on axioms: [propext, Classical.choice, Quot.sound]
'Tuf.C21_not_json_partial' depends on axioms: [propext]
'Tuf.C21_update_partial' depends on axioms: [propext, Classical.choice, Quot.sound]
'Tuf.C21_missing_entry_crash' depends on axioms: [propext]
'Tuf.C21_null_target_crash' depends on axioms: [propext]
'Tuf.C21_length_crash' depends on axioms: [propext, Quot.sound]
'Tuf.C21_length_client_crash' depends on axioms: [propext]
'Tuf.C22_unique_signatures' depends on axioms: [propext, Quot.sound]
'Tuf.C22_rejected_only_then' depends on axioms: [propext, Quot.sound]
'Tuf.C23_untrusted_snapshot_partial' depends on axioms: [propext, Classical.choice, Quot.sound]
'Tuf.C23_refresh_partial' depends on axioms: [propext, Classical.choice, Quot.sound]
'Tuf.C23_cached_snapshot_unchecked' depends on axioms: [propext]
'Tuf.C24_refresh_complete' depends on axioms: [propext, Classical.choice, Quot.sound]
'Tuf.C25_root_phase_partial' depends on axioms: [propext, Classical.choice, Quot.sound]
'Tuf.C25_consecutive_partial' depends on axioms: [propext, Classical.choice, Quot.sound]
'Tuf.C25_negative_limit' depends on axioms: [propext]
'Tuf.C26_refresh_once' depends on axioms: [propext, Classical.choice, Quot.sound]
'Tuf.C27_only_verified' depends on axioms: [propext, Classical.choice, Quot.sound]
'Tuf.C27_new' depends on axioms: [propext, Quot.sound]
'Tuf.C28_crash_atomic' depends on axioms: [propext, Classical.choice, Quot.sound]
'Tuf.C28_new' depends on axioms: [propext, Quot.sound]
'Tuf.C28_role_files' depends on axioms: [propext, Classical.choice, Quot.sound]
'Tuf.C29_timestamp' depends on axioms: [propext, Classical.choice, Quot.sound]
'Tuf.C29_snapshot' depends on axioms: [propext, Classical.choice, Quot.sound]
'Tuf.C30_disabled_cache' depends on axioms: [propext, Classical.choice, Quot.sound]
'Tuf.C30_new' depends on axioms: [propext]
'Tuf.C31_local_refresh_partial' depends on axioms: [propext, Quot.sound]
'Tuf.C31_lookup_partial' depends on axioms: [propext, Classical.choice, Quot.sound]
'Tuf.C31_false' depends on axioms: [propext]
'Tuf.C32_metadata_downloads' depends on axioms: [propext, Classical.choice, Quot.sound]
'Tuf.C32_target_downloads' depends on axioms: [propext, Classical.choice, Quot.sound]
'Tuf.C33_urls' depends on axioms: [propext, Classical.choice, Quot.sound]
'Tuf.C33_versioned_injective_partial' depends on axioms: [propext, Classical.choice, Quot.sound]
'Tuf.C33_plain_injective_partial' depends on axioms: [propext, Quot.sound]
'Tuf.C33_top_level_unversioned_partial' depends on axioms: [propext, Classical.choice, Quot.sound]
'Tuf.C33_collision' depends on axioms: [propext, Quot.sound]
'Tuf.C34_refresh_succeeds_partial' depends on axioms: [propext, Classical.choice, Quot.sound]
'Tuf.C34_false' depends on axioms: [propext]
'Tuf.C34_false_type' depends on axioms: [propext]
'Tuf.C35_refresh_partial' depends on axioms: [propext, Classical.choice, Quot.sound]
'Tuf.C35_versions_partial' depends on axioms: [propext, Classical.choice, Quot.sound]
'Tuf.C35_false' depends on axioms: [propext]
'Tuf.C36_listed_partial' depends on axioms: [propext, Classical.choice, Quot.sound]
'Tuf.C36_crash' depends on axioms: [propext]
'Tuf.C37_search' depends on axioms: [propext, Classical.choice, Quot.sound]
'Tuf.C37_bounded' depends on axioms: [propext, Classical.choice, Quot.sound]
'Tuf.C37_downloads' depends on axioms: [propext, Classical.choice, Quot.sound]
'Tuf.C38_delegation_chain' depends on axioms: [propext, Classical.choice, Quot.sound]
'Tuf.C38_visits' depends on axioms: [propext, Classical.choice, Quot.sound]
'Tuf.C39_terminating' depends on axioms: [propext, Classical.choice, Quot.sound]
'Tuf.C40_one_cover_partial' depends on axioms: [propext, Classical.choice, Quot.sound]
'Tuf.C40_false' depends on axioms: [propext]
'Tuf.C41_new_roles_partial' depends on axioms: [propext, Classical.choice, Quot.sound]
'Tuf.C41_first_lookup_partial' depends on axioms: [propext, Classical.choice, Quot.sound]
'Tuf.C41_parent_partial' depends on axioms: [propext, Classical.choice, Quot.sound]
'Tuf.C41_false' depends on axioms: [propext]
'Tuf.C41_false_root' depends on axioms: [propext]
'Tuf.C42_path' depends on axioms: [propext, Classical.choice, Quot.sound]
'Tuf.C43_matching' depends on axioms: [propext, Classical.choice, Quot.sound]
'Tuf.C43_no_mismatch_stored' depends on axioms: [propext, Classical.choice, Quot.sound]
'Tuf.C44_matching' depends on axioms: [propext, Classical.choice, Quot.sound]
'Tuf.C44_absent' depends on axioms: [propext, Classical.choice, Quot.sound]
'Tuf.C44_present' depends on axioms: [propext, Classical.choice, Quot.sound]
'Tuf.C44_reads_only' depends on axioms: [propext, Classical.choice, Quot.sound]
'Tuf.C45_hashed_partial' depends on axioms: [propext, Classical.choice, Quot.sound]
'Tuf.C45_false' depends on axioms: [propext]
'Tuf.C46_prefix_partial' depends on axioms: [propext, Classical.choice, Quot.sound]
'Tuf.C46_false' depends on axioms: [propext, Quot.sound]
'Tuf.C46_deep' depends on axioms: [propext, Classical.choice, Quot.sound]
'Tuf.C47_cache_names' depends on axioms: [propext, Quot.sound]
'Tuf.C47_moves' depends on axioms: [propext, Classical.choice, Quot.sound]
'Tuf.C48_found_again_partial' depends on axioms: [propext, Quot.sound]
'Tuf.C48_read_back_partial' depends on axioms: [propext, Classical.choice, Quot.sound]
'Tuf.C48_top_level' depends on axioms: [propext, Quot.sound]
'Tuf.C48_false' does not depend on any axioms
'Tuf.C48_false_always' depends on axioms: [propext, Classical.choice, Quot.sound]
'Tuf.C48_false_confused' depends on axioms: [propext]
'Tuf.C49_crash_points' depends on axioms: [propext, Classical.choice, Quot.sound]
'Tuf.C49_interrupted' depends on axioms: [propext, Classical.choice, Quot.sound]
'Tuf.C50_hierarchy_partial' depends on axioms: [propext]
'Tuf.C50_repository_error_not_recognised' depends on axioms: [propext]
'Tuf.C50_false' depends on axioms: [propext]
'Tuf.C51_pattern_exact' depends on axioms: [propext, Classical.choice, Quot.sound]
'Tuf.C51_same_depth' depends on axioms: [propext, Classical.choice, Quot.sound]
'Tuf.C51_malformed' depends on axioms: [propext, Classical.choice, Quot.sound]
'Tuf.C102_malformed' depends on axioms: [propext, Classical.choice, Quot.sound]
'Tuf.C52_base64_rule_partial' depends on axioms: [propext, Classical.choice, Quot.sound]
'Tuf.C52_hex_prefixes_never_match' depends on axioms: [propext, Classical.choice, Quot.sound]
'Tuf.C52_false' depends on axioms: [propext]
'Tuf.C53_bins' depends on axioms: [propext, Classical.choice, Quot.sound]
'Tuf.C53_bit_length_33_crash' depends on axioms: [propext]
'Tuf.C54_number_of_roles' depends on axioms: [propext, Classical.choice, Quot.sound]
'Tuf.C54_roles_are_delegated' depends on axioms: [propext, Classical.choice, Quot.sound]
'Tuf.C54_partial' depends on axioms: [propext, Classical.choice, Quot.sound]
'Tuf.C54_uppercase_accepted' depends on axioms: [propext]
'Tuf.C55_roles_for_target' depends on axioms: [propext, Classical.choice, Quot.sound]
'Tuf.C56_no_role' depends on axioms: [propext]
'Tuf.C56_add_key_partial' depends on axioms: [propext, Quot.sound]
'Tuf.C56_no_duplicate' depends on axioms: [propext, Quot.sound]
'Tuf.C56_nil_keys_crash' depends on axioms: [propext]
'Tuf.C57_not_listed' depends on axioms: [propext]
'Tuf.C57_revoke_key' depends on axioms: [propext, Classical.choice, Quot.sound]
'Tuf.C57_null_role_crash' depends on axioms: [propext]
'Tuf.C58_consistent' depends on axioms: [propext, Classical.choice, Quot.sound]
'Tuf.C58_fresh_root' depends on axioms: [propext, Quot.sound]
'Tuf.C59_add_unknown' depends on axioms: [propext, Quot.sound]
'Tuf.C59_add_to_role' depends on axioms: [propext, Quot.sound]
'Tuf.C59_add_succinct' depends on axioms: [propext, Quot.sound]
'Tuf.C59_unused_key_stored' depends on axioms: [propext]
'Tuf.C59_revoke_failure' depends on axioms: [propext, Quot.sound]
'Tuf.C59_revoke_from_role' depends on axioms: [propext, Quot.sound]
'Tuf.C59_revoke_succinct' depends on axioms: [propext, Quot.sound]
'Tuf.C60_succeeds' depends on axioms: [propext, Classical.choice, Quot.sound]
'Tuf.C60_no_crash' does not depend on any axioms
'Tuf.C60_verifies' depends on axioms: [propext, Classical.choice, Quot.sound]
'Tuf.C61_target_exact' depends on axioms: [propext, Classical.choice, Quot.sound]
'Tuf.C61_meta_exact' depends on axioms: [propext, Classical.choice, Quot.sound]
'Tuf.C61_unsupported' depends on axioms: [propext, Classical.choice, Quot.sound]
'Tuf.C61_order' depends on axioms: [propext, Classical.choice, Quot.sound]
'Tuf.C61_meta_order' depends on axioms: [propext, Classical.choice, Quot.sound]
'Tuf.C62_equal_exact_partial' depends on axioms: [propext, Classical.choice, Quot.sound]
'Tuf.C62_symmetric_partial' depends on axioms: [propext, Classical.choice, Quot.sound]
'Tuf.C62_reflexive_partial' depends on axioms: [propext, Classical.choice, Quot.sound]
'Tuf.C62_transitive_partial' depends on axioms: [propext, Classical.choice, Quot.sound]
'Tuf.C62_not_equivalence' does not depend on any axioms
'Tuf.C63_round_trip' depends on axioms: [propext, Quot.sound]
'Tuf.C63_accepts' depends on axioms: [propext, Classical.choice, Quot.sound]
'Tuf.C63_lowercase' depends on axioms: [propext, Classical.choice, Quot.sound]
'Tuf.C64_root_partial' depends on axioms: [propext, Classical.choice, Quot.sound]
'Tuf.C64_snapshot_partial' depends on axioms: [propext, Classical.choice, Quot.sound]
'Tuf.C64_timestamp_partial' depends on axioms: [propext, Classical.choice, Quot.sound]
'Tuf.C64_targets_partial' depends on axioms: [propext, Classical.choice, Quot.sound]
'Tuf.C64_false_variant' depends on axioms: [propext]
'Tuf.C64_false_error' depends on axioms: [propext]
'Tuf.C64_false_succinct' depends on axioms: [propext]
'Tuf.C64_false_hashes' depends on axioms: [propext]
'Tuf.C65_root' depends on axioms: [propext, Classical.choice, Quot.sound]
'Tuf.C65_snapshot' depends on axioms: [propext, Classical.choice, Quot.sound]
'Tuf.C65_timestamp' depends on axioms: [propext, Classical.choice, Quot.sound]
'Tuf.C65_targets' depends on axioms: [propext, Classical.choice, Quot.sound]
'Tuf.C65_type' depends on axioms: [propext, Classical.choice, Quot.sound]
'Tuf.C65_false_by_hand' depends on axioms: [propext]
'Tuf.C66_root_partial' depends on axioms: [propext, Classical.choice, Quot.sound]
'Tuf.C66_snapshot_partial' depends on axioms: [propext, Classical.choice, Quot.sound]
'Tuf.C66_timestamp_partial' depends on axioms: [propext, Classical.choice, Quot.sound]
'Tuf.C66_targets_partial' depends on axioms: [propext, Classical.choice, Quot.sound]
'Tuf.C66_written_partial' depends on axioms: [propext, Classical.choice, Quot.sound]
'Tuf.C66_false_absent' depends on axioms: [propext]
'Tuf.C66_false_zero' depends on axioms: [propext]
'Tuf.C66_false_rounded' depends on axioms: [propext]
'Tuf.C67_keyval' depends on axioms: [propext, Classical.choice, Quot.sound]
'Tuf.C67_key' depends on axioms: [propext, Classical.choice, Quot.sound]
'Tuf.C67_role' depends on axioms: [propext, Classical.choice, Quot.sound]
'Tuf.C67_succinct' depends on axioms: [propext, Classical.choice, Quot.sound]
'Tuf.C67_signature' depends on axioms: [propext, Classical.choice, Quot.sound]
'Tuf.C67_root' depends on axioms: [propext, Classical.choice, Quot.sound]
'Tuf.C67_snapshot' depends on axioms: [propext, Classical.choice, Quot.sound]
'Tuf.C67_timestamp' depends on axioms: [propext, Classical.choice, Quot.sound]
'Tuf.C67_document' depends on axioms: [propext, Classical.choice, Quot.sound]
'Tuf.C67_meta_partial' depends on axioms: [propext, Classical.choice, Quot.sound]
'Tuf.C67_target_partial' depends on axioms: [propext, Classical.choice, Quot.sound]
'Tuf.C67_delegated_partial' depends on axioms: [propext, Classical.choice, Quot.sound]
'Tuf.C67_delegations_partial' depends on axioms: [propext, Classical.choice, Quot.sound]
'Tuf.C67_targets_partial' depends on axioms: [propext, Classical.choice, Quot.sound]
'Tuf.C67_read_root' depends on axioms: [propext, Classical.choice, Quot.sound]
'Tuf.C67_read_snapshot' depends on axioms: [propext, Classical.choice, Quot.sound]
'Tuf.C67_read_timestamp' depends on axioms: [propext, Classical.choice, Quot.sound]
'Tuf.C67_read_targets' depends on axioms: [propext, Classical.choice, Quot.sound]
'Tuf.C67_false' depends on axioms: [propext]
'Tuf.C68_search' depends on axioms: [propext, Quot.sound]
'Tuf.C68_consensus_partial' depends on axioms: [propext, Quot.sound]
'Tuf.C68_unanimous_partial' depends on axioms: [propext, Quot.sound]
'Tuf.C68_false' depends on axioms: [propext]
'Tuf.C68_search' depends on axioms: [propext, Quot.sound]
'Tuf.C69_terminating' depends on axioms: [propext, Quot.sound]
'Tuf.C70_ambiguous_partial' depends on axioms: [propext, Quot.sound]
'Tuf.C70_conflict_partial' depends on axioms: [propext, Classical.choice, Quot.sound]
'Tuf.C70_false' depends on axioms: [propext]
'Tuf.C71_verified' depends on axioms: [propext, Classical.choice, Quot.sound]
'Tuf.C72_roots' depends on axioms: [propext, Quot.sound]
'Tuf.C72_unique' depends on axioms: [propext, Classical.choice, Quot.sound]
'Tuf.C72_clients' depends on axioms: [propext, Classical.choice, Quot.sound]
'Tuf.C73_known_partial' depends on axioms: [propext, Quot.sound]
'Tuf.C73_crash_partial' depends on axioms: [propext, Classical.choice, Quot.sound]
'Tuf.C73_false' depends on axioms: [propext]
'Tuf.C74_bounded' depends on axioms: [propext, Quot.sound]
'Tuf.C75_complete_partial' depends on axioms: [propext, Classical.choice, Quot.sound]
'Tuf.C75_delivers' depends on axioms: [propext, Classical.choice, Quot.sound]
'Tuf.C75_declared' depends on axioms: [propext, Classical.choice, Quot.sound]
'Tuf.C75_empty_at_max_limit' depends on axioms: [propext]
'Tuf.C76_status' depends on axioms: [propext]
'Tuf.C77_map_semantics' depends on axioms: [propext, Quot.sound]
'Tuf.C78_new' depends on axioms: [propext, Classical.choice, Quot.sound]
'Tuf.C78_root' depends on axioms: [propext, Classical.choice, Quot.sound]
'Tuf.C78_timestamp' depends on axioms: [propext, Classical.choice, Quot.sound]
'Tuf.C78_snapshot' depends on axioms: [propext, Classical.choice, Quot.sound]
'Tuf.C78_targets' depends on axioms: [propext, Classical.choice, Quot.sound]
'Tuf.C79_from_new' depends on axioms: [propext, Classical.choice, Quot.sound]
'Tuf.C79_cache_mirrors' depends on axioms: [propext, Classical.choice, Quot.sound]
'Tuf.C80_sessions' depends on axioms: [propext, Classical.choice, Quot.sound]
'Tuf.C65_type' depends on axioms: [propext, Classical.choice, Quot.sound]
'Tuf.C81_partial' depends on axioms: [propext, Classical.choice, Quot.sound]
'Tuf.C81_false' depends on axioms: [propext]
'Tuf.C82_always_sound' depends on axioms: [propext, Classical.choice, Quot.sound]
'Tuf.C83_end_to_end' depends on axioms: [propext, Classical.choice, Quot.sound]
'Tuf.C84_own_type_partial' depends on axioms: [propext, Classical.choice, Quot.sound]
'Tuf.C84_false' depends on axioms: [propext]
'Tuf.C85_root' depends on axioms: [propext, Classical.choice, Quot.sound]
'Tuf.C85_snapshot' depends on axioms: [propext, Classical.choice, Quot.sound]
'Tuf.C85_timestamp' depends on axioms: [propext, Classical.choice, Quot.sound]
'Tuf.C85_targets' depends on axioms: [propext, Classical.choice, Quot.sound]
'Tuf.C85_payload' depends on axioms: [propext, Quot.sound]
'Tuf.C86_root' depends on axioms: [propext, Classical.choice, Quot.sound]
'Tuf.C86_next_root' depends on axioms: [propext, Classical.choice, Quot.sound]
'Tuf.C86_release' depends on axioms: [propext, Classical.choice, Quot.sound]
'Tuf.C86_delegated' depends on axioms: [propext, Classical.choice, Quot.sound]
'Tuf.C87_refresh' depends on axioms: [propext, Classical.choice, Quot.sound]
'Tuf.C88_target_partial' depends on axioms: [propext, Classical.choice, Quot.sound]
'Tuf.C88_download_partial' depends on axioms: [propext, Classical.choice, Quot.sound]
'Tuf.C88_deep' depends on axioms: [propext, Classical.choice, Quot.sound]
'Tuf.C89_not_found' depends on axioms: [propext, Classical.choice, Quot.sound]
'Tuf.C90_cached' depends on axioms: [propext, Classical.choice, Quot.sound]
'Tuf.C90_delegated' depends on axioms: [propext, Classical.choice, Quot.sound]
'Tuf.C91_trusted_set' depends on axioms: [propext, Classical.choice, Quot.sound]
'Tuf.C91_client' depends on axioms: [propext, Classical.choice, Quot.sound]
'Tuf.C91_download' depends on axioms: [propext, Classical.choice, Quot.sound]
'Tuf.C92_offline_partial' depends on axioms: [propext, Classical.choice, Quot.sound]
'Tuf.C92_false' depends on axioms: [propext]
'Tuf.C93_upgrade' depends on axioms: [propext, Classical.choice, Quot.sound]
'Tuf.C93_keeps_up' depends on axioms: [propext, Classical.choice, Quot.sound]
'Tuf.C94_get_delivers' depends on axioms: [propext, Classical.choice, Quot.sound]
'Tuf.C95_anchor' depends on axioms: [propext, Classical.choice, Quot.sound]
'Tuf.C95_get_delivers' depends on axioms: [propext, Classical.choice, Quot.sound]
'Tuf.C95_plain' depends on axioms: [propext, Classical.choice, Quot.sound]
'Tuf.C96_downloaded' depends on axioms: [propext, Classical.choice, Quot.sound]
'Tuf.C96_file_partial' depends on axioms: [propext, Classical.choice, Quot.sound]
'Tuf.C96_no_second_init' depends on axioms: [propext, Quot.sound]
'Tuf.C96_bad_anchor' depends on axioms: [propext, Quot.sound]
'Tuf.C96_then_get' depends on axioms: [propext, Classical.choice, Quot.sound]
'Tuf.C96_plain' depends on axioms: [propext, Classical.choice, Quot.sound]
'Tuf.C96_false_copy' depends on axioms: [propext]
'Tuf.C96_false_failure' depends on axioms: [propext]
'Tuf.C97_get_succeeds_partial' depends on axioms: [propext, Classical.choice, Quot.sound]
'Tuf.C97_get_delegated_partial' depends on axioms: [propext, Classical.choice, Quot.sound]
'Tuf.C98_reset_partial' depends on axioms: [propext, Quot.sound]
'Tuf.C98_consent' depends on axioms: [propext, Quot.sound]
'Tuf.C98_false' does not depend on any axioms
'Tuf.C99_root' depends on axioms: [propext, Classical.choice, Quot.sound]
'Tuf.C99_snapshot' depends on axioms: [propext, Classical.choice, Quot.sound]
'Tuf.C99_timestamp' depends on axioms: [propext, Classical.choice, Quot.sound]
'Tuf.C99_targets' depends on axioms: [propext, Classical.choice, Quot.sound]
'Tuf.C99_publish_root' depends on axioms: [propext, Classical.choice, Quot.sound]
'Tuf.C99_publish_snapshot' depends on axioms: [propext, Classical.choice, Quot.sound]
'Tuf.C99_publish_timestamp' depends on axioms: [propext, Classical.choice, Quot.sound]
'Tuf.C99_publish_targets' depends on axioms: [propext, Classical.choice, Quot.sound]
