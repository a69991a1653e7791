# Verify
c('C01', 'proved', 'C01_threshold_soundness C01_signatures_are_present')
c('C02', 'proved', 'C02_threshold_completeness C02_exact_rule')
c('C03', 'proved', 'C03_key_id_counts_once C03_one_id_never_two')
c('C04', 'partial', 'C04_unsigned_accepted C04_partial C04_extent_partial', 'False as stated: a threshold of 0 or less accepts unsigned metadata (witness proved). Holds for thresholds of at least 1.')
c('C05', 'partial', 'C05_same_key_counts_twice C05_partial', 'False as stated: one public key under two key IDs counts twice (witness proved). Holds when different listed key IDs name different public keys.')
c('C06', 'proved', 'C06_foreign_signature_irrelevant')
c('C07', 'proved', 'C07_order_irrelevant')
c('C08', 'proved', 'C08_sign_appends C08_sign_then_verify C08_all_types')
c('C09', 'partial', 'C09_partial C09_nothing_without_delegation_partial C09_succinct_accepts_any_name', 'False for succinct delegations, where any role name verifies (witness proved). All other cases proved.')
c('C10', 'partial', 'C10_scheme_is_ignored C10_wrong_scheme_accepted C10_partial', 'False: the declared scheme is never looked at (proved for all keys). The verifier follows the declared key type.')

# Trusted set
c('C11', 'partial', 'C11_root_rotations_partial C11_one_call_partial C11_version_wraps', 'Signatures proved for all histories. The version is exactly one more except after version 2^63-1, where the int64 addition wraps and only version -2^63 is accepted (witness proved).')
c('C12', 'proved', 'C12_frozen')
c('C13', 'proved', 'C13_no_timestamp_rollback C13_equal_version')
c('C14', 'proved', 'C14_no_snapshot_rollback')
c('C15', 'proved', 'C15_no_targets_rollback')
c('C16', 'proved', 'C16_targets_match_snapshot')
c('C17', 'proved', 'C17_root_fresh C17_timestamp_fresh C17_snapshot_fresh')
c('C18', 'proved', 'C18_failed_update')
c('C19', 'partial', 'C19_trusted_types C19_declared C19_returned_type_partial C19_type_confusion', 'Proved for New and Update*. For FromBytes alone the returned value can have another type, because struct decoding ignores case (witness proved); holds if members are not respelled.')
c('C20', 'proved', 'C20_expiry_exact C20_reference_time')
c('C21', 'partial', 'C21_crash C21_fromBytes_partial C21_not_json_partial C21_update_partial C21_missing_entry_crash C21_null_target_crash C21_length_crash C21_length_client_crash', 'False: documents without signed._type, null targets, missing or null entries, and Ed25519 keys that are not 32 bytes long panic (proved; the last given that crypto/ed25519 panics for such keys and sigstore does not refuse them, as their sources say). No other panics: proved.')
c('C22', 'proved', 'C22_unique_signatures C22_rejected_only_then')
c('C23', 'partial', 'C23_untrusted_snapshot_partial C23_refresh_partial C23_cached_snapshot_unchecked', 'Proved for data loaded as untrusted and for what Refresh ends up with unless it comes from the cache file; false for the cached file, which is loaded as trusted (witness proved).')
c('C78', 'proved', 'C78_new C78_root C78_timestamp C78_snapshot C78_targets')

# Paths
c('C51', 'proved', 'C51_pattern_exact C51_same_depth C51_malformed C102_malformed')
c('C52', 'partial', 'C52_base64_rule_partial C52_hex_prefixes_never_match C52_false', 'False: prefixes are compared with the base64url digest. Proved for all digests that a non-empty correct hex prefix never matches.')
c('C53', 'proved', 'C53_bins C53_bit_length_33_crash', 'SHA-256 digests are assumed to have at least 4 bytes. Outside the claim, bit length 33 panics.')
c('C54', 'partial', 'C54_number_of_roles C54_roles_are_delegated C54_partial C54_uppercase_accepted', 'GetRoles is included in IsDelegatedRole; the converse holds for lowercase hex suffixes and fails for uppercase digits and signs (witness proved).')
c('C55', 'proved', 'C55_roles_for_target')

# Keys
c('C56', 'partial', 'C56_no_role C56_add_key_partial C56_no_duplicate C56_nil_keys_crash', 'For roots with a key store (every parsed or constructed root that has keys); with a nil key store AddKey panics (witness proved).')
c('C57', 'proved', 'C57_not_listed C57_revoke_key C57_null_role_crash', 'Outside the claim: with a null role RevokeKey crashes half-way (C57_null_role_crash).')
c('C58', 'proved', 'C58_consistent C58_fresh_root', 'Without null roles and with a key store; C57_null_role_crash and C56_nil_keys_crash show what happens otherwise.')
c('C59', 'partial', 'C59_add_unknown C59_add_to_role C59_add_succinct C59_unused_key_stored C59_revoke_failure C59_revoke_from_role C59_revoke_succinct', 'Proved for role lists and succinct delegations. False for delegations with neither, where AddKey stores an unused key (witness proved).')

# Small
c('C50', 'partial', 'C50_hierarchy_partial C50_repository_error_not_recognised C50_false', 'False for ErrRepository with a message, which is what the library returns. The hierarchy below is exact.')
c('C60', 'proved', 'C60_succeeds C60_no_crash C60_verifies')
c('C61', 'proved', 'C61_target_exact C61_meta_exact C61_unsupported C61_order C61_meta_order')
c('C62', 'partial', 'C62_equal_exact_partial C62_symmetric_partial C62_reflexive_partial C62_transitive_partial C62_not_equivalence', 'False: not reflexive without hashes, not transitive across different algorithms (witnesses proved). Symmetric always.')
c('C63', 'proved', 'C63_round_trip C63_accepts C63_lowercase')
c('C74', 'proved', 'C74_bounded')
c('C75', 'partial', 'C75_complete_partial C75_delivers C75_declared C75_empty_at_max_limit', 'Proved for limits below 2^63-1; false at 2^63-1, where the limit wraps around (witness proved).')
c('C76', 'proved', 'C76_status')
c('C77', 'proved', 'C77_map_semantics')

# Updater: files and downloads
c('C27', 'proved', 'C27_only_verified C27_new')
c('C28', 'proved', 'C28_crash_atomic C28_new C28_role_files', 'Files by path string; temporary files and the target file being downloaded are excluded, so the target file must not be a metadata file.')
c('C30', 'proved', 'C30_disabled_cache C30_new')
c('C31', 'partial', 'C31_local_refresh_partial C31_lookup_partial C31_false', 'False: GetTargetInfo downloads delegated roles that are not cached (witness proved). Refresh only reads files; GetTargetInfo downloads nothing before targets is loaded.')
c('C32', 'proved', 'C32_metadata_downloads C32_target_downloads')
c('C33', 'partial', 'C33_urls C33_versioned_injective_partial C33_plain_injective_partial C33_top_level_unversioned_partial C33_collision', 'The form of all URLs is proved. Distinctness holds among versioned URLs and among unversioned ones; an unversioned role named like 2.root collides with a versioned root (proved).')
c('C47', 'proved', 'C47_cache_names C47_moves')
c('C48', 'partial', 'C48_found_again_partial C48_read_back_partial C48_top_level C48_false C48_false_always C48_false_confused', 'False for role names changed by URL escaping (witness proved). Holds for names of unreserved characters, in particular the top-level roles; false for every name with another character, in every directory.')
c('C24', 'proved', 'C24_refresh_complete')
c('C25', 'partial', 'C25_root_phase_partial C25_consecutive_partial C25_negative_limit', 'Proved for every limit except a negative one with a trusted root version so close to 2^63 that the bound wraps around; there the claim is false, and C25_negative_limit proves it with a witness (limit -1, version 2^63-1).')
c('C26', 'proved', 'C26_refresh_once')

# Cache
c('C29', 'proved', 'C29_timestamp C29_snapshot', 'The cached file must be readable by the session, otherwise it is not part of its cache.')
c('C34', 'partial', 'C34_refresh_succeeds_partial C34_false C34_false_type', 'False for cache files that are not JSON or of another type (witnesses proved). Proved: Refresh succeeds if every cache file is absent, refused with a repository error, or acceptable and not newer.')
c('C35', 'partial', 'C35_refresh_partial C35_versions_partial C35_false', 'False: New replaces a newer cached root by the configured one (witness proved). Within Refresh the cached root is only replaced along accepted rotations, at every crash point.')
c('C79', 'proved', 'C79_from_new C79_cache_mirrors')
c('C80', 'proved', 'C80_sessions')

# Delegation search
c('C36', 'partial', 'C36_listed_partial C36_crash', 'False: the client crashes (nil dereference) instead of returning an error (witness proved). Proved: GetTargetInfo never succeeds after consulting an unlisted role.')
c('C37', 'proved', 'C37_search C37_bounded C37_downloads')
c('C38', 'proved', 'C38_delegation_chain C38_visits')
c('C39', 'proved', 'C39_terminating')
c('C40', 'partial', 'C40_one_cover_partial C40_false', 'False: the delegations go through a Go map, so their order is random (witness proved). Proved: the order is irrelevant when no trusted role has two delegations that cover the path.')
c('C41', 'partial', 'C41_new_roles_partial C41_first_lookup_partial C41_parent_partial C41_false C41_false_root', 'False: roles are kept by name only, so a role loaded through one parent is used through another parent whose keys it was not signed with, and the delegations of a delegated role called root are verified against root metadata (witnesses proved). Proved for roles not loaded by an earlier lookup and parents not called root.')
c('C42', 'proved', 'C42_path')

# Target files
c('C43', 'proved', 'C43_matching C43_no_mismatch_stored')
c('C44', 'proved', 'C44_matching C44_absent C44_present C44_reads_only', 'The empty string stands for no path.')
c('C45', 'partial', 'C45_hashed_partial C45_false', 'False: a target listed without hashes is accepted by length alone (witness proved). Proved for infos with a hash.')
c('C46', 'partial', 'C46_prefix_partial C46_false C46_deep', 'False for paths with two or more slashes (witness, and for all of them C46_deep). Proved for at most one slash and at least one hash.')
c('C49', 'proved', 'C49_crash_points C49_interrupted')

# Multi-repository client
c('C68', 'partial', 'C68_search C68_consensus_partial C68_unanimous_partial C68_false', 'False: the result pointer refers to the loop variable, so the last group is returned instead of the one that reached the threshold (witness proved). Proved: some info reached the threshold, and the full claim when all answers agree.')
c('C69', 'proved', 'C68_search C69_terminating')
c('C70', 'partial', 'C70_ambiguous_partial C70_conflict_partial C70_false', 'False where Equal is not transitive (witness proved). Proved for the groups of the code, and for all answers on which Equal is an equivalence.')
c('C71', 'proved', 'C71_verified')
c('C72', 'proved', 'C72_roots C72_unique C72_clients')
c('C73', 'partial', 'C73_known_partial C73_crash_partial C73_false', 'False: the client crashes with a nil dereference (witness proved). Proved: no result is built on a mapping with an unknown repository, and there are no other crashes of its own.')

# Serialisation
c('C64', 'partial', 'C64_root_partial C64_snapshot_partial C64_timestamp_partial C64_targets_partial C64_false_variant C64_false_error C64_false_succinct C64_false_hashes', 'False: an unrecognised field that differs from a recognised one in letter case is read into the recognised one the second time; a delegation with both paths and hash prefixes fails to serialise; succinct roles beside roles and empty hash maps are dropped (witnesses proved). Proved for documents without these.')
c('C65', 'proved', 'C65_root C65_snapshot C65_timestamp C65_targets C65_type C65_false_by_hand', 'Up to what no client function reads: empty or nil hash maps of meta files, the spelling of custom, succinct roles beside roles. For values built by hand (not read) it is false: C65_false_by_hand.')
c('C66', 'partial', 'C66_root_partial C66_snapshot_partial C66_timestamp_partial C66_targets_partial C66_written_partial C66_false_absent C66_false_zero C66_false_rounded', 'False: the payload is made from the struct, so that absent fields appear, zero lengths disappear and large numbers are rounded (witnesses proved). Proved for documents written by ToBytes, and for all documents with complete signed parts: all mandatory members, normal forms, distinct names.')
c('C67', 'partial', 'C67_keyval C67_key C67_role C67_succinct C67_signature C67_root C67_snapshot C67_timestamp C67_document C67_meta_partial C67_target_partial C67_delegated_partial C67_delegations_partial C67_targets_partial C67_read_root C67_read_snapshot C67_read_timestamp C67_read_targets C67_false', 'False for fields that are left out when empty (witness proved); proved for all other fields, and for all fields of values returned by FromBytes.')
c('C81', 'partial', 'C65_type C81_partial C81_false', 'False: a document with the members signed and Signed is checked for the type of the first and read from the last (witness proved): a snapshot can be replayed as timestamp when both roles share a key. Proved for documents without a second spelling of signed or _type.')

# Chains of trust
c('C82', 'proved', 'C82_always_sound')
c('C83', 'proved', 'C83_end_to_end')
c('C84', 'partial', 'C84_own_type_partial C84_false', 'False for delegated roles named root, timestamp or snapshot whose hash the snapshot lists: a lookup replaces the cached file by targets metadata, and later refreshes fail (witness proved). Proved for sessions that load no targets role of that name.')

# Honest repositories
c('C85', 'proved', 'C85_root C85_snapshot C85_timestamp C85_targets C85_payload', 'Assumes that encoding/json reads what it printed for this document, and the laws of EnvLaws.')
c('C86', 'proved', 'C86_root C86_next_root C86_release C86_delegated', 'Correctness of the signature schemes is a hypothesis (Suffice).')
c('C87', 'proved', 'C87_refresh')
c('C88', 'partial', 'C88_target_partial C88_download_partial C88_deep', 'GetTargetInfo in full. DownloadTarget with hash prefixes only for paths with at most one slash: all others are requested under wrong names and fail with a server that only has the names of the specification (C88_deep).')
c('C89', 'proved', 'C89_not_found')
c('C90', 'proved', 'C90_cached C90_delegated', 'For role names without characters that the cache file names escape.')
c('C91', 'proved', 'C91_trusted_set C91_client C91_download', 'Ideal signatures and the bound on compromised keys are hypotheses (Diligent, WellGuarded), as are the laws of EnvLaws.')
c('C92', 'partial', 'C92_offline_partial C92_false', 'False if the refresh used a cached snapshot that does not have the length and hashes listed in the new timestamp: online it is accepted, in local mode it is not (witness proved). Proved if the cached snapshot has them.')
c('C93', 'proved', 'C93_upgrade C93_keeps_up', 'Disk and network work during the runs; correctness of the signature schemes is part of Released (Suffice).')
c('C94', 'proved', 'C94_get_delivers')
c('C95', 'proved', 'C95_anchor C95_get_delivers C95_plain', 'C95_get_delivers assumes that the files of downloads are not root.json of the metadata folder, which concerns only the parameter urlJoin; C95_plain proves it for plain working directories with the modelled url.JoinPath.')
c('C96', 'partial', 'C96_downloaded C96_file_partial C96_no_second_init C96_bad_anchor C96_then_get C96_plain C96_false_copy C96_false_failure', 'False for -f with other file names and for failed calls (both negations proved).')
c('C97', 'partial', 'C97_get_succeeds_partial C97_get_delegated_partial', 'Targets of top-level targets, and of delegated roles in repositories as in C90. Missing: target paths with more than one slash when target file names are prefixed with hashes, which all fail (C88_deep).')
c('C98', 'partial', 'C98_reset_partial C98_consent C98_false', 'False if a deletion fails (negation proved).')
c('C99', 'proved', 'C99_root C99_snapshot C99_timestamp C99_targets C99_publish_root C99_publish_snapshot C99_publish_timestamp C99_publish_targets', 'The publish theorems give the hypothesis Publishes of C86 to C93 and C97 from calls of Sign and ToBytes alone.')
c('C100', 'proved', 'C100_read C100_reads_back C100_calendar C100_expired C100_text_order C100_instants', 'Offsets of 24 hours and more are excluded, see Model/Std/Time.lean.')
c('C101', 'partial', 'C101_kept_partial C101_stable_partial C101_decimals_partial C101_close_partial C101_false', 'False above 2^53 (witness: a whole file, proved). Proved for integers below 2^53, for all numbers from the second reading on, and for the value of all decimals of at most 15 digits; a bound for the others.')
c('C102', 'partial', 'C102_sound C102_ascii C102_role C102_malformed C102_plain C102_star C102_false C102_map C102_map_skips C102_map_malformed C102_map_star C102_map_false', 'Exact for paths in ASCII. For others a covered path matches byte by byte; by characters it is false (witness). Map files match whole paths, where * does not cross slashes and classes that contain the slash break the search (witness).')
c('C103', 'partial', 'C103_text C103_distinct C103_again C103_filed C103_false C103_read_false', 'False for changed keys (cached ID) and for keys in metadata that was read (stored IDs are not compared); proved for keys whose ID was not asked for before.')
c('C104', 'partial', 'C104_declared C104_round_trip C104_add_sign_verify C104_false', 'The PEM text of the key is assumed to be read back as written (proved in C138; Ed25519 keys need no assumption). False for key type ecdsa-sha2-nistp256 (witness).')
c('C105', 'partial', 'C105_grammar C105_refused C105_unambiguous C105_layout C105_spelling_root_partial C105_spelling_timestamp_partial C105_spelling_snapshot_partial C105_spelling_targets_partial C105_spelling_payload C105_written C105_trailing C105_map C105_false C105_false_spelling', 'For the model of encoding/json in Model/Std/JsonText.lean. False for texts that are not UTF-8 (C105_false) and for escape sequences in times, hashes and signatures (C105_false_spelling); what remains is proved.')
c('C106', 'proved', 'C106_after_refresh C106_lookup C106_stable C106_not_listed', 'MaxDelegations >= 0 (default 32).')
c('C107', 'partial', 'C107_listed_partial C107_names_partial C107_no_consensus_partial C107_false', 'False as the comment in the source states it (witness); exact names and provenance of what is returned proved.')
c('C108', 'partial', 'C108_before_refresh C108_multi_before_refresh C108_after_refresh_partial C108_false', 'False directly after New (for every configuration); after Refresh proved.')
c('C109', 'proved', 'C109_root C109_snapshot C109_timestamp C109_targets C109_unverifiable C109_read_not_signed', 'Stated for values with the shape FromBytes returns (Good*); canonical JSON is modelled after go-securesystemslib/cjson.')
c('C110', 'partial', 'C110_generates C110_clients_partial C110_false', 'encoding/json, RFC 3339 times and UTF-8 are modelled (std env); signatures, SHA-256 and key encodings are parameters. Missing: paths with two or more slashes fetched with hash prefixes, which all fail (C88_deep; C110_false is a witness).')
c('C111', 'partial', 'C111_stored_partial C111_found_partial C111_separate_partial C111_false', 'url.JoinPath is modelled (Model/Std/Url.lean). Missing: directories that are not plain and the targets . and .., for which C111_false has witnesses.')
c('C112', 'partial', 'C112_new_partial C112_target_partial C112_metadata_partial C112_defaults C112_metadata_any C112_tail_metadata C112_tail_targets C112_false C112_false_fragment', 'url.JoinPath is modelled completely. False for all URLs with a query or a fragment (C112_tail_metadata, C112_tail_targets; instances C112_false, C112_false_fragment). Limits and metadata requests hold for every URL (C112_defaults, C112_metadata_any). Missing: the targets folder for URLs with escapes in user and host and for paths with bytes that JoinPath rewrites.')
c('C113', 'partial', 'C113_recovers_partial C113_after_attack_partial C113_false', 'Missing: the case of only one of the roles timestamp and snapshot being given new keys, for which C113_false shows that clients do not recover.')
c('C114', 'partial', 'C114_root_partial C114_timestamp_partial C114_snapshot_partial C114_targets_partial C114_refresh_partial C114_false', 'What is loaded is what is stated. Missing: that versions are positive and the specification version is supported, refuted by C114_false.')
c('C115', 'proved', 'C115_root C115_snapshot C115_timestamp C115_targets C115_threshold', 'Good values as for C85; that encoding/json can read what it printed is a hypothesis here and proved for the modelled text format by C99.')
c('C116', 'proved', 'C116_root C116_snapshot C116_timestamp C116_targets', 'For the modelled JSON text format and time format. Hypotheses: strings are UTF-8, unrecognised fields and custom have no fractions and no variant spellings of known names, delegations have one kind of roles.')
c('C117', 'proved', 'C117_exactly', 'Hypotheses: PEM encoding can be read back; the signature library accepts what the signers sign, does not panic, and rejects empty signatures; the staff has different key IDs.')
c('C118', 'proved', 'C118_succeeds C118_clients', 'For the modelled JSON text, time and glob formats. Hypotheses: PEM encoding gives texts and can be read back (proved in C138); the signature library accepts what the signers sign and does not panic; generating keys and writing files do not fail. The client has no cached metadata, network and disk work, and the limits allow two rotations, two delegations and the lengths.')
c('C119', 'partial', 'C119_clients C119_isolated_partial C119_roots_partial C119_false', 'The configuration of the clients holds in full. Separation of files holds for repository names that are one path component, and for downloads that do not name a metadata file as destination; it is false for names with slashes or `..` (witness: a repository `2/../1` overwrites the root of `1`, and `..` writes outside the folder).')
c('C120', 'partial', 'C120_targets_partial C120_false', 'Holds whenever New succeeds. False in general: with caching and no configured folder New never succeeds, because EnsurePathsExist creates the folder with the empty name.')
c('C121', 'partial', 'C121_calls_partial C121_new_partial C121_false', 'Holds while renaming and removing do not fail (creating, writing and everything else may) and downloads are not directed at temporary names. False in general: after a failed rename the file stays in the working directory, one more for each attempt (witness).')
c('C122', 'proved', 'C122_agreement C122_honest', 'The second part is for repository names that are one path component, at most 32 roles for the path, a root that leads to the published one within 32 rotations, and hashes that are not empty.')
c('C123', 'partial', 'C123_read_partial C123_accepted_partial C123_repeated_partial C123_false', 'Holds for map files that do not repeat one of these members; if they do, the last one counts where it says something (C123_repeated_partial). False otherwise: a second list of mappings is decoded over the first one, so that the threshold and the terminating flag of the earlier mapping stay (witness). A map file null crashes NewConfig.')
c('C124', 'partial', 'C124_delivers C124_anchor_partial C124_later_partial C124_bad_anchor C124_false_stat C124_false_first', 'Holds when asking whether the root file exists does not fail and no download goes to the root file. False otherwise: any error of os.Stat counts as missing, and the root file is overwritten with what the server has as first root (witness). A first answer that is no root is kept and every later run fails (witness).')
c('C125', 'partial', 'C125_bootstrap C125_main C125_anchor_partial C125_inside C125_false_order C125_false_traversal', 'False in two points: if two targets share a folder, the order of a Go map decides which one becomes the root (witness); a target ../../root.json replaces the trust anchor (witness). The anchor is proved unchanged for all listings without a path that resolves to it, in particular without components "..".')
c('C126', 'proved', 'C126_info C126_data C126_listing', '')
c('C127', 'proved', 'C127_target C127_target_written C127_meta C127_meta_written', 'Directly.')
c('C128', 'partial', 'C128_load C128_loads C128_not_loaded C128_save C128_saves C128_not_saved C128_round_trip C128_root C128_snapshot C128_timestamp C128_targets C128_failed_partial C128_target C128_target_succeeds C128_false', 'All but one clause proved. The clause that the old contents survive a failed save is false: ToFile truncates and writes in place, C128_false has a full disk; C128_failed_partial proves what is left of it.')
c('C129', 'proved', 'C129_keeps_up', 'For role names without characters that the cache file names escape.')
c('C130', 'partial', 'C130_run C130_one_partial C130_cached_partial C130_error C130_crash_partial C130_session_partial C130_false_empty C130_false_unknown', 'False for empty files, which are downloaded again though they are there; a repository without a client before the one that has the target crashes the call; a client without a file for the target makes it fail at once. Paths with more than one slash are left out for hash-prefixed names: their downloads all fail (C88_deep).')
c('C131', 'proved', 'C131_new C131_keeps_up C131_false_lost', 'Initially the cache is empty. Rotating the root keys without adding the old signers again makes clients fail (C131_false_lost). `Write` and changes of fields other than those of the steps are left out.')
c('C132', 'proved', 'C132_wrong_path C132_never C132_crash C132_hash_prefix C132_root_crash C132_other', 'URLs are below the folder of the simulator, of letters, digits, `-`, `_`, `.`, `~` and slashes.')
c('C133', 'proved', 'C133_added C133_lost C133_succinct', '')
c('C134', 'proved', 'C134_cache C134_recovers', 'Top-level roles. Downloads are not stored in place of cached metadata, which the API would do when told to. What is trusted is the same up to what is not part of the canonical JSON (attackers can re-spell a document without breaking its signatures).')
c('C135', 'proved', 'C135_cache C135_search', 'As C134: no downloads in place of cached metadata, and answers are the same up to what is not part of the canonical JSON. The honest holders publish one document per delegated role and version.')
c('C136', 'partial', 'C136_session C136_gets C136_caught_up C136_demo_runs C136_demo_caught_up C136_no_further C136_false', 'Proved for sessions of the library, for tuf-client and for the example client. False for programs that always start from the same root: C136_no_further for all of them, C136_false is a concrete one that fails in every run.')
c('C137', 'proved', 'C137_root C137_timestamp C137_snapshot C137_targets', 'Both directions, for all documents without repeated members of objects. Repeated members of objects are outside: the last example of MeaningCase shows that maps are then merged.')
c('C138', 'proved', 'C138_reads C138_round_trip C138_written C138_sound C138_surroundings C138_texts C138_add_sign_verify C138_example', 'With models of encoding/pem, encoding/base64 and of the two functions of sigstore that the code calls. DER (crypto/x509) and signatures remain parameters.')
c('C139', 'proved', 'C139_requests C139_steps C139_new C139_refresh_bytes C139_refused_bytes C139_search_bytes C139_target_bytes C139_default_fetcher C139_example C139_example_bytes', 'The example reaches the bounds. With a negative MaxRootRotations a request more is possible (C25_negative_limit).')
c('C140', 'proved', 'C140_same_code C140_same_new C140_alone C140_files C140_trusted C140_evolves C140_example', 'Targets must not be downloaded to files that are named like temporary files. Reads and single writes are atomic; the temporary name is taken exclusively.')
c('C141', 'partial', 'C141_false C141_process_partial C141_alone_example', 'False: a slower client moves the older documents that it has verified over newer ones, and a later client then accepts them (witness proved). Each process by itself is protected whatever the others do; across restarts with one client at a time see C29.')
c('C142', 'partial', 'C142_found_partial C142_downloaded_partial C142_false C142_found_example C142_downloaded_example', 'The second half is false: targets are not written to a temporary file first, and two downloads to one file can leave the beginning of one and the end of the other although both report success (witness proved). What the calls return matches whatever other processes do.')
c('C143', 'proved', 'C143_cache C143_sessions C143_example', 'With overlapping calls the statement is false (C141).')
c('C144', 'proved', 'C144_root C144_delegations C144_stale C144_stale_paths', 'Documents without repeated members: C137.')
c('C145', 'partial', 'C145_again_partial C145_stuck C145_rotated C145_false', 'Proved while no snapshot is trusted and the root that the client can follow needs no new root after a trusted timestamp. False otherwise: once a snapshot is trusted without targets, even an outdated one from the cache, Refresh and GetTargetInfo fail for ever; a trusted timestamp and a newer root on the server make every Refresh fail.')
c('C146', 'partial', 'C146_dump_partial C146_false C146_escaped C146_crash', 'False for roots if a delegated role is named like a root file (1.root): its file replaces it. A delegated role whose name needs escapes is dumped where a client in local mode does not look for it, and one named root crashes Write. All else is proved.')
c('C147', 'proved', 'C147_root C147_new', '')
c('C148', 'proved', 'C148_copy C148_setup', 'Names of entries have no slashes, as those of os.ReadDir; the source folders are not in the new temporary folder.')
c('C149', 'proved', 'C149_refresh C149_next_run C149_lookup', 'For hosts on which reading a file that exists works. A role whose name is changed by URL-escaping is stored under another file name than it is read from (C48), so its copy does not count.')
c('C150', 'proved', 'C150_order', '')
c('C151', 'proved', 'C151_named C151_succinct', 'Hypotheses as for C117: PEM encoding can be read back; the signature library accepts what the signers sign, does not panic, and rejects empty signatures; the staff has different key IDs.')
