{
 "claims": [
  {
   "property": "C01",
   "status": "proved",
   "theorems": [
    "Tuf.C01_threshold_soundness",
    "Tuf.C01_signatures_are_present"
   ],
   "note": ""
  },
  {
   "property": "C02",
   "status": "proved",
   "theorems": [
    "Tuf.C02_threshold_completeness",
    "Tuf.C02_exact_rule"
   ],
   "note": ""
  },
  {
   "property": "C03",
   "status": "proved",
   "theorems": [
    "Tuf.C03_key_id_counts_once",
    "Tuf.C03_one_id_never_two"
   ],
   "note": ""
  },
  {
   "property": "C04",
   "status": "partial",
   "theorems": [
    "Tuf.C04_unsigned_accepted",
    "Tuf.C04_partial",
    "Tuf.C04_extent_partial"
   ],
   "note": "False as stated: a threshold of 0 or less accepts unsigned metadata (witness proved). Holds for thresholds of at least 1."
  },
  {
   "property": "C05",
   "status": "partial",
   "theorems": [
    "Tuf.C05_same_key_counts_twice",
    "Tuf.C05_partial"
   ],
   "note": "False as stated: one public key under two key IDs counts twice (witness proved). Holds when different listed key IDs name different public keys."
  },
  {
   "property": "C06",
   "status": "proved",
   "theorems": [
    "Tuf.C06_foreign_signature_irrelevant"
   ],
   "note": ""
  },
  {
   "property": "C07",
   "status": "proved",
   "theorems": [
    "Tuf.C07_order_irrelevant"
   ],
   "note": ""
  },
  {
   "property": "C08",
   "status": "proved",
   "theorems": [
    "Tuf.C08_sign_appends",
    "Tuf.C08_sign_then_verify",
    "Tuf.C08_all_types"
   ],
   "note": ""
  },
  {
   "property": "C09",
   "status": "partial",
   "theorems": [
    "Tuf.C09_partial",
    "Tuf.C09_nothing_without_delegation_partial",
    "Tuf.C09_succinct_accepts_any_name"
   ],
   "note": "False for succinct delegations, where any role name verifies (witness proved). All other cases proved."
  },
  {
   "property": "C10",
   "status": "partial",
   "theorems": [
    "Tuf.C10_scheme_is_ignored",
    "Tuf.C10_wrong_scheme_accepted",
    "Tuf.C10_partial"
   ],
   "note": "False: the declared scheme is never looked at (proved for all keys). The verifier follows the declared key type."
  },
  {
   "property": "C100",
   "status": "proved",
   "theorems": [
    "Tuf.C100_read",
    "Tuf.C100_reads_back",
    "Tuf.C100_calendar",
    "Tuf.C100_expired",
    "Tuf.C100_text_order",
    "Tuf.C100_instants"
   ],
   "note": "Offsets of 24 hours and more are excluded, see Model/Std/Time.lean."
  },
  {
   "property": "C101",
   "status": "partial",
   "theorems": [
    "Tuf.C101_kept_partial",
    "Tuf.C101_stable_partial",
    "Tuf.C101_decimals_partial",
    "Tuf.C101_close_partial",
    "Tuf.C101_false"
   ],
   "note": "False above 2^53 (witness: a whole file, proved). Proved for integers below 2^53, for all numbers from the second reading on, and for the value of all decimals of at most 15 digits; a bound for the others."
  },
  {
   "property": "C102",
   "status": "partial",
   "theorems": [
    "Tuf.C102_sound",
    "Tuf.C102_ascii",
    "Tuf.C102_role",
    "Tuf.C102_malformed",
    "Tuf.C102_plain",
    "Tuf.C102_star",
    "Tuf.C102_false",
    "Tuf.C102_map",
    "Tuf.C102_map_skips",
    "Tuf.C102_map_malformed",
    "Tuf.C102_map_star",
    "Tuf.C102_map_false"
   ],
   "note": "Exact for paths in ASCII. For others a covered path matches byte by byte; by characters it is false (witness). Map files match whole paths, where * does not cross slashes and classes that contain the slash break the search (witness)."
  },
  {
   "property": "C103",
   "status": "partial",
   "theorems": [
    "Tuf.C103_text",
    "Tuf.C103_distinct",
    "Tuf.C103_again",
    "Tuf.C103_filed",
    "Tuf.C103_false",
    "Tuf.C103_read_false"
   ],
   "note": "False for changed keys (cached ID) and for keys in metadata that was read (stored IDs are not compared); proved for keys whose ID was not asked for before."
  },
  {
   "property": "C104",
   "status": "partial",
   "theorems": [
    "Tuf.C104_declared",
    "Tuf.C104_round_trip",
    "Tuf.C104_add_sign_verify",
    "Tuf.C104_false"
   ],
   "note": "The PEM text of the key is assumed to be read back as written (proved in C138; Ed25519 keys need no assumption). False for key type ecdsa-sha2-nistp256 (witness)."
  },
  {
   "property": "C105",
   "status": "partial",
   "theorems": [
    "Tuf.C105_grammar",
    "Tuf.C105_refused",
    "Tuf.C105_unambiguous",
    "Tuf.C105_layout",
    "Tuf.C105_spelling_root_partial",
    "Tuf.C105_spelling_timestamp_partial",
    "Tuf.C105_spelling_snapshot_partial",
    "Tuf.C105_spelling_targets_partial",
    "Tuf.C105_spelling_payload",
    "Tuf.C105_written",
    "Tuf.C105_trailing",
    "Tuf.C105_map",
    "Tuf.C105_false",
    "Tuf.C105_false_spelling"
   ],
   "note": "For the model of encoding/json in Model/Std/JsonText.lean. False for texts that are not UTF-8 (C105_false) and for escape sequences in times, hashes and signatures (C105_false_spelling); what remains is proved."
  },
  {
   "property": "C106",
   "status": "proved",
   "theorems": [
    "Tuf.C106_after_refresh",
    "Tuf.C106_lookup",
    "Tuf.C106_stable",
    "Tuf.C106_not_listed"
   ],
   "note": "MaxDelegations >= 0 (default 32)."
  },
  {
   "property": "C107",
   "status": "partial",
   "theorems": [
    "Tuf.C107_listed_partial",
    "Tuf.C107_names_partial",
    "Tuf.C107_no_consensus_partial",
    "Tuf.C107_false"
   ],
   "note": "False as the comment in the source states it (witness); exact names and provenance of what is returned proved."
  },
  {
   "property": "C108",
   "status": "partial",
   "theorems": [
    "Tuf.C108_before_refresh",
    "Tuf.C108_multi_before_refresh",
    "Tuf.C108_after_refresh_partial",
    "Tuf.C108_false"
   ],
   "note": "False directly after New (for every configuration); after Refresh proved."
  },
  {
   "property": "C109",
   "status": "proved",
   "theorems": [
    "Tuf.C109_root",
    "Tuf.C109_snapshot",
    "Tuf.C109_timestamp",
    "Tuf.C109_targets",
    "Tuf.C109_unverifiable",
    "Tuf.C109_read_not_signed"
   ],
   "note": "Stated for values with the shape FromBytes returns (Good*); canonical JSON is modelled after go-securesystemslib/cjson."
  },
  {
   "property": "C11",
   "status": "partial",
   "theorems": [
    "Tuf.C11_root_rotations_partial",
    "Tuf.C11_one_call_partial",
    "Tuf.C11_version_wraps"
   ],
   "note": "Signatures proved for all histories. The version is exactly one more except after version 2^63-1, where the int64 addition wraps and only version -2^63 is accepted (witness proved)."
  },
  {
   "property": "C110",
   "status": "partial",
   "theorems": [
    "Tuf.C110_generates",
    "Tuf.C110_clients_partial",
    "Tuf.C110_false"
   ],
   "note": "encoding/json, RFC 3339 times and UTF-8 are modelled (std env); signatures, SHA-256 and key encodings are parameters. Missing: paths with two or more slashes fetched with hash prefixes, which all fail (C88_deep; C110_false is a witness)."
  },
  {
   "property": "C111",
   "status": "partial",
   "theorems": [
    "Tuf.C111_stored_partial",
    "Tuf.C111_found_partial",
    "Tuf.C111_separate_partial",
    "Tuf.C111_false"
   ],
   "note": "url.JoinPath is modelled (Model/Std/Url.lean). Missing: directories that are not plain and the targets . and .., for which C111_false has witnesses."
  },
  {
   "property": "C112",
   "status": "partial",
   "theorems": [
    "Tuf.C112_new_partial",
    "Tuf.C112_target_partial",
    "Tuf.C112_metadata_partial",
    "Tuf.C112_defaults",
    "Tuf.C112_metadata_any",
    "Tuf.C112_tail_metadata",
    "Tuf.C112_tail_targets",
    "Tuf.C112_false",
    "Tuf.C112_false_fragment"
   ],
   "note": "url.JoinPath is modelled completely. False for all URLs with a query or a fragment (C112_tail_metadata, C112_tail_targets; instances C112_false, C112_false_fragment). Limits and metadata requests hold for every URL (C112_defaults, C112_metadata_any). Missing: the targets folder for URLs with escapes in user and host and for paths with bytes that JoinPath rewrites."
  },
  {
   "property": "C113",
   "status": "partial",
   "theorems": [
    "Tuf.C113_recovers_partial",
    "Tuf.C113_after_attack_partial",
    "Tuf.C113_false"
   ],
   "note": "Missing: the case of only one of the roles timestamp and snapshot being given new keys, for which C113_false shows that clients do not recover."
  },
  {
   "property": "C114",
   "status": "partial",
   "theorems": [
    "Tuf.C114_root_partial",
    "Tuf.C114_timestamp_partial",
    "Tuf.C114_snapshot_partial",
    "Tuf.C114_targets_partial",
    "Tuf.C114_refresh_partial",
    "Tuf.C114_false"
   ],
   "note": "What is loaded is what is stated. Missing: that versions are positive and the specification version is supported, refuted by C114_false."
  },
  {
   "property": "C115",
   "status": "proved",
   "theorems": [
    "Tuf.C115_root",
    "Tuf.C115_snapshot",
    "Tuf.C115_timestamp",
    "Tuf.C115_targets",
    "Tuf.C115_threshold"
   ],
   "note": "Good values as for C85; that encoding/json can read what it printed is a hypothesis here and proved for the modelled text format by C99."
  },
  {
   "property": "C116",
   "status": "proved",
   "theorems": [
    "Tuf.C116_root",
    "Tuf.C116_snapshot",
    "Tuf.C116_timestamp",
    "Tuf.C116_targets"
   ],
   "note": "For the modelled JSON text format and time format. Hypotheses: strings are UTF-8, unrecognised fields and custom have no fractions and no variant spellings of known names, delegations have one kind of roles."
  },
  {
   "property": "C117",
   "status": "proved",
   "theorems": [
    "Tuf.C117_exactly"
   ],
   "note": "Hypotheses: PEM encoding can be read back; the signature library accepts what the signers sign, does not panic, and rejects empty signatures; the staff has different key IDs."
  },
  {
   "property": "C118",
   "status": "proved",
   "theorems": [
    "Tuf.C118_succeeds",
    "Tuf.C118_clients"
   ],
   "note": "For the modelled JSON text, time and glob formats. Hypotheses: PEM encoding gives texts and can be read back (proved in C138); the signature library accepts what the signers sign and does not panic; generating keys and writing files do not fail. The client has no cached metadata, network and disk work, and the limits allow two rotations, two delegations and the lengths."
  },
  {
   "property": "C119",
   "status": "partial",
   "theorems": [
    "Tuf.C119_clients",
    "Tuf.C119_isolated_partial",
    "Tuf.C119_roots_partial",
    "Tuf.C119_false"
   ],
   "note": "The configuration of the clients holds in full. Separation of files holds for repository names that are one path component, and for downloads that do not name a metadata file as destination; it is false for names with slashes or `..` (witness: a repository `2/../1` overwrites the root of `1`, and `..` writes outside the folder)."
  },
  {
   "property": "C12",
   "status": "proved",
   "theorems": [
    "Tuf.C12_frozen"
   ],
   "note": ""
  },
  {
   "property": "C120",
   "status": "partial",
   "theorems": [
    "Tuf.C120_targets_partial",
    "Tuf.C120_false"
   ],
   "note": "Holds whenever New succeeds. False in general: with caching and no configured folder New never succeeds, because EnsurePathsExist creates the folder with the empty name."
  },
  {
   "property": "C121",
   "status": "partial",
   "theorems": [
    "Tuf.C121_calls_partial",
    "Tuf.C121_new_partial",
    "Tuf.C121_false"
   ],
   "note": "Holds while renaming and removing do not fail (creating, writing and everything else may) and downloads are not directed at temporary names. False in general: after a failed rename the file stays in the working directory, one more for each attempt (witness)."
  },
  {
   "property": "C122",
   "status": "proved",
   "theorems": [
    "Tuf.C122_agreement",
    "Tuf.C122_honest"
   ],
   "note": "The second part is for repository names that are one path component, at most 32 roles for the path, a root that leads to the published one within 32 rotations, and hashes that are not empty."
  },
  {
   "property": "C123",
   "status": "partial",
   "theorems": [
    "Tuf.C123_read_partial",
    "Tuf.C123_accepted_partial",
    "Tuf.C123_repeated_partial",
    "Tuf.C123_false"
   ],
   "note": "Holds for map files that do not repeat one of these members; if they do, the last one counts where it says something (C123_repeated_partial). False otherwise: a second list of mappings is decoded over the first one, so that the threshold and the terminating flag of the earlier mapping stay (witness). A map file null crashes NewConfig."
  },
  {
   "property": "C124",
   "status": "partial",
   "theorems": [
    "Tuf.C124_delivers",
    "Tuf.C124_anchor_partial",
    "Tuf.C124_later_partial",
    "Tuf.C124_bad_anchor",
    "Tuf.C124_false_stat",
    "Tuf.C124_false_first"
   ],
   "note": "Holds when asking whether the root file exists does not fail and no download goes to the root file. False otherwise: any error of os.Stat counts as missing, and the root file is overwritten with what the server has as first root (witness). A first answer that is no root is kept and every later run fails (witness)."
  },
  {
   "property": "C125",
   "status": "partial",
   "theorems": [
    "Tuf.C125_bootstrap",
    "Tuf.C125_main",
    "Tuf.C125_anchor_partial",
    "Tuf.C125_inside",
    "Tuf.C125_false_order",
    "Tuf.C125_false_traversal"
   ],
   "note": "False in two points: if two targets share a folder, the order of a Go map decides which one becomes the root (witness); a target ../../root.json replaces the trust anchor (witness). The anchor is proved unchanged for all listings without a path that resolves to it, in particular without components \"..\"."
  },
  {
   "property": "C126",
   "status": "proved",
   "theorems": [
    "Tuf.C126_info",
    "Tuf.C126_data",
    "Tuf.C126_listing"
   ],
   "note": ""
  },
  {
   "property": "C127",
   "status": "proved",
   "theorems": [
    "Tuf.C127_target",
    "Tuf.C127_target_written",
    "Tuf.C127_meta",
    "Tuf.C127_meta_written"
   ],
   "note": "Directly."
  },
  {
   "property": "C128",
   "status": "partial",
   "theorems": [
    "Tuf.C128_load",
    "Tuf.C128_loads",
    "Tuf.C128_not_loaded",
    "Tuf.C128_save",
    "Tuf.C128_saves",
    "Tuf.C128_not_saved",
    "Tuf.C128_round_trip",
    "Tuf.C128_root",
    "Tuf.C128_snapshot",
    "Tuf.C128_timestamp",
    "Tuf.C128_targets",
    "Tuf.C128_failed_partial",
    "Tuf.C128_target",
    "Tuf.C128_target_succeeds",
    "Tuf.C128_false"
   ],
   "note": "All but one clause proved. The clause that the old contents survive a failed save is false: ToFile truncates and writes in place, C128_false has a full disk; C128_failed_partial proves what is left of it."
  },
  {
   "property": "C129",
   "status": "proved",
   "theorems": [
    "Tuf.C129_keeps_up"
   ],
   "note": "For role names without characters that the cache file names escape."
  },
  {
   "property": "C13",
   "status": "proved",
   "theorems": [
    "Tuf.C13_no_timestamp_rollback",
    "Tuf.C13_equal_version"
   ],
   "note": ""
  },
  {
   "property": "C130",
   "status": "partial",
   "theorems": [
    "Tuf.C130_run",
    "Tuf.C130_one_partial",
    "Tuf.C130_cached_partial",
    "Tuf.C130_error",
    "Tuf.C130_crash_partial",
    "Tuf.C130_session_partial",
    "Tuf.C130_false_empty",
    "Tuf.C130_false_unknown"
   ],
   "note": "False for empty files, which are downloaded again though they are there; a repository without a client before the one that has the target crashes the call; a client without a file for the target makes it fail at once. Paths with more than one slash are left out for hash-prefixed names: their downloads all fail (C88_deep)."
  },
  {
   "property": "C131",
   "status": "proved",
   "theorems": [
    "Tuf.C131_new",
    "Tuf.C131_keeps_up",
    "Tuf.C131_false_lost"
   ],
   "note": "Initially the cache is empty. Rotating the root keys without adding the old signers again makes clients fail (C131_false_lost). `Write` and changes of fields other than those of the steps are left out."
  },
  {
   "property": "C132",
   "status": "proved",
   "theorems": [
    "Tuf.C132_wrong_path",
    "Tuf.C132_never",
    "Tuf.C132_crash",
    "Tuf.C132_hash_prefix",
    "Tuf.C132_root_crash",
    "Tuf.C132_other"
   ],
   "note": "URLs are below the folder of the simulator, of letters, digits, `-`, `_`, `.`, `~` and slashes."
  },
  {
   "property": "C133",
   "status": "proved",
   "theorems": [
    "Tuf.C133_added",
    "Tuf.C133_lost",
    "Tuf.C133_succinct"
   ],
   "note": ""
  },
  {
   "property": "C134",
   "status": "proved",
   "theorems": [
    "Tuf.C134_cache",
    "Tuf.C134_recovers"
   ],
   "note": "Top-level roles. Downloads are not stored in place of cached metadata, which the API would do when told to. What is trusted is the same up to what is not part of the canonical JSON (attackers can re-spell a document without breaking its signatures)."
  },
  {
   "property": "C135",
   "status": "proved",
   "theorems": [
    "Tuf.C135_cache",
    "Tuf.C135_search"
   ],
   "note": "As C134: no downloads in place of cached metadata, and answers are the same up to what is not part of the canonical JSON. The honest holders publish one document per delegated role and version."
  },
  {
   "property": "C136",
   "status": "partial",
   "theorems": [
    "Tuf.C136_session",
    "Tuf.C136_gets",
    "Tuf.C136_caught_up",
    "Tuf.C136_demo_runs",
    "Tuf.C136_demo_caught_up",
    "Tuf.C136_no_further",
    "Tuf.C136_false"
   ],
   "note": "Proved for sessions of the library, for tuf-client and for the example client. False for programs that always start from the same root: C136_no_further for all of them, C136_false is a concrete one that fails in every run."
  },
  {
   "property": "C137",
   "status": "proved",
   "theorems": [
    "Tuf.C137_root",
    "Tuf.C137_timestamp",
    "Tuf.C137_snapshot",
    "Tuf.C137_targets"
   ],
   "note": "Both directions, for all documents without repeated members of objects. Repeated members of objects are outside: the last example of MeaningCase shows that maps are then merged."
  },
  {
   "property": "C138",
   "status": "proved",
   "theorems": [
    "Tuf.C138_reads",
    "Tuf.C138_round_trip",
    "Tuf.C138_written",
    "Tuf.C138_sound",
    "Tuf.C138_surroundings",
    "Tuf.C138_texts",
    "Tuf.C138_add_sign_verify",
    "Tuf.C138_example"
   ],
   "note": "With models of encoding/pem, encoding/base64 and of the two functions of sigstore that the code calls. DER (crypto/x509) and signatures remain parameters."
  },
  {
   "property": "C139",
   "status": "proved",
   "theorems": [
    "Tuf.C139_requests",
    "Tuf.C139_steps",
    "Tuf.C139_new",
    "Tuf.C139_refresh_bytes",
    "Tuf.C139_refused_bytes",
    "Tuf.C139_search_bytes",
    "Tuf.C139_target_bytes",
    "Tuf.C139_default_fetcher",
    "Tuf.C139_example",
    "Tuf.C139_example_bytes"
   ],
   "note": "The example reaches the bounds. With a negative MaxRootRotations a request more is possible (C25_negative_limit)."
  },
  {
   "property": "C14",
   "status": "proved",
   "theorems": [
    "Tuf.C14_no_snapshot_rollback"
   ],
   "note": ""
  },
  {
   "property": "C140",
   "status": "proved",
   "theorems": [
    "Tuf.C140_same_code",
    "Tuf.C140_same_new",
    "Tuf.C140_alone",
    "Tuf.C140_files",
    "Tuf.C140_trusted",
    "Tuf.C140_evolves",
    "Tuf.C140_example"
   ],
   "note": "Targets must not be downloaded to files that are named like temporary files. Reads and single writes are atomic; the temporary name is taken exclusively."
  },
  {
   "property": "C141",
   "status": "partial",
   "theorems": [
    "Tuf.C141_false",
    "Tuf.C141_process_partial",
    "Tuf.C141_alone_example"
   ],
   "note": "False: a slower client moves the older documents that it has verified over newer ones, and a later client then accepts them (witness proved). Each process by itself is protected whatever the others do; across restarts with one client at a time see C29."
  },
  {
   "property": "C142",
   "status": "partial",
   "theorems": [
    "Tuf.C142_found_partial",
    "Tuf.C142_downloaded_partial",
    "Tuf.C142_false",
    "Tuf.C142_found_example",
    "Tuf.C142_downloaded_example"
   ],
   "note": "The second half is false: targets are not written to a temporary file first, and two downloads to one file can leave the beginning of one and the end of the other although both report success (witness proved). What the calls return matches whatever other processes do."
  },
  {
   "property": "C143",
   "status": "proved",
   "theorems": [
    "Tuf.C143_cache",
    "Tuf.C143_sessions",
    "Tuf.C143_example"
   ],
   "note": "With overlapping calls the statement is false (C141)."
  },
  {
   "property": "C144",
   "status": "proved",
   "theorems": [
    "Tuf.C144_root",
    "Tuf.C144_delegations",
    "Tuf.C144_stale",
    "Tuf.C144_stale_paths"
   ],
   "note": "Documents without repeated members: C137."
  },
  {
   "property": "C145",
   "status": "partial",
   "theorems": [
    "Tuf.C145_again_partial",
    "Tuf.C145_stuck",
    "Tuf.C145_rotated",
    "Tuf.C145_false"
   ],
   "note": "Proved while no snapshot is trusted and the root that the client can follow needs no new root after a trusted timestamp. False otherwise: once a snapshot is trusted without targets, even an outdated one from the cache, Refresh and GetTargetInfo fail for ever; a trusted timestamp and a newer root on the server make every Refresh fail."
  },
  {
   "property": "C146",
   "status": "partial",
   "theorems": [
    "Tuf.C146_dump_partial",
    "Tuf.C146_false",
    "Tuf.C146_escaped",
    "Tuf.C146_crash"
   ],
   "note": "False for roots if a delegated role is named like a root file (1.root): its file replaces it. A delegated role whose name needs escapes is dumped where a client in local mode does not look for it, and one named root crashes Write. All else is proved."
  },
  {
   "property": "C147",
   "status": "proved",
   "theorems": [
    "Tuf.C147_root",
    "Tuf.C147_new"
   ],
   "note": ""
  },
  {
   "property": "C148",
   "status": "proved",
   "theorems": [
    "Tuf.C148_copy",
    "Tuf.C148_setup"
   ],
   "note": "Names of entries have no slashes, as those of os.ReadDir; the source folders are not in the new temporary folder."
  },
  {
   "property": "C149",
   "status": "proved",
   "theorems": [
    "Tuf.C149_refresh",
    "Tuf.C149_next_run",
    "Tuf.C149_lookup"
   ],
   "note": "For hosts on which reading a file that exists works. A role whose name is changed by URL-escaping is stored under another file name than it is read from (C48), so its copy does not count."
  },
  {
   "property": "C15",
   "status": "proved",
   "theorems": [
    "Tuf.C15_no_targets_rollback"
   ],
   "note": ""
  },
  {
   "property": "C150",
   "status": "proved",
   "theorems": [
    "Tuf.C150_order"
   ],
   "note": ""
  },
  {
   "property": "C151",
   "status": "proved",
   "theorems": [
    "Tuf.C151_named",
    "Tuf.C151_succinct"
   ],
   "note": "Hypotheses as for C117: PEM encoding can be read back; the signature library accepts what the signers sign, does not panic, and rejects empty signatures; the staff has different key IDs."
  },
  {
   "property": "C16",
   "status": "proved",
   "theorems": [
    "Tuf.C16_targets_match_snapshot"
   ],
   "note": ""
  },
  {
   "property": "C17",
   "status": "proved",
   "theorems": [
    "Tuf.C17_root_fresh",
    "Tuf.C17_timestamp_fresh",
    "Tuf.C17_snapshot_fresh"
   ],
   "note": ""
  },
  {
   "property": "C18",
   "status": "proved",
   "theorems": [
    "Tuf.C18_failed_update"
   ],
   "note": ""
  },
  {
   "property": "C19",
   "status": "partial",
   "theorems": [
    "Tuf.C19_trusted_types",
    "Tuf.C19_declared",
    "Tuf.C19_returned_type_partial",
    "Tuf.C19_type_confusion"
   ],
   "note": "Proved for New and Update*. For FromBytes alone the returned value can have another type, because struct decoding ignores case (witness proved); holds if members are not respelled."
  },
  {
   "property": "C20",
   "status": "proved",
   "theorems": [
    "Tuf.C20_expiry_exact",
    "Tuf.C20_reference_time"
   ],
   "note": ""
  },
  {
   "property": "C21",
   "status": "partial",
   "theorems": [
    "Tuf.C21_crash",
    "Tuf.C21_fromBytes_partial",
    "Tuf.C21_not_json_partial",
    "Tuf.C21_update_partial",
    "Tuf.C21_missing_entry_crash",
    "Tuf.C21_null_target_crash",
    "Tuf.C21_length_crash",
    "Tuf.C21_length_client_crash"
   ],
   "note": "False: documents without signed._type, null targets, missing or null entries, and Ed25519 keys that are not 32 bytes long panic (proved; the last given that crypto/ed25519 panics for such keys and sigstore does not refuse them, as their sources say). No other panics: proved."
  },
  {
   "property": "C22",
   "status": "proved",
   "theorems": [
    "Tuf.C22_unique_signatures",
    "Tuf.C22_rejected_only_then"
   ],
   "note": ""
  },
  {
   "property": "C23",
   "status": "partial",
   "theorems": [
    "Tuf.C23_untrusted_snapshot_partial",
    "Tuf.C23_refresh_partial",
    "Tuf.C23_cached_snapshot_unchecked"
   ],
   "note": "Proved for data loaded as untrusted and for what Refresh ends up with unless it comes from the cache file; false for the cached file, which is loaded as trusted (witness proved)."
  },
  {
   "property": "C24",
   "status": "proved",
   "theorems": [
    "Tuf.C24_refresh_complete"
   ],
   "note": ""
  },
  {
   "property": "C25",
   "status": "partial",
   "theorems": [
    "Tuf.C25_root_phase_partial",
    "Tuf.C25_consecutive_partial",
    "Tuf.C25_negative_limit"
   ],
   "note": "Proved for every limit except a negative one with a trusted root version so close to 2^63 that the bound wraps around; there the claim is false, and C25_negative_limit proves it with a witness (limit -1, version 2^63-1)."
  },
  {
   "property": "C26",
   "status": "proved",
   "theorems": [
    "Tuf.C26_refresh_once"
   ],
   "note": ""
  },
  {
   "property": "C27",
   "status": "proved",
   "theorems": [
    "Tuf.C27_only_verified",
    "Tuf.C27_new"
   ],
   "note": ""
  },
  {
   "property": "C28",
   "status": "proved",
   "theorems": [
    "Tuf.C28_crash_atomic",
    "Tuf.C28_new",
    "Tuf.C28_role_files"
   ],
   "note": "Files by path string; temporary files and the target file being downloaded are excluded, so the target file must not be a metadata file."
  },
  {
   "property": "C29",
   "status": "proved",
   "theorems": [
    "Tuf.C29_timestamp",
    "Tuf.C29_snapshot"
   ],
   "note": "The cached file must be readable by the session, otherwise it is not part of its cache."
  },
  {
   "property": "C30",
   "status": "proved",
   "theorems": [
    "Tuf.C30_disabled_cache",
    "Tuf.C30_new"
   ],
   "note": ""
  },
  {
   "property": "C31",
   "status": "partial",
   "theorems": [
    "Tuf.C31_local_refresh_partial",
    "Tuf.C31_lookup_partial",
    "Tuf.C31_false"
   ],
   "note": "False: GetTargetInfo downloads delegated roles that are not cached (witness proved). Refresh only reads files; GetTargetInfo downloads nothing before targets is loaded."
  },
  {
   "property": "C32",
   "status": "proved",
   "theorems": [
    "Tuf.C32_metadata_downloads",
    "Tuf.C32_target_downloads"
   ],
   "note": ""
  },
  {
   "property": "C33",
   "status": "partial",
   "theorems": [
    "Tuf.C33_urls",
    "Tuf.C33_versioned_injective_partial",
    "Tuf.C33_plain_injective_partial",
    "Tuf.C33_top_level_unversioned_partial",
    "Tuf.C33_collision"
   ],
   "note": "The form of all URLs is proved. Distinctness holds among versioned URLs and among unversioned ones; an unversioned role named like 2.root collides with a versioned root (proved)."
  },
  {
   "property": "C34",
   "status": "partial",
   "theorems": [
    "Tuf.C34_refresh_succeeds_partial",
    "Tuf.C34_false",
    "Tuf.C34_false_type"
   ],
   "note": "False for cache files that are not JSON or of another type (witnesses proved). Proved: Refresh succeeds if every cache file is absent, refused with a repository error, or acceptable and not newer."
  },
  {
   "property": "C35",
   "status": "partial",
   "theorems": [
    "Tuf.C35_refresh_partial",
    "Tuf.C35_versions_partial",
    "Tuf.C35_false"
   ],
   "note": "False: New replaces a newer cached root by the configured one (witness proved). Within Refresh the cached root is only replaced along accepted rotations, at every crash point."
  },
  {
   "property": "C36",
   "status": "partial",
   "theorems": [
    "Tuf.C36_listed_partial",
    "Tuf.C36_crash"
   ],
   "note": "False: the client crashes (nil dereference) instead of returning an error (witness proved). Proved: GetTargetInfo never succeeds after consulting an unlisted role."
  },
  {
   "property": "C37",
   "status": "proved",
   "theorems": [
    "Tuf.C37_search",
    "Tuf.C37_bounded",
    "Tuf.C37_downloads"
   ],
   "note": ""
  },
  {
   "property": "C38",
   "status": "proved",
   "theorems": [
    "Tuf.C38_delegation_chain",
    "Tuf.C38_visits"
   ],
   "note": ""
  },
  {
   "property": "C39",
   "status": "proved",
   "theorems": [
    "Tuf.C39_terminating"
   ],
   "note": ""
  },
  {
   "property": "C40",
   "status": "partial",
   "theorems": [
    "Tuf.C40_one_cover_partial",
    "Tuf.C40_false"
   ],
   "note": "False: the delegations go through a Go map, so their order is random (witness proved). Proved: the order is irrelevant when no trusted role has two delegations that cover the path."
  },
  {
   "property": "C41",
   "status": "partial",
   "theorems": [
    "Tuf.C41_new_roles_partial",
    "Tuf.C41_first_lookup_partial",
    "Tuf.C41_parent_partial",
    "Tuf.C41_false",
    "Tuf.C41_false_root"
   ],
   "note": "False: roles are kept by name only, so a role loaded through one parent is used through another parent whose keys it was not signed with, and the delegations of a delegated role called root are verified against root metadata (witnesses proved). Proved for roles not loaded by an earlier lookup and parents not called root."
  },
  {
   "property": "C42",
   "status": "proved",
   "theorems": [
    "Tuf.C42_path"
   ],
   "note": ""
  },
  {
   "property": "C43",
   "status": "proved",
   "theorems": [
    "Tuf.C43_matching",
    "Tuf.C43_no_mismatch_stored"
   ],
   "note": ""
  },
  {
   "property": "C44",
   "status": "proved",
   "theorems": [
    "Tuf.C44_matching",
    "Tuf.C44_absent",
    "Tuf.C44_present",
    "Tuf.C44_reads_only"
   ],
   "note": "The empty string stands for no path."
  },
  {
   "property": "C45",
   "status": "partial",
   "theorems": [
    "Tuf.C45_hashed_partial",
    "Tuf.C45_false"
   ],
   "note": "False: a target listed without hashes is accepted by length alone (witness proved). Proved for infos with a hash."
  },
  {
   "property": "C46",
   "status": "partial",
   "theorems": [
    "Tuf.C46_prefix_partial",
    "Tuf.C46_false",
    "Tuf.C46_deep"
   ],
   "note": "False for paths with two or more slashes (witness, and for all of them C46_deep). Proved for at most one slash and at least one hash."
  },
  {
   "property": "C47",
   "status": "proved",
   "theorems": [
    "Tuf.C47_cache_names",
    "Tuf.C47_moves"
   ],
   "note": ""
  },
  {
   "property": "C48",
   "status": "partial",
   "theorems": [
    "Tuf.C48_found_again_partial",
    "Tuf.C48_read_back_partial",
    "Tuf.C48_top_level",
    "Tuf.C48_false",
    "Tuf.C48_false_always",
    "Tuf.C48_false_confused"
   ],
   "note": "False for role names changed by URL escaping (witness proved). Holds for names of unreserved characters, in particular the top-level roles; false for every name with another character, in every directory."
  },
  {
   "property": "C49",
   "status": "proved",
   "theorems": [
    "Tuf.C49_crash_points",
    "Tuf.C49_interrupted"
   ],
   "note": ""
  },
  {
   "property": "C50",
   "status": "partial",
   "theorems": [
    "Tuf.C50_hierarchy_partial",
    "Tuf.C50_repository_error_not_recognised",
    "Tuf.C50_false"
   ],
   "note": "False for ErrRepository with a message, which is what the library returns. The hierarchy below is exact."
  },
  {
   "property": "C51",
   "status": "proved",
   "theorems": [
    "Tuf.C51_pattern_exact",
    "Tuf.C51_same_depth",
    "Tuf.C51_malformed",
    "Tuf.C102_malformed"
   ],
   "note": ""
  },
  {
   "property": "C52",
   "status": "partial",
   "theorems": [
    "Tuf.C52_base64_rule_partial",
    "Tuf.C52_hex_prefixes_never_match",
    "Tuf.C52_false"
   ],
   "note": "False: prefixes are compared with the base64url digest. Proved for all digests that a non-empty correct hex prefix never matches."
  },
  {
   "property": "C53",
   "status": "proved",
   "theorems": [
    "Tuf.C53_bins",
    "Tuf.C53_bit_length_33_crash"
   ],
   "note": "SHA-256 digests are assumed to have at least 4 bytes. Outside the claim, bit length 33 panics."
  },
  {
   "property": "C54",
   "status": "partial",
   "theorems": [
    "Tuf.C54_number_of_roles",
    "Tuf.C54_roles_are_delegated",
    "Tuf.C54_partial",
    "Tuf.C54_uppercase_accepted"
   ],
   "note": "GetRoles is included in IsDelegatedRole; the converse holds for lowercase hex suffixes and fails for uppercase digits and signs (witness proved)."
  },
  {
   "property": "C55",
   "status": "proved",
   "theorems": [
    "Tuf.C55_roles_for_target"
   ],
   "note": ""
  },
  {
   "property": "C56",
   "status": "partial",
   "theorems": [
    "Tuf.C56_no_role",
    "Tuf.C56_add_key_partial",
    "Tuf.C56_no_duplicate",
    "Tuf.C56_nil_keys_crash"
   ],
   "note": "For roots with a key store (every parsed or constructed root that has keys); with a nil key store AddKey panics (witness proved)."
  },
  {
   "property": "C57",
   "status": "proved",
   "theorems": [
    "Tuf.C57_not_listed",
    "Tuf.C57_revoke_key",
    "Tuf.C57_null_role_crash"
   ],
   "note": "Outside the claim: with a null role RevokeKey crashes half-way (C57_null_role_crash)."
  },
  {
   "property": "C58",
   "status": "proved",
   "theorems": [
    "Tuf.C58_consistent",
    "Tuf.C58_fresh_root"
   ],
   "note": "Without null roles and with a key store; C57_null_role_crash and C56_nil_keys_crash show what happens otherwise."
  },
  {
   "property": "C59",
   "status": "partial",
   "theorems": [
    "Tuf.C59_add_unknown",
    "Tuf.C59_add_to_role",
    "Tuf.C59_add_succinct",
    "Tuf.C59_unused_key_stored",
    "Tuf.C59_revoke_failure",
    "Tuf.C59_revoke_from_role",
    "Tuf.C59_revoke_succinct"
   ],
   "note": "Proved for role lists and succinct delegations. False for delegations with neither, where AddKey stores an unused key (witness proved)."
  },
  {
   "property": "C60",
   "status": "proved",
   "theorems": [
    "Tuf.C60_succeeds",
    "Tuf.C60_no_crash",
    "Tuf.C60_verifies"
   ],
   "note": ""
  },
  {
   "property": "C61",
   "status": "proved",
   "theorems": [
    "Tuf.C61_target_exact",
    "Tuf.C61_meta_exact",
    "Tuf.C61_unsupported",
    "Tuf.C61_order",
    "Tuf.C61_meta_order"
   ],
   "note": ""
  },
  {
   "property": "C62",
   "status": "partial",
   "theorems": [
    "Tuf.C62_equal_exact_partial",
    "Tuf.C62_symmetric_partial",
    "Tuf.C62_reflexive_partial",
    "Tuf.C62_transitive_partial",
    "Tuf.C62_not_equivalence"
   ],
   "note": "False: not reflexive without hashes, not transitive across different algorithms (witnesses proved). Symmetric always."
  },
  {
   "property": "C63",
   "status": "proved",
   "theorems": [
    "Tuf.C63_round_trip",
    "Tuf.C63_accepts",
    "Tuf.C63_lowercase"
   ],
   "note": ""
  },
  {
   "property": "C64",
   "status": "partial",
   "theorems": [
    "Tuf.C64_root_partial",
    "Tuf.C64_snapshot_partial",
    "Tuf.C64_timestamp_partial",
    "Tuf.C64_targets_partial",
    "Tuf.C64_false_variant",
    "Tuf.C64_false_error",
    "Tuf.C64_false_succinct",
    "Tuf.C64_false_hashes"
   ],
   "note": "False: an unrecognised field that differs from a recognised one in letter case is read into the recognised one the second time; a delegation with both paths and hash prefixes fails to serialise; succinct roles beside roles and empty hash maps are dropped (witnesses proved). Proved for documents without these."
  },
  {
   "property": "C65",
   "status": "proved",
   "theorems": [
    "Tuf.C65_root",
    "Tuf.C65_snapshot",
    "Tuf.C65_timestamp",
    "Tuf.C65_targets",
    "Tuf.C65_type",
    "Tuf.C65_false_by_hand"
   ],
   "note": "Up to what no client function reads: empty or nil hash maps of meta files, the spelling of custom, succinct roles beside roles. For values built by hand (not read) it is false: C65_false_by_hand."
  },
  {
   "property": "C66",
   "status": "partial",
   "theorems": [
    "Tuf.C66_root_partial",
    "Tuf.C66_snapshot_partial",
    "Tuf.C66_timestamp_partial",
    "Tuf.C66_targets_partial",
    "Tuf.C66_written_partial",
    "Tuf.C66_false_absent",
    "Tuf.C66_false_zero",
    "Tuf.C66_false_rounded"
   ],
   "note": "False: the payload is made from the struct, so that absent fields appear, zero lengths disappear and large numbers are rounded (witnesses proved). Proved for documents written by ToBytes, and for all documents with complete signed parts: all mandatory members, normal forms, distinct names."
  },
  {
   "property": "C67",
   "status": "partial",
   "theorems": [
    "Tuf.C67_keyval",
    "Tuf.C67_key",
    "Tuf.C67_role",
    "Tuf.C67_succinct",
    "Tuf.C67_signature",
    "Tuf.C67_root",
    "Tuf.C67_snapshot",
    "Tuf.C67_timestamp",
    "Tuf.C67_document",
    "Tuf.C67_meta_partial",
    "Tuf.C67_target_partial",
    "Tuf.C67_delegated_partial",
    "Tuf.C67_delegations_partial",
    "Tuf.C67_targets_partial",
    "Tuf.C67_read_root",
    "Tuf.C67_read_snapshot",
    "Tuf.C67_read_timestamp",
    "Tuf.C67_read_targets",
    "Tuf.C67_false"
   ],
   "note": "False for fields that are left out when empty (witness proved); proved for all other fields, and for all fields of values returned by FromBytes."
  },
  {
   "property": "C68",
   "status": "partial",
   "theorems": [
    "Tuf.C68_search",
    "Tuf.C68_consensus_partial",
    "Tuf.C68_unanimous_partial",
    "Tuf.C68_false"
   ],
   "note": "False: the result pointer refers to the loop variable, so the last group is returned instead of the one that reached the threshold (witness proved). Proved: some info reached the threshold, and the full claim when all answers agree."
  },
  {
   "property": "C69",
   "status": "proved",
   "theorems": [
    "Tuf.C68_search",
    "Tuf.C69_terminating"
   ],
   "note": ""
  },
  {
   "property": "C70",
   "status": "partial",
   "theorems": [
    "Tuf.C70_ambiguous_partial",
    "Tuf.C70_conflict_partial",
    "Tuf.C70_false"
   ],
   "note": "False where Equal is not transitive (witness proved). Proved for the groups of the code, and for all answers on which Equal is an equivalence."
  },
  {
   "property": "C71",
   "status": "proved",
   "theorems": [
    "Tuf.C71_verified"
   ],
   "note": ""
  },
  {
   "property": "C72",
   "status": "proved",
   "theorems": [
    "Tuf.C72_roots",
    "Tuf.C72_unique",
    "Tuf.C72_clients"
   ],
   "note": ""
  },
  {
   "property": "C73",
   "status": "partial",
   "theorems": [
    "Tuf.C73_known_partial",
    "Tuf.C73_crash_partial",
    "Tuf.C73_false"
   ],
   "note": "False: the client crashes with a nil dereference (witness proved). Proved: no result is built on a mapping with an unknown repository, and there are no other crashes of its own."
  },
  {
   "property": "C74",
   "status": "proved",
   "theorems": [
    "Tuf.C74_bounded"
   ],
   "note": ""
  },
  {
   "property": "C75",
   "status": "partial",
   "theorems": [
    "Tuf.C75_complete_partial",
    "Tuf.C75_delivers",
    "Tuf.C75_declared",
    "Tuf.C75_empty_at_max_limit"
   ],
   "note": "Proved for limits below 2^63-1; false at 2^63-1, where the limit wraps around (witness proved)."
  },
  {
   "property": "C76",
   "status": "proved",
   "theorems": [
    "Tuf.C76_status"
   ],
   "note": ""
  },
  {
   "property": "C77",
   "status": "proved",
   "theorems": [
    "Tuf.C77_map_semantics"
   ],
   "note": ""
  },
  {
   "property": "C78",
   "status": "proved",
   "theorems": [
    "Tuf.C78_new",
    "Tuf.C78_root",
    "Tuf.C78_timestamp",
    "Tuf.C78_snapshot",
    "Tuf.C78_targets"
   ],
   "note": ""
  },
  {
   "property": "C79",
   "status": "proved",
   "theorems": [
    "Tuf.C79_from_new",
    "Tuf.C79_cache_mirrors"
   ],
   "note": ""
  },
  {
   "property": "C80",
   "status": "proved",
   "theorems": [
    "Tuf.C80_sessions"
   ],
   "note": ""
  },
  {
   "property": "C81",
   "status": "partial",
   "theorems": [
    "Tuf.C65_type",
    "Tuf.C81_partial",
    "Tuf.C81_false"
   ],
   "note": "False: a document with the members signed and Signed is checked for the type of the first and read from the last (witness proved): a snapshot can be replayed as timestamp when both roles share a key. Proved for documents without a second spelling of signed or _type."
  },
  {
   "property": "C82",
   "status": "proved",
   "theorems": [
    "Tuf.C82_always_sound"
   ],
   "note": ""
  },
  {
   "property": "C83",
   "status": "proved",
   "theorems": [
    "Tuf.C83_end_to_end"
   ],
   "note": ""
  },
  {
   "property": "C84",
   "status": "partial",
   "theorems": [
    "Tuf.C84_own_type_partial",
    "Tuf.C84_false"
   ],
   "note": "False for delegated roles named root, timestamp or snapshot whose hash the snapshot lists: a lookup replaces the cached file by targets metadata, and later refreshes fail (witness proved). Proved for sessions that load no targets role of that name."
  },
  {
   "property": "C85",
   "status": "proved",
   "theorems": [
    "Tuf.C85_root",
    "Tuf.C85_snapshot",
    "Tuf.C85_timestamp",
    "Tuf.C85_targets",
    "Tuf.C85_payload"
   ],
   "note": "Assumes that encoding/json reads what it printed for this document, and the laws of EnvLaws."
  },
  {
   "property": "C86",
   "status": "proved",
   "theorems": [
    "Tuf.C86_root",
    "Tuf.C86_next_root",
    "Tuf.C86_release",
    "Tuf.C86_delegated"
   ],
   "note": "Correctness of the signature schemes is a hypothesis (Suffice)."
  },
  {
   "property": "C87",
   "status": "proved",
   "theorems": [
    "Tuf.C87_refresh"
   ],
   "note": ""
  },
  {
   "property": "C88",
   "status": "partial",
   "theorems": [
    "Tuf.C88_target_partial",
    "Tuf.C88_download_partial",
    "Tuf.C88_deep"
   ],
   "note": "GetTargetInfo in full. DownloadTarget with hash prefixes only for paths with at most one slash: all others are requested under wrong names and fail with a server that only has the names of the specification (C88_deep)."
  },
  {
   "property": "C89",
   "status": "proved",
   "theorems": [
    "Tuf.C89_not_found"
   ],
   "note": ""
  },
  {
   "property": "C90",
   "status": "proved",
   "theorems": [
    "Tuf.C90_cached",
    "Tuf.C90_delegated"
   ],
   "note": "For role names without characters that the cache file names escape."
  },
  {
   "property": "C91",
   "status": "proved",
   "theorems": [
    "Tuf.C91_trusted_set",
    "Tuf.C91_client",
    "Tuf.C91_download"
   ],
   "note": "Ideal signatures and the bound on compromised keys are hypotheses (Diligent, WellGuarded), as are the laws of EnvLaws."
  },
  {
   "property": "C92",
   "status": "partial",
   "theorems": [
    "Tuf.C92_offline_partial",
    "Tuf.C92_false"
   ],
   "note": "False if the refresh used a cached snapshot that does not have the length and hashes listed in the new timestamp: online it is accepted, in local mode it is not (witness proved). Proved if the cached snapshot has them."
  },
  {
   "property": "C93",
   "status": "proved",
   "theorems": [
    "Tuf.C93_upgrade",
    "Tuf.C93_keeps_up"
   ],
   "note": "Disk and network work during the runs; correctness of the signature schemes is part of Released (Suffice)."
  },
  {
   "property": "C94",
   "status": "proved",
   "theorems": [
    "Tuf.C94_get_delivers"
   ],
   "note": ""
  },
  {
   "property": "C95",
   "status": "proved",
   "theorems": [
    "Tuf.C95_anchor",
    "Tuf.C95_get_delivers",
    "Tuf.C95_plain"
   ],
   "note": "C95_get_delivers assumes that the files of downloads are not root.json of the metadata folder, which concerns only the parameter urlJoin; C95_plain proves it for plain working directories with the modelled url.JoinPath."
  },
  {
   "property": "C96",
   "status": "partial",
   "theorems": [
    "Tuf.C96_downloaded",
    "Tuf.C96_file_partial",
    "Tuf.C96_no_second_init",
    "Tuf.C96_bad_anchor",
    "Tuf.C96_then_get",
    "Tuf.C96_plain",
    "Tuf.C96_false_copy",
    "Tuf.C96_false_failure"
   ],
   "note": "False for -f with other file names and for failed calls (both negations proved)."
  },
  {
   "property": "C97",
   "status": "partial",
   "theorems": [
    "Tuf.C97_get_succeeds_partial",
    "Tuf.C97_get_delegated_partial"
   ],
   "note": "Targets of top-level targets, and of delegated roles in repositories as in C90. Missing: target paths with more than one slash when target file names are prefixed with hashes, which all fail (C88_deep)."
  },
  {
   "property": "C98",
   "status": "partial",
   "theorems": [
    "Tuf.C98_reset_partial",
    "Tuf.C98_consent",
    "Tuf.C98_false"
   ],
   "note": "False if a deletion fails (negation proved)."
  },
  {
   "property": "C99",
   "status": "proved",
   "theorems": [
    "Tuf.C99_root",
    "Tuf.C99_snapshot",
    "Tuf.C99_timestamp",
    "Tuf.C99_targets",
    "Tuf.C99_publish_root",
    "Tuf.C99_publish_snapshot",
    "Tuf.C99_publish_timestamp",
    "Tuf.C99_publish_targets"
   ],
   "note": "The publish theorems give the hypothesis Publishes of C86 to C93 and C97 from calls of Sign and ToBytes alone."
  }
 ]
}
