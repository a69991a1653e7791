{"id": "C01", "title": "Threshold soundness", "statement": "If delegator.VerifyDelegate(role, m) returns nil, then there are at least `threshold` different key IDs, each listed for `role` by the delegator, each resolved to a key in the delegator's key map, and each with a signature that the key's verifier accepts over the canonical JSON of m.Signed.", "quantifier": "every delegator (root or targets, plain or succinct delegations), role name, delegated metadata of any type, and every behaviour of the signature verifiers", "why_tests_cant": "tests use a handful of keys and thresholds; the claim is about all key sets, thresholds and forged documents", "anchors": ["metadata/metadata.go:VerifyDelegate"]}
{"id": "C02", "title": "Threshold completeness", "statement": "If every key ID listed for the role resolves to a usable key, m.Signed has a canonical form and at least `threshold` different listed key IDs have an acceptable signature, then VerifyDelegate returns nil; together with C01 the verdict is exactly the threshold rule.", "quantifier": "every delegator, role and delegated metadata", "why_tests_cant": "an if-and-only-if over all signature sets cannot be sampled", "anchors": ["metadata/metadata.go:VerifyDelegate"]}
{"id": "C03", "title": "A key ID counts once", "statement": "Repeating a key ID in the delegation's keyids list never changes the set of counted signers and so can never turn a rejected document into an accepted one.", "quantifier": "every delegator, role, document and every duplicated keyids list", "why_tests_cant": "needs all multiplicities and positions", "anchors": ["metadata/metadata.go:VerifyDelegate", "metadata/metadata.go:checkUniqueSignatures"]}
{"id": "C04", "title": "No unsigned metadata is accepted", "statement": "VerifyDelegate never returns nil for a document that carries no acceptable signature at all.", "quantifier": "every delegator and document", "why_tests_cant": "the unit tests only use thresholds >= 1", "anchors": ["metadata/metadata.go:VerifyDelegate"]}
{"id": "C05", "title": "Threshold counts different keys", "statement": "If VerifyDelegate returns nil with threshold t, then at least t different public keys accepted a signature.", "quantifier": "every delegator and document", "why_tests_cant": "tests never list one key under two key IDs", "anchors": ["metadata/metadata.go:VerifyDelegate", "metadata/keys.go:ID"]}
{"id": "C06", "title": "Foreign signatures are irrelevant", "statement": "Adding a signature whose key ID is not listed for the role does not change the verdict of VerifyDelegate.", "quantifier": "every delegator, document and added signature, at any position", "why_tests_cant": "all positions and contents", "anchors": ["metadata/metadata.go:VerifyDelegate"]}
{"id": "C07", "title": "Verdict does not depend on listing order", "statement": "Reordering the keyids of a role, or the entries of the key map, never changes whether VerifyDelegate accepts.", "quantifier": "every delegator, document and every permutation", "why_tests_cant": "factorially many orders; Go map order is random", "anchors": ["metadata/metadata.go:VerifyDelegate"]}
{"id": "C08", "title": "Sign then verify", "statement": "After metadata.Sign is called with signers whose keys are delegated to, whatever their number and order, VerifyDelegate accepts as soon as at least `threshold` different delegated key IDs have signed, and Sign only ever appends one signature and leaves Signed untouched.", "quantifier": "every document, sequence of signers and correct signature scheme", "why_tests_cant": "all signer sequences", "anchors": ["metadata/metadata.go:Sign", "metadata/metadata.go:VerifyDelegate"]}
{"id": "C09", "title": "Only delegated roles verify", "statement": "VerifyDelegate returns an error when the delegator is not root or targets metadata, has no delegations, does not delegate to the given role name, or lists no key IDs for it.", "quantifier": "every delegator, role name and document", "why_tests_cant": "all role names; in particular names outside the bins of a succinct delegation", "anchors": ["metadata/metadata.go:VerifyDelegate", "metadata/metadata.go:IsDelegatedRole"]}
{"id": "C10", "title": "The key's declared scheme is honoured", "statement": "A signature is only accepted under the signature scheme that the key declares.", "quantifier": "every key and scheme string", "why_tests_cant": "tests only use matching type/scheme pairs", "anchors": ["metadata/metadata.go:VerifyDelegate", "metadata/keys.go:ToPublicKey"]}
{"id": "C11", "title": "Root rotations are consecutive and doubly signed", "statement": "In every history of Update calls on a TrustedMetadata, whenever the trusted root changes, the new root's version is exactly one more than the old one's, and it meets the root-role signature threshold of both the old and the new root.", "quantifier": "every initial root, every sequence of Update* calls with arbitrary bytes", "why_tests_cant": "unbounded histories of adversarial documents", "anchors": ["metadata/trustedmetadata/trustedmetadata.go:UpdateRoot", "metadata/trustedmetadata/trustedmetadata.go:New"]}
{"id": "C12", "title": "Loaded levels are frozen", "statement": "In every history: once a timestamp is trusted the root never changes; once a snapshot is trusted the timestamp never changes; once top-level targets is trusted the snapshot never changes.", "quantifier": "every sequence of Update* calls", "why_tests_cant": "all interleavings of calls", "anchors": ["metadata/trustedmetadata/trustedmetadata.go:UpdateRoot", "metadata/trustedmetadata/trustedmetadata.go:UpdateTimestamp", "metadata/trustedmetadata/trustedmetadata.go:UpdateSnapshot"]}
{"id": "C13", "title": "No timestamp rollback", "statement": "In every history the version of the trusted timestamp never decreases, and a trusted timestamp is only ever replaced by one of strictly higher version; the same version is reported as ErrEqualVersionNumber and discarded.", "quantifier": "every sequence of Update* calls", "why_tests_cant": "unbounded histories", "anchors": ["metadata/trustedmetadata/trustedmetadata.go:UpdateTimestamp"]}
{"id": "C14", "title": "No snapshot rollback through timestamp", "statement": "In every history the snapshot version listed in the trusted timestamp never decreases.", "quantifier": "every sequence of Update* calls", "why_tests_cant": "unbounded histories", "anchors": ["metadata/trustedmetadata/trustedmetadata.go:UpdateTimestamp"]}
{"id": "C15", "title": "No targets rollback or removal through snapshot", "statement": "In every history, when a trusted snapshot is replaced, every role listed in the old snapshot is listed in the new one with a version that is not lower.", "quantifier": "every sequence of Update* calls, every set of listed roles and every map iteration order", "why_tests_cant": "all role sets and orders", "anchors": ["metadata/trustedmetadata/trustedmetadata.go:UpdateSnapshot"]}
{"id": "C16", "title": "Trusted targets match the trusted snapshot", "statement": "In every history in which roles are loaded the way the client loads them (top-level targets first), every trusted targets role has the version that the trusted snapshot lists for it, is not expired at the reference time and met the signature threshold of the delegator it was loaded under; its bytes had the length and hashes that the snapshot lists.", "quantifier": "every sequence of Update* calls, role names and delegators", "why_tests_cant": "unbounded histories and delegation graphs", "anchors": ["metadata/trustedmetadata/trustedmetadata.go:UpdateDelegatedTargets"]}
{"id": "C17", "title": "Freshness gates", "statement": "UpdateTimestamp never stores a timestamp while the trusted root is expired, UpdateSnapshot never stores a snapshot while the trusted timestamp is expired, and UpdateDelegatedTargets never stores targets while the trusted snapshot is expired or its version differs from the one in the trusted timestamp.", "quantifier": "every state and every input", "why_tests_cant": "all states", "anchors": ["metadata/trustedmetadata/trustedmetadata.go:checkFinalTimestamp", "metadata/trustedmetadata/trustedmetadata.go:checkFinalSnapshot"]}
{"id": "C18", "title": "A failed update changes nothing, with two documented exceptions", "statement": "If an Update* call returns an error, the trusted set is unchanged, except that UpdateTimestamp keeps a correctly signed newer but expired timestamp and UpdateSnapshot keeps a correctly signed, non-rolled-back snapshot that is expired or has another version than the timestamp lists.", "quantifier": "every state, call and input", "why_tests_cant": "every error path", "anchors": ["metadata/trustedmetadata/trustedmetadata.go:UpdateRoot", "metadata/trustedmetadata/trustedmetadata.go:UpdateTimestamp", "metadata/trustedmetadata/trustedmetadata.go:UpdateSnapshot", "metadata/trustedmetadata/trustedmetadata.go:UpdateDelegatedTargets"]}
{"id": "C19", "title": "No role type confusion", "statement": "Bytes are accepted as root, timestamp, snapshot or targets metadata only if their signed part declares exactly that _type.", "quantifier": "every byte string and every entry point (FromBytes, New, Update*)", "why_tests_cant": "all byte strings", "anchors": ["metadata/metadata.go:checkType", "metadata/metadata.go:fromBytes"]}
{"id": "C20", "title": "Expiry is exact and evaluated at one reference time", "statement": "IsExpired(t) is true exactly when t is strictly after Expires; all expiry checks of one TrustedMetadata use the reference time fixed when it was created, in every history.", "quantifier": "every metadata, time and history", "why_tests_cant": "all times and histories", "anchors": ["metadata/metadata.go:IsExpired", "metadata/trustedmetadata/trustedmetadata.go:New"]}
{"id": "C21", "title": "Malformed bytes give errors, not crashes", "statement": "For every byte string, FromBytes and the Update* methods return (a value or an error) and never panic.", "quantifier": "every byte string", "why_tests_cant": "fuzzing only samples", "anchors": ["metadata/metadata.go:checkType", "metadata/metadata.go:fromBytes", "metadata/marshal.go:UnmarshalJSON"]}
{"id": "C22", "title": "Loaded metadata has at most one signature per key ID", "statement": "Metadata that FromBytes or FromFile returns never contains two signatures with the same key ID, and a document is rejected on this ground only if it does.", "quantifier": "every byte string", "why_tests_cant": "all signature lists", "anchors": ["metadata/metadata.go:checkUniqueSignatures"]}
{"id": "C23", "title": "Snapshot bytes are bound to the timestamp", "statement": "A snapshot loaded as untrusted data is stored only if its bytes have the length and hashes that the trusted timestamp lists; every stored snapshot's bytes do.", "quantifier": "every state and input", "why_tests_cant": "all inputs; in particular the locally cached copy, which is loaded as trusted", "anchors": ["metadata/trustedmetadata/trustedmetadata.go:UpdateSnapshot", "metadata/updater/updater.go:loadSnapshot"]}
{"id": "C24", "title": "A successful Refresh leaves a complete consistent set", "statement": "If Refresh returns nil, then root, timestamp, snapshot and top-level targets are all trusted; none is expired at the reference time; timestamp, snapshot and targets meet the thresholds of the trusted root; the snapshot version is the one in the timestamp and the targets version is the one in the snapshot.", "quantifier": "every configuration, cache content, network behaviour and IO failure pattern", "why_tests_cant": "all cache contents and adversarial servers", "anchors": ["metadata/updater/updater.go:Refresh", "metadata/updater/updater.go:onlineRefresh", "metadata/updater/updater.go:unsafeLocalRefresh"]}
{"id": "C25", "title": "Root update walks consecutive versions and is bounded", "statement": "The online Refresh requests root versions N+1, N+2, ... in order, where N is the trusted version, makes at most MaxRootRotations such requests, stops at the first 403/404 and fails on any other error; each downloaded root is verified against its predecessor before the next one is requested.", "quantifier": "every configuration and server behaviour", "why_tests_cant": "all lengths of rotation chains", "anchors": ["metadata/updater/updater.go:loadRoot"]}
{"id": "C26", "title": "Refresh happens once", "statement": "After a successful Refresh every further Refresh on the same Updater fails and does not change the trusted metadata.", "quantifier": "every server and cache behaviour after the first refresh", "why_tests_cant": "all later behaviours", "anchors": ["metadata/updater/updater.go:Refresh"]}
{"id": "C27", "title": "Only verified metadata reaches the cache", "statement": "Every metadata file that the Updater moves into the metadata directory holds bytes that the trusted set accepted for that role at that time (for New: the configured trusted root).", "quantifier": "every API history, cache content, network behaviour and IO failure pattern", "why_tests_cant": "all histories", "anchors": ["metadata/updater/updater.go:persistMetadata", "metadata/updater/updater.go:loadRoot", "metadata/updater/updater.go:loadTimestamp", "metadata/updater/updater.go:loadSnapshot", "metadata/updater/updater.go:loadTargets"]}
{"id": "C28", "title": "Metadata cache writes are crash atomic", "statement": "At every crash point of every API call each file in the metadata directory holds its complete old content or the complete content of one accepted new document, never a mixture or a truncation.", "quantifier": "every API call, every crash point including inside a file write, every IO failure pattern", "why_tests_cant": "crash points cannot be enumerated by unit tests", "anchors": ["metadata/updater/updater.go:persistMetadata"]}
{"id": "C29", "title": "Rollback protection survives restarts", "statement": "If the cache holds a timestamp that verifies under the root that a new session trusts, then when Refresh returns nil in that session the trusted timestamp's version, and the snapshot version it lists, are not lower than the cached ones; likewise a cached snapshot that verifies bounds the versions of all roles it lists.", "quantifier": "every cache content, configuration and server behaviour", "why_tests_cant": "unbounded sequences of sessions", "anchors": ["metadata/updater/updater.go:loadTimestamp", "metadata/updater/updater.go:loadSnapshot", "metadata/trustedmetadata/trustedmetadata.go:UpdateTimestamp"]}
{"id": "C30", "title": "Disabled cache writes nothing", "statement": "With DisableLocalCache set no API call creates, writes, renames or removes any file or directory.", "quantifier": "every API call and environment", "why_tests_cant": "all executions", "anchors": ["metadata/updater/updater.go:persistMetadata", "metadata/updater/updater.go:DownloadTarget", "metadata/config/config.go:EnsurePathsExist"]}
{"id": "C31", "title": "Local mode does not use the network", "statement": "With UnsafeLocalMode set Refresh and GetTargetInfo perform no download.", "quantifier": "every cache content and target path", "why_tests_cant": "all cache contents", "anchors": ["metadata/updater/updater.go:unsafeLocalRefresh", "metadata/updater/updater.go:GetTargetInfo", "metadata/updater/updater.go:loadTargets"]}
{"id": "C32", "title": "Download sizes are bounded", "statement": "Every metadata download passes the configured maximum length of its role, or the length listed by the parent metadata if that is not zero, and every target download passes the length in the target info.", "quantifier": "every execution", "why_tests_cant": "all executions", "anchors": ["metadata/updater/updater.go:downloadMetadata", "metadata/updater/updater.go:loadTimestamp", "metadata/updater/updater.go:loadSnapshot", "metadata/updater/updater.go:loadTargets", "metadata/updater/updater.go:loadRoot"]}
{"id": "C33", "title": "Download URLs name the right file", "statement": "Metadata is requested as <base>/<version>.<escaped role>.json for root and, under consistent snapshots, for snapshot and targets with the version listed by the parent, and as <base>/<escaped role>.json otherwise; with a fixed base, different (version, role) pairs never map to the same URL.", "quantifier": "every role name, version and base URL", "why_tests_cant": "all byte strings", "anchors": ["metadata/updater/updater.go:downloadMetadata", "metadata/updater/updater.go:ensureTrailingSlash"]}
{"id": "C34", "title": "A damaged cache does not block an update", "statement": "If the server offers a valid update, Refresh succeeds whatever the contents of the local cache files.", "quantifier": "every cache content", "why_tests_cant": "all byte contents of the cache", "anchors": ["metadata/updater/updater.go:loadTimestamp", "metadata/updater/updater.go:loadSnapshot", "metadata/updater/updater.go:loadTargets", "metadata/errors.go:ErrRepository"]}
{"id": "C35", "title": "The cached root is never rolled back", "statement": "The version of the root metadata in the cache never decreases.", "quantifier": "every sequence of sessions", "why_tests_cant": "sequences of sessions", "anchors": ["metadata/updater/updater.go:New", "metadata/updater/updater.go:persistMetadata"]}
{"id": "C36", "title": "A role missing from the snapshot gives an error", "statement": "If a delegated role is not listed in the trusted snapshot, GetTargetInfo returns an error.", "quantifier": "every delegation graph and snapshot", "why_tests_cant": "all graphs", "anchors": ["metadata/updater/updater.go:loadTargets"]}
{"id": "C37", "title": "The delegation search terminates and is bounded", "statement": "GetTargetInfo visits every role at most once, visits at most MaxDelegations+1 roles, and terminates for every, also cyclic, delegation graph.", "quantifier": "every delegation graph, target path, configuration and map iteration order", "why_tests_cant": "all graphs", "anchors": ["metadata/updater/updater.go:preOrderDepthFirstWalk"]}
{"id": "C38", "title": "A returned target is backed by a delegation chain", "statement": "If GetTargetInfo returns a target info, it is the entry for that path in a trusted targets role that is reached from top-level targets by a chain of delegations each of which covers the path.", "quantifier": "every delegation graph, target path and map iteration order", "why_tests_cant": "all graphs", "anchors": ["metadata/updater/updater.go:preOrderDepthFirstWalk", "metadata/metadata.go:GetRolesForTarget"]}
{"id": "C39", "title": "Terminating delegations stop backtracking", "statement": "Once the search has entered a role that has a terminating delegation covering the path and has reached that delegation, no role outside the children collected so far and their descendants is consulted.", "quantifier": "every delegation graph, target path and map iteration order", "why_tests_cant": "all graphs", "anchors": ["metadata/updater/updater.go:preOrderDepthFirstWalk"]}
{"id": "C40", "title": "Delegations are searched in order of appearance", "statement": "Among the delegations of a role that cover the path, GetTargetInfo consults them in the order in which the metadata lists them, so that the most trusted role wins and repeated calls agree.", "quantifier": "every delegation graph and every run", "why_tests_cant": "map iteration order is random: a test may pass by luck", "anchors": ["metadata/updater/updater.go:preOrderDepthFirstWalk", "metadata/metadata.go:GetRolesForTarget"]}
{"id": "C41", "title": "Delegated metadata is verified for the delegation used", "statement": "The metadata that GetTargetInfo consults for a role reached through a parent met the threshold that this parent sets for the role.", "quantifier": "every delegation graph, in particular graphs in which two parents delegate to one role name", "why_tests_cant": "all graphs and call histories", "anchors": ["metadata/updater/updater.go:loadTargets"]}
{"id": "C42", "title": "The returned info is for the requested path", "statement": "If GetTargetInfo(path) returns info, then info.Path = path.", "quantifier": "every repository content and path", "why_tests_cant": "all contents", "anchors": ["metadata/updater/updater.go:GetTargetInfo", "metadata/marshal.go:TargetsType.UnmarshalJSON"]}
{"id": "C43", "title": "DownloadTarget only yields matching bytes", "statement": "If DownloadTarget returns data then the data has exactly the length and every hash that the target info lists; if caching is on the same data is what was written to the returned path; on a mismatch nothing is written.", "quantifier": "every target info, server behaviour and IO failure pattern", "why_tests_cant": "all server responses", "anchors": ["metadata/updater/updater.go:DownloadTarget"]}
{"id": "C44", "title": "FindCachedTarget only yields matching bytes", "statement": "If FindCachedTarget returns a path, then the file's current content is returned and has exactly the length and every hash of the target info; an absent or mismatching file yields no error and no path; nothing is written or downloaded.", "quantifier": "every target info and file system content", "why_tests_cant": "all file contents", "anchors": ["metadata/updater/updater.go:FindCachedTarget"]}
{"id": "C45", "title": "Downloaded targets are authenticated by a hash", "statement": "Data returned by DownloadTarget always matched at least one cryptographic hash from signed metadata.", "quantifier": "every target info from signed metadata", "why_tests_cant": "targets without hashes are not tested", "anchors": ["metadata/updater/updater.go:DownloadTarget", "metadata/metadata.go:verifyHashes"]}
{"id": "C46", "title": "Hash-prefixed target names follow the specification", "statement": "Under consistent snapshots with PrefixTargetsWithHash, the target a/b/c is requested as <base>/a/b/<hash>.c.", "quantifier": "every target path", "why_tests_cant": "all path depths", "anchors": ["metadata/updater/updater.go:DownloadTarget"]}
{"id": "C47", "title": "Cache file names are safe", "statement": "Metadata files are only written directly inside the metadata directory, whatever the role name, and different role names use different files.", "quantifier": "every role name (any bytes) and directory", "why_tests_cant": "all byte strings", "anchors": ["metadata/updater/updater.go:persistMetadata"]}
{"id": "C48", "title": "Persisted metadata is found again", "statement": "What persistMetadata stored for a role is what the next session reads for that role.", "quantifier": "every role name", "why_tests_cant": "all role names, in particular those changed by URL escaping", "anchors": ["metadata/updater/updater.go:persistMetadata", "metadata/updater/updater.go:loadLocalMetadata"]}
{"id": "C49", "title": "Interrupted target downloads are never taken for complete ones", "statement": "At every crash point of DownloadTarget, a later FindCachedTarget for the same info returns either nothing or bytes that match the info.", "quantifier": "every crash point", "why_tests_cant": "crash points", "anchors": ["metadata/updater/updater.go:DownloadTarget", "metadata/updater/updater.go:FindCachedTarget"]}
{"id": "C50", "title": "Repository errors are recognised as such", "statement": "errors.Is(err, ErrRepository{}) holds for every error that the library reports as a repository error, and the Is relation of the error types is the documented hierarchy.", "quantifier": "every error value", "why_tests_cant": "all message contents", "anchors": ["metadata/errors.go:Is"]}
{"id": "C51", "title": "Path patterns never cross directories", "statement": "A delegation path pattern covers a target path only if both have the same number of slash-separated parts and every part matches its own pattern part; a malformed pattern covers nothing.", "quantifier": "every pattern and path", "why_tests_cant": "all strings", "anchors": ["metadata/metadata.go:isTargetInPathPattern", "metadata/metadata.go:IsDelegatedPath"]}
{"id": "C52", "title": "Hash prefixes select by the hex digest", "statement": "A role with path_hash_prefixes covers exactly the target paths whose hex-encoded SHA-256 digest starts with one of the prefixes.", "quantifier": "every path and prefix list", "why_tests_cant": "all digests", "anchors": ["metadata/metadata.go:IsDelegatedPath"]}
{"id": "C53", "title": "Succinct delegations assign every path to exactly one existing bin", "statement": "For bit lengths 1..32 SuccinctRoles.GetRolesForTarget yields exactly one role, it is terminating, its number is the leftmost BitLength bits of the path's SHA-256, it is in GetRoles(), and IsDelegatedRole holds for it.", "quantifier": "every path, name prefix and bit length 1..32", "why_tests_cant": "2^32 bins and all paths", "anchors": ["metadata/metadata.go:SuccinctRoles.GetRolesForTarget", "metadata/metadata.go:GetRoles", "metadata/metadata.go:GetSuffixLen"]}
{"id": "C54", "title": "IsDelegatedRole agrees with GetRoles", "statement": "For a succinct delegation, IsDelegatedRole(name) holds exactly for the names in GetRoles(), which are 2^BitLength different names.", "quantifier": "every name and bit length", "why_tests_cant": "all strings", "anchors": ["metadata/metadata.go:IsDelegatedRole", "metadata/metadata.go:GetRoles"]}
{"id": "C55", "title": "GetRolesForTarget reports exactly the covering roles", "statement": "Delegations.GetRolesForTarget returns a role name exactly if some delegated role of that name covers the path, with the terminating flag of that role.", "quantifier": "every delegation list and path", "why_tests_cant": "all lists, also with repeated names", "anchors": ["metadata/metadata.go:Delegations.GetRolesForTarget"]}
{"id": "C56", "title": "Root AddKey", "statement": "RootType.AddKey(key, role) fails without changes if the role does not exist; otherwise it lists the key ID for the role exactly once more than needed (no duplicate), stores the key, leaves all other roles and keys alone, and is idempotent.", "quantifier": "every root, key and role", "why_tests_cant": "all roots", "anchors": ["metadata/metadata.go:RootType.AddKey"]}
{"id": "C57", "title": "Root RevokeKey", "statement": "RootType.RevokeKey(keyID, role) fails without changes if the role does not exist or does not list the key ID; otherwise the role no longer lists it, other roles are untouched, and the key is dropped from the key store exactly if no role lists it any more.", "quantifier": "every root without null roles, key ID and role (with a null role, which FromBytes reads, RevokeKey crashes)", "why_tests_cant": "all roots", "anchors": ["metadata/metadata.go:RootType.RevokeKey"]}
{"id": "C58", "title": "Key store consistency over edit histories", "statement": "Starting from a root in which every listed key ID has a key and every stored key is listed by some role, every history of AddKey and RevokeKey preserves both.", "quantifier": "every root with a key store and without null roles, every edit history", "why_tests_cant": "unbounded histories", "anchors": ["metadata/metadata.go:RootType.AddKey", "metadata/metadata.go:RootType.RevokeKey"]}
{"id": "C59", "title": "Targets AddKey and RevokeKey", "statement": "For targets metadata, after a successful AddKey the delegated role lists the key ID and the key is stored; after a successful RevokeKey the first delegated role of that name (or the succinct delegation) no longer lists it, and the key is dropped exactly if no delegated role lists it.", "quantifier": "every targets metadata, key and role", "why_tests_cant": "all delegation lists", "anchors": ["metadata/metadata.go:TargetsType.AddKey", "metadata/metadata.go:TargetsType.RevokeKey"]}
{"id": "C60", "title": "Generated target info verifies its own data and only that", "statement": "TargetFile().FromBytes(path, data, algs...) succeeds exactly if all algorithms are supported, and then VerifyLengthHashes accepts d exactly if d has the same length and the same listed hashes as data; otherwise it returns an error.", "quantifier": "every byte string and algorithm list", "why_tests_cant": "all data", "anchors": ["metadata/metadata.go:TargetFiles.FromBytes", "metadata/metadata.go:VerifyLengthHashes"]}
{"id": "C61", "title": "Length and hash checks are exact", "statement": "VerifyLengthHashes of a target info accepts exactly the data of the listed length whose digest equals every listed hash, all algorithms being supported; for a meta file the length is checked unless 0 and the hashes unless empty; the verdict does not depend on map order.", "quantifier": "every info and data", "why_tests_cant": "all data", "anchors": ["metadata/metadata.go:verifyHashes", "metadata/metadata.go:verifyLength", "metadata/metadata.go:VerifyLengthHashes"]}
{"id": "C62", "title": "Target info equality is an equivalence", "statement": "TargetFiles.Equal is reflexive, symmetric and transitive.", "quantifier": "every triple of target infos", "why_tests_cant": "all triples", "anchors": ["metadata/metadata.go:TargetFiles.Equal", "metadata/metadata.go:Hashes.Equal"]}
{"id": "C63", "title": "Hex bytes round trip", "statement": "Unmarshalling a marshalled HexBytes value gives the same bytes, marshalled values are lowercase hex in quotes, and only quoted even-length hex strings are accepted.", "quantifier": "every byte string", "why_tests_cant": "all byte strings", "anchors": ["metadata/marshal.go:HexBytes.MarshalJSON", "metadata/marshal.go:HexBytes.UnmarshalJSON"]}
{"id": "C64", "title": "Metadata round trip keeps unrecognised fields", "statement": "For every metadata value that FromBytes can return, serialising and parsing it again gives the same value, including all unrecognised fields at all levels.", "quantifier": "every metadata value", "why_tests_cant": "all documents", "anchors": ["metadata/marshal.go:MarshalJSON", "metadata/marshal.go:UnmarshalJSON"]}
{"id": "C65", "title": "The signed payload determines the content", "statement": "Two metadata values returned by FromBytes whose Signed parts have the same canonical signing payload agree in every field that the client uses (type, version, expiry, keys, roles, meta, targets, delegations).", "quantifier": "every pair of documents", "why_tests_cant": "collisions cannot be found by sampling", "anchors": ["metadata/metadata.go:Sign", "metadata/metadata.go:VerifyDelegate", "metadata/marshal.go:MarshalJSON"]}
{"id": "C66", "title": "Signatures are checked over the document as signed", "statement": "The payload used by VerifyDelegate for parsed metadata is the canonical form of the document's own signed member.", "quantifier": "every document", "why_tests_cant": "all documents; in particular ones that omit optional fields", "anchors": ["metadata/metadata.go:VerifyDelegate", "metadata/marshal.go:MarshalJSON"]}
{"id": "C67", "title": "Unrecognised fields cannot shadow recognised ones", "statement": "In the serialised form every recognised field has the value from the struct, whatever UnrecognizedFields holds.", "quantifier": "every metadata value", "why_tests_cant": "all field maps", "anchors": ["metadata/marshal.go:MarshalJSON", "metadata/marshal.go:copyMapValues"]}
{"id": "C68", "title": "Multi-repository consensus", "statement": "If MultiRepoClient.GetTargetInfo returns a target info and a repository list, then at least `threshold` of the repositories listed in the applied mapping returned an equal target info, and the list holds exactly such repositories.", "quantifier": "every map file and behaviour of the repositories", "why_tests_cant": "all combinations of answers; tests do not cover the package", "anchors": ["metadata/multirepo/multirepo.go:GetTargetInfo"]}
{"id": "C69", "title": "Terminating mappings stop the search", "statement": "When the path matches a mapping that is terminating and has no consensus, later mappings are not consulted.", "quantifier": "every map file", "why_tests_cant": "all map files", "anchors": ["metadata/multirepo/multirepo.go:GetTargetInfo"]}
{"id": "C70", "title": "Ambiguous consensus is an error", "statement": "If two different target infos both reach the threshold of the applied mapping, GetTargetInfo returns an error.", "quantifier": "every map file and behaviour of the repositories", "why_tests_cant": "all combinations", "anchors": ["metadata/multirepo/multirepo.go:GetTargetInfo"]}
{"id": "C71", "title": "Multi-repository downloads are verified", "statement": "MultiRepoClient.DownloadTarget returns only data that has the length and hashes of the given target info.", "quantifier": "every repository list, target info and environment", "why_tests_cant": "all environments", "anchors": ["metadata/multirepo/multirepo.go:DownloadTarget"]}
{"id": "C72", "title": "Every repository has its own root of trust", "statement": "NewConfig succeeds only if a trusted root is given for every repository of the map file, and New creates exactly one client per repository, each from its own root.", "quantifier": "every map file and set of roots", "why_tests_cant": "all map files", "anchors": ["metadata/multirepo/multirepo.go:NewConfig", "metadata/multirepo/multirepo.go:initTUFClients"]}
{"id": "C73", "title": "Unknown repositories in a mapping give errors", "statement": "A mapping that names a repository without client makes GetTargetInfo skip it or return an error.", "quantifier": "every map file", "why_tests_cant": "all map files", "anchors": ["metadata/multirepo/multirepo.go:GetTargetInfo", "metadata/multirepo/multirepo.go:DownloadTarget"]}
{"id": "C74", "title": "Downloads never exceed the limit", "statement": "DefaultFetcher.DownloadFile never returns more than maxLength bytes and never reads more than maxLength+1 bytes of the body.", "quantifier": "every response and limit", "why_tests_cant": "all bodies and limits, also at the int64 boundary", "anchors": ["metadata/fetcher/fetcher.go:DownloadFile"]}
{"id": "C75", "title": "Downloads are complete", "statement": "If DownloadFile returns data, the response had status 200 and the data is the complete response body. Conversely a body within the limit is delivered if Content-Length is absent or a decimal number (with or without a sign) within the limit; if it is anything else, nothing of the body is read and an error is returned.", "quantifier": "every response and limit", "why_tests_cant": "all bodies and limits, also at the int64 boundary", "anchors": ["metadata/fetcher/fetcher.go:DownloadFile"]}
{"id": "C76", "title": "HTTP errors carry the status", "statement": "For every status other than 200 DownloadFile returns ErrDownloadHTTP with that status, so that callers can recognise 403 and 404.", "quantifier": "every status", "why_tests_cant": "all statuses", "anchors": ["metadata/fetcher/fetcher.go:DownloadFile", "metadata/updater/updater.go:loadRoot"]}
{"id": "C77", "title": "Repository store behaves like a map", "statement": "After any history of Set calls, each getter returns the value of the last Set for that role (and nil if there was none).", "quantifier": "every history of Set calls", "why_tests_cant": "unbounded histories", "anchors": ["metadata/repository/repository.go:SetTargets", "metadata/repository/repository.go:Targets"]}
{"id": "C78", "title": "Exact acceptance rule of the trusted set", "statement": "New and every Update* call report success exactly if the document meets the stated conditions: order of roles, parsing, type, signature thresholds, versions, listed lengths and hashes, expiry; nothing else can make them fail or succeed.", "quantifier": "every trusted set, byte string, role and delegator", "why_tests_cant": "both directions for all inputs", "anchors": ["metadata/trustedmetadata/trustedmetadata.go:UpdateRoot", "metadata/trustedmetadata/trustedmetadata.go:UpdateTimestamp", "metadata/trustedmetadata/trustedmetadata.go:UpdateSnapshot", "metadata/trustedmetadata/trustedmetadata.go:UpdateDelegatedTargets", "metadata/trustedmetadata/trustedmetadata.go:New"]}
{"id": "C79", "title": "The cache mirrors the trusted metadata", "statement": "After New and a successful online Refresh with caching on and LocalMetadataDir not touched by others, the files root.json, timestamp.json, snapshot.json and targets.json in the cache parse to exactly the metadata that the client trusts.", "quantifier": "every cache content, configuration and server behaviour", "why_tests_cant": "all executions and all cache contents", "anchors": ["metadata/updater/updater.go:Refresh", "metadata/updater/updater.go:persistMetadata", "metadata/updater/updater.go:loadTimestamp", "metadata/updater/updater.go:loadSnapshot", "metadata/updater/updater.go:loadTargets"]}
{"id": "C80", "title": "Versions do not decrease between sessions", "statement": "If a session refreshes successfully with caching on and a second session that can read the same cache refreshes successfully, and the first session's timestamp and snapshot still verify under the second session's root, then no trusted timestamp, snapshot or targets version is lower in the second session.", "quantifier": "every pair of sessions and server behaviours", "why_tests_cant": "all pairs of executions", "anchors": ["metadata/updater/updater.go:Refresh", "metadata/trustedmetadata/trustedmetadata.go:UpdateTimestamp", "metadata/trustedmetadata/trustedmetadata.go:UpdateSnapshot"]}
{"id": "C81", "title": "A signature for one role type is none for another", "statement": "If two documents are read as metadata of different role types, the payloads over which their signatures are checked differ.", "quantifier": "every pair of documents", "why_tests_cant": "needs documents made for this purpose; tests use one spelling of each field", "anchors": ["metadata/metadata.go:FromBytes", "metadata/metadata.go:checkType", "metadata/marshal.go:UnmarshalJSON"]}
{"id": "C82", "title": "Whatever is trusted is authentic, at any time", "statement": "After New and any sequence of Refresh, GetTargetInfo, DownloadTarget and FindCachedTarget calls with any outcomes (also failed ones), the trusted set is sound: the root verifies itself; timestamp and snapshot verify under it; if any targets role is loaded, all four top-level roles are there, unexpired, and linked by versions; and every loaded targets role is unexpired, has the version that the trusted snapshot lists, and is signed by a threshold of keys assigned by the root or by another loaded role for which the same holds.", "quantifier": "every configuration, cache content, server behaviour and sequence of API calls", "why_tests_cant": "unbounded sequences of calls with failures in between", "anchors": ["metadata/updater/updater.go:Refresh", "metadata/updater/updater.go:GetTargetInfo", "metadata/updater/updater.go:loadTargets", "metadata/trustedmetadata/trustedmetadata.go:UpdateDelegatedTargets"]}
{"id": "C83", "title": "End-to-end authenticity of targets", "statement": "After New and any API calls, if GetTargetInfo returns an info for a path, then it is the entry for that path in unexpired metadata that has a chain of signature thresholds up to the trusted root and the version listed in the trusted snapshot; and any bytes that DownloadTarget or FindCachedTarget return for this info, at any later time, have the length and hashes of that entry.", "quantifier": "every configuration, cache content, server behaviour, sequence of API calls and path", "why_tests_cant": "all executions; composes all layers of the client", "anchors": ["metadata/updater/updater.go:GetTargetInfo", "metadata/updater/updater.go:DownloadTarget", "metadata/updater/updater.go:FindCachedTarget", "metadata/trustedmetadata/trustedmetadata.go:UpdateDelegatedTargets"]}
{"id": "C84", "title": "Delegated roles cannot displace cached top-level metadata", "statement": "Whatever a client writes to root.json, timestamp.json or snapshot.json in its metadata directory was accepted as root, timestamp or snapshot metadata.", "quantifier": "every session", "why_tests_cant": "needs delegated roles with the names of top-level roles", "anchors": ["metadata/updater/updater.go:loadTargets", "metadata/updater/updater.go:persistMetadata", "metadata/trustedmetadata/trustedmetadata.go:UpdateDelegatedTargets"]}
{"id": "C85", "title": "What is published is what is read", "statement": "For every root, snapshot, timestamp or targets value that is built without nil entries, without both kinds of paths or roles, with the right type, with at most one signature per key, and without unrecognised fields that spell recognised ones: ToBytes succeeds, FromBytes on the result succeeds, and returns the same value, except that computed key IDs are forgotten, empty hash maps of meta files become nil, and targets get their paths; the signed payload is the same.", "quantifier": "every such value", "why_tests_cant": "all nested values, maps of any size", "anchors": ["metadata/metadata.go:ToBytes", "metadata/metadata.go:FromBytes", "metadata/marshal.go:MarshalJSON", "metadata/marshal.go:UnmarshalJSON"]}
{"id": "C86", "title": "Clients accept what honest repositories publish", "statement": "Metadata that is built, signed with Sign by enough different signers of its role (with correct signature schemes) and written with ToBytes is accepted by the trusted set: as initial root, as next root, and as timestamp, snapshot, targets and delegated targets of a consistent unexpired release.", "quantifier": "every such repository", "why_tests_cant": "all numbers of signers, thresholds and contents", "anchors": ["metadata/metadata.go:Sign", "metadata/metadata.go:ToBytes", "metadata/trustedmetadata/trustedmetadata.go:New", "metadata/trustedmetadata/trustedmetadata.go:UpdateRoot", "metadata/trustedmetadata/trustedmetadata.go:UpdateTimestamp", "metadata/trustedmetadata/trustedmetadata.go:UpdateSnapshot", "metadata/trustedmetadata/trustedmetadata.go:UpdateDelegatedTargets"]}
{"id": "C87", "title": "Refresh against an honest repository succeeds", "statement": "A client without cached metadata whose trusted root leads, by the roots on the server, to a published root, and whose server has a published release of it, refreshes successfully and then trusts exactly the published values.", "quantifier": "every such repository, server and client", "why_tests_cant": "composes signing, serialisation, verification and the update workflow for all contents", "anchors": ["metadata/updater/updater.go:Refresh", "metadata/metadata.go:Sign", "metadata/metadata.go:ToBytes"]}
{"id": "C88", "title": "Published targets are found and delivered", "statement": "After that refresh GetTargetInfo returns, for every path in the published targets metadata, the published entry, and DownloadTarget returns the published bytes, if the server has them under the names that TUF prescribes.", "quantifier": "every such repository, server, client and path", "why_tests_cant": "composes all layers for all contents", "anchors": ["metadata/updater/updater.go:GetTargetInfo", "metadata/updater/updater.go:DownloadTarget"]}
{"id": "C89", "title": "A target that is not found is not there", "statement": "If GetTargetInfo fails after a search in which every consulted role could be loaded and the delegation limit was not reached, and if no consulted role has a terminating delegation for the path or none delegates the path to two roles, then every role that trusted roles delegate the path to, transitively, was consulted, is trusted and does not list the path.", "quantifier": "every state, path, server behaviour and delegation graph", "why_tests_cant": "delegation graphs of any size and shape, with cycles", "anchors": ["metadata/updater/updater.go:GetTargetInfo", "metadata/updater/updater.go:preOrderDepthFirstWalk"]}
{"id": "C90", "title": "Published targets of delegated roles are found", "statement": "If a client as in C87, or one whose cached metadata (also that of delegated roles) is from earlier releases, asks for a path and all roles that the published delegations lead to for this path are published, listed in the snapshot and served, then GetTargetInfo does not crash, and an answer is an entry of such a role. If there are at most MaxDelegations such roles, and no terminating delegation covers the path or no role delegates it twice, then there is an answer if one of these roles has an entry for the path, and if only one has, the answer is that entry.", "quantifier": "every such repository, server, client and path", "why_tests_cant": "composes all layers for delegation graphs of any size", "anchors": ["metadata/updater/updater.go:GetTargetInfo", "metadata/updater/updater.go:preOrderDepthFirstWalk", "metadata/updater/updater.go:loadTargets", "metadata/trustedmetadata/trustedmetadata.go:UpdateDelegatedTargets"]}
{"id": "C91", "title": "No forgery without a threshold of keys", "statement": "Suppose that in the initial root, and in every document that honest key holders sign, fewer keys than the threshold of each role are compromised, and that signatures of honest keys verify only for payloads that their holders signed. Then after New and any sequence of API calls, against any server and any cache content, every trusted document says the same as a document that an honest holder of a key assigned to its role, by documents that are themselves so signed, has signed; and all bytes that DownloadTarget or FindCachedTarget return for the answer of GetTargetInfo have the length and hashes of an entry of such a document.", "quantifier": "every attacker who controls the server, the cache and fewer keys than each threshold; every sequence of API calls", "why_tests_cant": "an unbounded adversary", "anchors": ["metadata/updater/updater.go:Refresh", "metadata/updater/updater.go:GetTargetInfo", "metadata/updater/updater.go:DownloadTarget", "metadata/trustedmetadata/trustedmetadata.go:UpdateRoot", "metadata/trustedmetadata/trustedmetadata.go:UpdateDelegatedTargets", "metadata/metadata.go:VerifyDelegate"]}
{"id": "C92", "title": "What was refreshed can be used offline", "statement": "If a client refreshes successfully with caching on, then a client on the same cache, started from the cached root in local mode (UnsafeLocalMode) at a time at which nothing has expired, refreshes successfully without any request and trusts the same metadata.", "quantifier": "every cache content, configuration and server behaviour", "why_tests_cant": "all pairs of executions", "anchors": ["metadata/updater/updater.go:Refresh", "metadata/updater/updater.go:loadTimestamp", "metadata/updater/updater.go:loadSnapshot", "metadata/updater/updater.go:loadTargets", "metadata/trustedmetadata/trustedmetadata.go:UpdateSnapshot"]}
{"id": "C93", "title": "Clients keep up with the repository", "statement": "A client whose cached timestamp, snapshot and targets come from earlier releases (possibly different ones, possibly signed with keys that are no longer trusted) refreshes successfully to the current release of an honest repository and then trusts exactly what was published. Hence any number of client runs (New, then Refresh) on the same cache, at any times at which the current release is fresh, all succeed, as long as versions do not decrease from release to release, listed files stay listed, and a changed document has a new version.", "quantifier": "every sequence of releases, client runs, root rotations and cache contents from earlier releases", "why_tests_cant": "unbounded sequences of sessions", "anchors": ["metadata/updater/updater.go:New", "metadata/updater/updater.go:Refresh", "metadata/updater/updater.go:loadTimestamp", "metadata/updater/updater.go:loadSnapshot", "metadata/updater/updater.go:loadTargets", "metadata/trustedmetadata/trustedmetadata.go:UpdateTimestamp", "metadata/trustedmetadata/trustedmetadata.go:UpdateSnapshot"]}
{"id": "C94", "title": "tuf-client get delivers authentic files", "statement": "When `tuf-client get <target>` ends well, the file whose name it prints lies at the target's place in the download folder and has exactly the bytes (length and hashes) that authentic, complete and unexpired metadata lists for the target, where trust begins with the root.json in the metadata folder.", "quantifier": "every server, disk, flags, working directory, cache and target", "why_tests_cant": "all behaviours of servers and caches", "anchors": ["examples/cli/tuf-client/cmd/get.go:GetCmd", "examples/cli/tuf-client/cmd/get.go:verifyEnv", "metadata/updater/updater.go:New", "metadata/updater/updater.go:DownloadTarget"]}
{"id": "C95", "title": "The trust anchor of tuf-client evolves only by rotation", "statement": "Whatever number of `tuf-client get` commands ran in a directory, with any flags, against any servers, with any disk errors and interrupted at any moment, a root.json in the metadata folder that a client accepts is a root to which consecutive doubly signed rotations lead from the root with which the folder began; and whatever `get` delivers afterwards is authenticated by a chain from that first root.", "quantifier": "every sequence of interrupted and completed commands", "why_tests_cant": "unbounded histories, crash points", "anchors": ["examples/cli/tuf-client/cmd/get.go:GetCmd", "metadata/updater/updater.go:New", "metadata/updater/updater.go:persistMetadata", "metadata/updater/updater.go:loadRoot"]}
{"id": "C96", "title": "tuf-client init establishes a verified trust anchor or fails", "statement": "When `tuf-client init` ends well, both folders exist and root.json in the metadata folder is the root metadata of the server (or the given file), and verifies itself; later `get` commands then deliver only what is authenticated by a chain from it. `init` in a directory that has a metadata folder fails and changes no files. `get` with a root.json that is no valid root fails without network requests and without changes. The claim for a given file is false unless its name is that of root.json: the file is verified and then copied under its own name, and `get` fails for lack of a root.json. It is also false for failing calls: `init` leaves an unverified root.json and the folders behind, and cannot be repeated.", "quantifier": "every server, disk, flags and files", "why_tests_cant": "all server answers and initial states", "anchors": ["examples/cli/tuf-client/cmd/init.go:InitializeCmd", "examples/cli/tuf-client/cmd/init.go:prepareEnvironment", "examples/cli/tuf-client/cmd/init.go:fetchTrustedRoot", "examples/cli/tuf-client/cmd/get.go:GetCmd"]}
{"id": "C97", "title": "tuf-client get succeeds with an honest repository", "statement": "In an initialized directory, with working disk and network, whatever earlier releases the cache is from, `tuf-client get` of a target that the current release of an honest repository lists, in top-level targets or in a delegated role that the client can find (C90), succeeds, and the file that it names has the published length and hashes.", "quantifier": "every honest repository, rotation history, cache of earlier releases and target", "why_tests_cant": "all repositories and caches", "anchors": ["examples/cli/tuf-client/cmd/get.go:GetCmd", "examples/cli/tuf-client/cmd/get.go:verifyEnv", "metadata/updater/updater.go:Refresh", "metadata/updater/updater.go:GetTargetInfo", "metadata/updater/updater.go:FindCachedTarget", "metadata/updater/updater.go:DownloadTarget"]}
{"id": "C98", "title": "tuf-client reset deletes what it says it deleted, with consent", "statement": "After `tuf-client reset`, a folder that is said to be deleted is gone with all its contents, a folder that is said not to be deleted is untouched, and so is everything else; without --force a folder is deleted only if the user said yes to that folder. The first part is false if a deletion fails, since the result of RemoveAll is ignored and success is reported.", "quantifier": "every directory content, answers and flags", "why_tests_cant": "all contents, failing deletions", "anchors": ["examples/cli/tuf-client/cmd/reset.go:ResetCmd", "examples/cli/tuf-client/cmd/reset.go:askForConfirmation"]}
{"id": "C99", "title": "Files that were read can be written and read again", "statement": "If FromBytes reads a file and the metadata has none of the features listed in C64 (other spellings, both kinds of paths or roles, empty hash maps), then ToBytes writes a text, compact or indented, that FromBytes reads as the same metadata. What was made in memory from UTF-8 strings, signed and written is read back as well. Nothing is assumed about encoding/json, time and strconv: their text formats are modelled down to the bytes.", "quantifier": "every file and every metadata value", "why_tests_cant": "all texts: escapes, surrogates, white space, nesting, numbers, times", "anchors": ["metadata/metadata.go:FromBytes", "metadata/metadata.go:ToBytes", "metadata/marshal.go:MarshalJSON", "metadata/marshal.go:UnmarshalJSON"]}
{"id": "C100", "title": "Expiry times mean calendar times", "statement": "Expiry times are read from exactly the texts of RFC 3339 with a capital T and Z (with the liberties of Go 1.21: hours of one digit, a comma before the fraction, 60 minutes in an offset, digits beyond nanoseconds cut off), each to the time that it denotes. Every expiry time that can be read is a date of the Gregorian calendar with a time of day and an offset; written and read again it is the same time; metadata is expired exactly if its expiry is earlier on the calendar than the reference time; for UTC times without fractions that is the order of their texts.", "quantifier": "every text and every date", "why_tests_cant": "all dates: leap years, ends of months, offsets, fractions", "anchors": ["metadata/metadata.go:IsExpired", "metadata/types.go:RootType", "metadata/marshal.go:UnmarshalJSON"]}
{"id": "C101", "title": "Numbers in unrecognised fields survive reading and writing", "statement": "A number in an unrecognised field is the same after FromBytes and ToBytes. False: it is decoded as a float64, so integers above 2^53 are altered, and with them the payload over which signatures are checked. True for integers below 2^53, and from the second reading on. Numbers of at most 15 digits, with or without a point or an exponent, keep their value (not their spelling); every number that is not tiny changes by less than one part in 2^51.", "quantifier": "every number", "why_tests_cant": "all numbers", "anchors": ["metadata/marshal.go:UnmarshalJSON", "metadata/metadata.go:VerifyDelegate"]}
{"id": "C102", "title": "Path patterns of delegations are shell patterns", "statement": "A delegated role with path patterns is asked for a target exactly if path and pattern have equally many parts and each part of the path matches its part of the pattern: * stands for any characters but the slash, ? for one character, [a-z] and [^a-z] for one character inside or outside of the ranges, a backslash for the next character as it is. A malformed pattern covers nothing; a plain path covers itself only. In a map file a malformed pattern ends the search, and an entry whose patterns do not match is passed over. False beyond ASCII: *?? covers a path of one character. Nothing is assumed about path/filepath: its Match is modelled down to the bytes.", "quantifier": "every pattern and path", "why_tests_cant": "all patterns and all paths, in particular the greedy search after a star", "anchors": ["metadata/metadata.go:IsDelegatedPath", "metadata/metadata.go:isTargetInPathPattern", "metadata/multirepo/multirepo.go:GetTargetInfo"]}
{"id": "C103", "title": "Key IDs identify keys", "statement": "Key.ID is the hex SHA-256 digest of the canonical JSON text of the key; keys that differ in type, scheme or public value have different IDs unless their two texts have the same SHA-256 digest; in root metadata made with AddKey and RevokeKey every key is stored under its own ID. False for keys that are changed after their ID was asked for (it is cached), and not checked for metadata that is read.", "quantifier": "every key; every history of AddKey and RevokeKey", "why_tests_cant": "all keys and histories; digests cannot be enumerated", "anchors": ["metadata/keys.go:ID", "metadata/metadata.go:AddKey", "metadata/metadata.go:RevokeKey", "metadata/metadata.go:VerifyDelegate"]}
{"id": "C104", "title": "Keys made from public keys stand for them", "statement": "KeyFromPublicKey declares the key type and scheme that belong to the kind of public key, and refuses other kinds; ToPublicKey of the result is the same public key. If a signer's key is added to a role of root metadata with AddKey and the signer signs a document with Sign, VerifyDelegate accepts it (threshold 1, other listed keys usable). False for keys with the key type ecdsa-sha2-nistp256 of the TUF specification: they are understood for verification, but Sign files their signatures under another key ID.", "quantifier": "every public key, root metadata, role, signer and document", "why_tests_cant": "all keys, roles and documents", "anchors": ["metadata/keys.go:KeyFromPublicKey", "metadata/keys.go:ToPublicKey", "metadata/metadata.go:Sign", "metadata/metadata.go:AddKey", "metadata/metadata.go:VerifyDelegate"]}
{"id": "C105", "title": "Only JSON is read", "statement": "FromBytes and NewConfig read exactly the texts of the JSON grammar of RFC 8259 (at most 10000 levels deep), and what they return depends on the denoted value only: a text has one value, layout and the spelling of strings do not matter, nothing but white space may follow the document, everything else is an error. What ToBytes writes is such a text. False to the letter for texts that are not UTF-8, which the RFC excludes: bytes that belong to no character are read as U+FFFD. False for times, hashes and signatures that contain escape sequences: they are refused though the same strings without escape sequences are read. Proved: files of the same value are read alike (the bytes to be signed included) if they differ elsewhere only; otherwise they are read alike or the one with escape sequences is refused.", "quantifier": "every byte string", "why_tests_cant": "all byte strings", "anchors": ["metadata/metadata.go:FromBytes", "metadata/metadata.go:ToBytes", "metadata/metadata.go:checkType", "metadata/multirepo/multirepo.go:NewConfig"]}
{"id": "C106", "title": "The listing of top-level targets agrees with lookups", "statement": "After a successful Refresh, Updater.GetTopLevelTargets returns the targets of the accepted top-level targets metadata, and the same after any further calls. What it lists under a path is what GetTargetInfo returns for the path, at once, without downloading, reading, writing or changing anything; a path that is not listed is not found if there are no delegations.", "quantifier": "all updater states, configurations with MaxDelegations >= 0, paths, sequences of calls", "why_tests_cant": "all metadata contents and all call sequences", "anchors": ["metadata/updater/updater.go:GetTopLevelTargets", "metadata/updater/updater.go:GetTargetInfo", "metadata/updater/updater.go:preOrderDepthFirstWalk"]}
{"id": "C107", "title": "Multi-repository listing holds what has consensus", "statement": "MultiRepoClient.GetTopLevelTargets returns the names that are listed by some repository and have consensus, each with the info GetTargetInfo finds; names without consensus are skipped (comment in the source). False: one name without consensus makes the whole call fail, so a single repository can make the listing unusable. Proved: what is returned on success is found by GetTargetInfo, and the names are exactly those listed by at least one repository.", "quantifier": "all map files, repositories, client states and orders of map iteration", "why_tests_cant": "all repositories' contents and all iteration orders", "anchors": ["metadata/multirepo/multirepo.go:GetTopLevelTargets", "metadata/multirepo/multirepo.go:GetTargetInfo", "metadata/updater/updater.go:GetTopLevelTargets"]}
{"id": "C108", "title": "Listing targets does not crash", "statement": "GetTopLevelTargets of the updater and of the multi-repository client do not crash. False before Refresh: directly after New both always crash with a nil dereference. After a successful Refresh the multi-repository listing crashes only if a lookup does.", "quantifier": "all configurations and states", "why_tests_cant": "all client states", "anchors": ["metadata/updater/updater.go:GetTopLevelTargets", "metadata/multirepo/multirepo.go:GetTopLevelTargets", "metadata/updater/updater.go:New", "metadata/multirepo/multirepo.go:Refresh"]}
{"id": "C109", "title": "Metadata can be signed exactly when its numbers are integers", "statement": "With a signer that works and whose key is of a supported kind, Metadata.Sign succeeds if and only if all numbers in unrecognised fields, at all levels, and in custom are integers that fit 64 bits. Otherwise Sign fails, and VerifyDelegate accepts the document for no delegator and no signatures. FromBytes reads such documents.", "quantifier": "all root, timestamp, snapshot and targets metadata that FromBytes can return; all signers; all delegators", "why_tests_cant": "all metadata contents, including arbitrarily nested unrecognised fields", "anchors": ["metadata/metadata.go:Sign", "metadata/metadata.go:VerifyDelegate", "metadata/metadata.go:FromBytes"]}
{"id": "C110", "title": "The repository that the example program generates works for its clients", "statement": "With working Ed25519 keys the program examples/multirepo/repository succeeds. A client that starts with the root it wrote to the client folder, on a server with the folders metadata and targets that it wrote, refreshes successfully until the first role expires, then finds exactly the target files and downloads their contents. False for paths with two or more slashes when targets are fetched with hash prefixes: the program and the client place the hash at different components.", "quantifier": "all sets of target files, keys, expiry times, client configurations with caching, earlier runs of the client (empty or filled cache)", "why_tests_cant": "all repositories that the program can generate", "anchors": ["examples/multirepo/repository/generate_metadata.go:main", "examples/multirepo/repository/generate_metadata.go:copyHashPrefixed", "metadata/updater/updater.go:New", "metadata/updater/updater.go:Refresh", "metadata/updater/updater.go:GetTargetInfo", "metadata/updater/updater.go:DownloadTarget"]}
{"id": "C111", "title": "Targets are stored in the directory for targets, one file each", "statement": "Without an explicit file name DownloadTarget stores a target in LocalTargetsDir under its URL-escaped path, FindCachedTarget looks for it there, and a download of another target never touches that file. True for directories made of plain names (with any percent-escapes) and targets other than '.' and '..'. False otherwise, because url.JoinPath makes the file name: a directory with a space is written with %20, a leading '..' is dropped, with a colon all targets share one file, %2A becomes *, with a lone % nothing can be stored, and the target '..' is stored as the parent directory.", "quantifier": "all plain directories, target paths, infos, servers, states", "why_tests_cant": "all directory and target names", "anchors": ["metadata/updater/updater.go:DownloadTarget", "metadata/updater/updater.go:FindCachedTarget", "metadata/updater/updater.go:generateTargetFilePath"]}
{"id": "C112", "title": "A new configuration asks below the repository URL", "statement": "For every URL with a scheme, a host (a name, or an IPv6 address with or without zone), a plain path (also with percent-escapes), with or without user, password, port and a slash at its end, config.New succeeds with the documented limits; metadata are requested as files directly below the URL and targets below <URL>/targets, with the hash prefix under consistent snapshots. False for every URL with a query or a fragment: file names are appended to the query or the fragment, so all metadata are requested at one path, that of the URL, and all targets at that of its targets folder (there an empty fragment is dropped).", "quantifier": "all repository URLs, roots, servers, states, targets", "why_tests_cant": "all URLs", "anchors": ["metadata/config/config.go:New", "metadata/updater/updater.go:Refresh", "metadata/updater/updater.go:GetTargetInfo", "metadata/updater/updater.go:DownloadTarget"]}
{"id": "C113", "title": "Exchanging stolen keys recovers clients", "statement": "Whatever the thief of online keys made a client cache (also documents with the highest version numbers), once a new root exchanges the keys the next Refresh of an honest server succeeds and ends in the honest release: cached documents that the new root's keys did not sign are ignored. As TUF has it (5.3.11: exchanging the keys of timestamp or snapshot drops both documents) it is false: if only the timestamp keys are exchanged, a fast-forwarded snapshot stays in the cache and every later Refresh fails.", "quantifier": "all environments, thieves, caches, root chains, honest releases", "why_tests_cant": "any contents of the cache, unbounded chains of roots", "anchors": ["metadata/updater/updater.go:Refresh", "metadata/updater/updater.go:loadTimestamp", "metadata/updater/updater.go:loadSnapshot", "metadata/updater/updater.go:loadTargets", "metadata/trustedmetadata/trustedmetadata.go:UpdateTimestamp", "metadata/trustedmetadata/trustedmetadata.go:UpdateSnapshot"]}
{"id": "C114", "title": "Versions, specification versions and expiry dates are those the document states", "statement": "FromBytes gives each document the version, specification version and expiry date that the last such members of its signed part state (in any spelling that encoding/json takes for the name: capital letters, the long s), each of the right JSON type (an int64, a string, an RFC 3339 time) or null; without them version 0, no specification version, and a date in year 1. After a Refresh the cached files state the trusted values. What TUF demands beyond this is not checked: documents with negative or no versions and with an unsupported, senseless or no specification version are accepted.", "quantifier": "all environments, bytes, sessions", "why_tests_cant": "all documents with repeated, differently spelled and ill-typed members", "anchors": ["metadata/metadata.go:FromBytes", "metadata/marshal.go:UnmarshalJSON", "metadata/updater/updater.go:Refresh"]}
{"id": "C115", "title": "Signing a file in turn", "statement": "A document that is signed, written, read and signed again by one key holder after the other ends with exactly the signatures they would have made together, below the same payload, and is accepted wherever these signers suffice. This works exactly as long as no two of them (nor signatures already there) have the same key ID: a file signed twice under one key ID is refused by FromBytes.", "quantifier": "all documents of the four types, all lists of signers, all environments whose JSON printing can be read back", "why_tests_cant": "any number of signers in any order", "anchors": ["metadata/metadata.go:Sign", "metadata/metadata.go:ToBytes", "metadata/metadata.go:FromBytes", "metadata/metadata.go:VerifyDelegate"]}
{"id": "C116", "title": "Whatever the API builds can be published", "statement": "Start from new metadata of any of the four types and edit it in any way through the API: AddKey and RevokeKey (whether they succeed or fail), thresholds, versions, expiry times, target files, delegations, file entries, writing and reading again, in any order and number. As long as the arguments are texts, 64-bit integers and calendar times, the result is always well-formed: any working signers with different key IDs can sign it, ToBytes writes it (compact or indented), and FromBytes reads back the same content with all signatures.", "quantifier": "all histories of edits, all arguments of that kind, all lists of signers", "why_tests_cant": "histories have any length; a failed call may leave anything behind", "anchors": ["metadata/metadata.go:AddKey", "metadata/metadata.go:RevokeKey", "metadata/metadata.go:Root", "metadata/metadata.go:Sign", "metadata/metadata.go:ToBytes", "metadata/metadata.go:FromBytes"]}
{"id": "C117", "title": "Who may sign after a history of key changes", "statement": "After any history of AddKey, RevokeKey and threshold changes (and other edits, writing and reading), a document of a top-level role that was signed by members of the staff is accepted by VerifyDelegate exactly if the role has any key and the signers hold at least the last set threshold of different key IDs that were added to the role and not revoked since. Keys added to other roles, failed calls and rereading do not matter.", "quantifier": "all histories, all staffs of working signers of any key kind with different key IDs, all documents they signed", "why_tests_cant": "sets of key IDs are computed independently of the metadata; histories have any length", "anchors": ["metadata/metadata.go:AddKey", "metadata/metadata.go:RevokeKey", "metadata/metadata.go:VerifyDelegate", "metadata/metadata.go:Sign", "metadata/keys.go:ID"]}
{"id": "C118", "title": "The basic example repository works for its clients", "statement": "The example program that creates a repository, signs the root out of band, delegates the target file to a role, rotates a root key and mixes key types never fails (with working keys of different key IDs, calendar times and a target file under 2^63 bytes), and leaves exactly nine files. Clients without cached metadata that start with any of its three roots and ask a server with those files refresh successfully until a role of the last release expires, end with the third root, find the target file in the delegated role with the right length and hash, download it, and find no other path.", "quantifier": "all keys of the three kinds, expiry times, contents and local paths of the target file, clients, times and paths", "why_tests_cant": "keys, signatures and times differ in every run; the program is only run by hand", "anchors": ["examples/repository/basic_repository.go:main", "metadata/metadata.go:Root", "metadata/metadata.go:AddKey", "metadata/metadata.go:RevokeKey", "metadata/metadata.go:VerifyDelegate", "metadata/updater/updater.go:Refresh", "metadata/updater/updater.go:GetTargetInfo"]}
{"id": "C119", "title": "Repositories of a multi-repository client are separate", "statement": "Every client that New makes uses the first URL, the trusted root and the folder (named like the repository, in the folder for metadata) of its own repository and the default limits. A call on the client of one repository does not change the metadata files or the trusted metadata of another, and after New every repository's cached root is its own trusted root.", "quantifier": "all map files, roots, folders, disks, servers and calls", "why_tests_cant": "a test has a few harmless names", "anchors": ["metadata/multirepo/multirepo.go:New", "metadata/multirepo/multirepo.go:initTUFClients", "metadata/multirepo/multirepo.go:Refresh", "metadata/multirepo/multirepo.go:GetTargetInfo"]}
{"id": "C120", "title": "Target folders of a multi-repository client", "statement": "If a folder for targets is configured, every repository's client uses it; otherwise New gives every repository a folder of its own, so that there is no conflict.", "quantifier": "all map files, roots, disks and configurations", "why_tests_cant": "the documented default is not exercised with caching", "anchors": ["metadata/multirepo/multirepo.go:New", "metadata/multirepo/multirepo.go:initTUFClients", "metadata/multirepo/multirepo.go:EnsurePathsExist"]}
{"id": "C121", "title": "No temporary files are left", "statement": "No call leaves temporary files behind: after New, Refresh, GetTargetInfo and downloads the temporary files on the disk are those that were there before.", "quantifier": "all disks, servers, calls and moments at which writing fails", "why_tests_cant": "tests do not inject failures between creating and renaming", "anchors": ["metadata/updater/updater.go:persistMetadata", "metadata/updater/updater.go:New", "metadata/updater/updater.go:Refresh", "metadata/updater/updater.go:GetTargetInfo"]}
{"id": "C122", "title": "Agreement of honest repositories is found", "statement": "If all repositories of the first mapping that matches a path answer, or do not have it, all answers are equal, and enough of them answer for the threshold, then GetTargetInfo returns the info and exactly the repositories that have it. In particular, on a client with working disk, clock and network and without cached metadata, New and GetTargetInfo succeed if the repositories of the mapping have each published the target file with the same length and hashes, at whatever depth of delegations.", "quantifier": "all map files, repositories with trees of delegations, orders of maps, keys and paths", "why_tests_cant": "a test has one map file and two repositories", "anchors": ["metadata/multirepo/multirepo.go:New", "metadata/multirepo/multirepo.go:GetTargetInfo", "metadata/updater/updater.go:New", "metadata/updater/updater.go:GetTargetInfo"]}
{"id": "C123", "title": "A map file means what it says", "statement": "NewConfig accepts exactly the map files whose members repositories (names with lists of URLs) and mapping (a list of objects with paths, repositories, threshold, terminating) have the right JSON types and that name only repositories with a trusted root; the configuration then has exactly these names with their last lists of URLs and these mappings in order, with empty lists, 0 and false for what is missing; other members are ignored. If a member mapping (or a member of one mapping) is repeated, the last one counts.", "quantifier": "all map files in every spelling of the members, all roots", "why_tests_cant": "all JSON documents", "anchors": ["metadata/multirepo/multirepo.go:NewConfig"]}
{"id": "C124", "title": "The example client trusts on first use, and only then", "statement": "When examples/client ends with its target file in the download folder, the file has exactly the length and hashes that authentic, complete and current metadata list for the target, where trust begins with the root file of its folder, or, if there was none, with the first root the server sent. Once that folder has a good root file, every later run of the program, interrupted anywhere any number of times, starts from that root or a root reached from it by verified updates, whatever servers answer. A root file that is no root delivers nothing and changes no file.", "quantifier": "all servers, directories, target names, interruptions and sequences of runs", "why_tests_cant": "all network answers, all crash points and any number of runs", "anchors": ["examples/client/client_example.go", "metadata/updater/updater.go:New", "metadata/updater/updater.go:Refresh"]}
{"id": "C125", "title": "The multi-repository example reaches its targets from one root file", "statement": "BootstrapTUF of examples/multirepo/client returns exactly what the current targets metadata of the first repository list: the bytes of map.json and, per folder, the bytes of a root, each with the listed length and hashes, where trust begins with root.json in the working directory. When the whole program succeeds, its data have the length and hashes of an info that every repository of the answer lists under trust that begins with such a downloaded root. BootstrapTUF, interrupted anywhere, leaves root.json unchanged. Its result depends on the server and the files only.", "quantifier": "all servers, files, working directories, orders of maps, interruptions", "why_tests_cant": "all network answers, map orders and crash points", "anchors": ["examples/multirepo/client/client_example.go", "metadata/multirepo/multirepo.go:New", "metadata/multirepo/multirepo.go:GetTargetInfo", "metadata/multirepo/multirepo.go:DownloadTarget"]}
{"id": "C126", "title": "A session with several repositories returns what its repositories list", "statement": "Let a client for several repositories be made by New and used with any sequence of Refresh, GetTargetInfo, GetTopLevelTargets and DownloadTarget, failing calls included. Whenever GetTargetInfo returns an info with repositories, every one of them lists that info (or one equal to it) in current metadata trusted from its own root alone, the info is for the path asked, the repositories belong to one mapping with a pattern matching the path, and at least threshold many repositories of that mapping support one info. What DownloadTarget returns for it has its length and hashes. Whatever GetTopLevelTargets returns is listed by some repository under trust from that repository's root.", "quantifier": "all configurations with any number of repositories, all servers, all sequences of calls", "why_tests_cant": "all repositories, thresholds and call sequences", "anchors": ["metadata/multirepo/multirepo.go:New", "metadata/multirepo/multirepo.go:Refresh", "metadata/multirepo/multirepo.go:GetTargetInfo", "metadata/multirepo/multirepo.go:GetTopLevelTargets", "metadata/multirepo/multirepo.go:DownloadTarget"]}
{"id": "C127", "title": "New file descriptors", "statement": "TargetFile() describes the empty file: VerifyLengthHashes accepts exactly the empty file, and it is written with length 0 and no hashes. MetaFile(v) has version v, or 1 if v is not positive, accepts every file, and is written with the version alone.", "quantifier": "all versions and files", "why_tests_cant": "all versions and files", "anchors": ["metadata/metadata.go:TargetFile", "metadata/metadata.go:MetaFile", "metadata/metadata.go:VerifyLengthHashes"]}
{"id": "C128", "title": "Saving metadata to a file and loading it", "statement": "After ToFile has succeeded the file holds exactly what ToBytes gives, and FromFile on that file then gives metadata with the same content, for all four types. ToFile changes no other file and not the receiver, and nothing at all if the metadata cannot be written as bytes; if it fails the file still has its old contents. FromFile changes no file, and leaves the receiver unchanged unless it succeeds, in which case receiver and result are what FromBytes gives for the contents of the file. TargetFiles.FromFile describes the file: path, length, and acceptance of exactly the data with the same length and digests.", "quantifier": "all metadata, files, disks and failures of the disk", "why_tests_cant": "a failing disk can stop at any byte", "anchors": ["metadata/metadata.go:FromFile", "metadata/metadata.go:ToFile", "metadata/metadata.go:FromBytes", "metadata/metadata.go:ToBytes"]}
{"id": "C129", "title": "Clients that search keep up with the repository", "statement": "Any number of client sessions (New, Refresh, then GetTargetInfo for any paths) on the same cache, at any times at which the current release of an honest repository is fresh, all refresh successfully and get answers to their searches as in C90, from the roles that are published then, whatever releases were skipped, as long as releases follow each other as in C93 and a changed targets role has a new version. No delegated metadata that is left in the cache by earlier sessions gets in the way or is mistaken for the current one.", "quantifier": "every sequence of releases, sessions, paths, delegations, root rotations and caches from earlier releases", "why_tests_cant": "unbounded sequences of sessions on delegation graphs of any size", "anchors": ["metadata/updater/updater.go:New", "metadata/updater/updater.go:Refresh", "metadata/updater/updater.go:GetTargetInfo", "metadata/updater/updater.go:preOrderDepthFirstWalk", "metadata/updater/updater.go:loadTargets", "metadata/trustedmetadata/trustedmetadata.go:UpdateDelegatedTargets"]}
{"id": "C130", "title": "One repository that has the target is enough", "statement": "MultiRepoClient.DownloadTarget succeeds if one of the given repositories has the target, whatever the others do: the data has the length and hashes of the info and is in the file of the target. If the file already holds the target it is returned without downloads. An error means that every repository failed. After New and GetTargetInfo with repositories that agree (C122), DownloadTarget of the result succeeds if one of them has the target.", "quantifier": "every target info, list of repositories, client configuration, server, disk content and pattern of failures", "why_tests_cant": "failures of every subset of the repositories, in every way, and disks with any content", "anchors": ["metadata/multirepo/multirepo.go:DownloadTarget", "metadata/multirepo/multirepo.go:New", "metadata/multirepo/multirepo.go:GetTargetInfo", "metadata/updater/updater.go:DownloadTarget", "metadata/updater/updater.go:FindCachedTarget"]}
{"id": "C131", "title": "Clients keep up with the test repository", "statement": "NewRepository of the repository simulator gives a repository with version 1 of all top-level roles. A test that then in any order adds delegations from the top level and target files and publishes them (next targets version, UpdateSnapshot), rotates the keys of timestamp, snapshot and targets and publishes a root, rotates the root keys keeping the old signers, calls UpdateTimestamp, and switches the hashes of metadata files on or off, and that between these steps lets clients with the simulator as fetcher refresh, all with one cache, sees all of that succeed: every client ends up with exactly the root, timestamp, snapshot and targets that the simulator has.", "quantifier": "every sequence of steps and visits, set of keys without two that share a key ID, order of map iterations, published root that a client starts from, number of downloads in between", "why_tests_cant": "sequences of steps and visits of any length; orders in which Go iterates over maps", "anchors": ["testutils/simulator/repository_simulator.go:NewRepository", "testutils/simulator/repository_simulator.go:DownloadFile", "testutils/simulator/repository_simulator.go:FetchMetadata", "testutils/simulator/repository_simulator.go:PublishRoot", "testutils/simulator/repository_simulator.go:RotateKeys", "testutils/simulator/repository_simulator.go:UpdateSnapshot", "testutils/simulator/repository_simulator.go:UpdateTimestamp", "testutils/simulator/repository_simulator.go:AddDelegation", "testutils/simulator/repository_simulator.go:AddTarget", "metadata/updater/updater.go:New", "metadata/updater/updater.go:Refresh"]}
{"id": "C132", "title": "Target downloads from the test repository", "statement": "DownloadFile of the repository simulator never returns the data of a target file whose path has no empty part, whatever URL below targets/ is asked for: with fewer than two slashes in the path it crashes, otherwise it looks for a path with an empty part. FetchTarget with the hexadecimal hash of a file says that the hash does not match. FetchMetadata of root with a version below 1 crashes. Other URLs give no data and no error.", "quantifier": "every state of the simulator, path, hash, limit", "why_tests_cant": "all paths and all contents of the repository", "anchors": ["testutils/simulator/repository_simulator.go:DownloadFile", "testutils/simulator/repository_simulator.go:FetchTarget", "testutils/simulator/repository_simulator.go:FetchMetadata"]}
{"id": "C133", "title": "Delegations in the test repository", "statement": "AddDelegation from the top-level targets appends the role with a new key, keeps its signer, and makes the given metadata that of the role, unless the role has some. From a delegated role without delegations it reports nothing but leaves that role as it was. AddSuccinctRoles crashes, whatever the arguments.", "quantifier": "every state of the simulator, role, metadata, bit length and name prefix", "why_tests_cant": "all states and arguments; the crash does not depend on them", "anchors": ["testutils/simulator/repository_simulator.go:AddDelegation", "testutils/simulator/repository_simulator.go:AddSuccinctRoles"]}
{"id": "C134", "title": "Attacks without enough keys do no lasting harm", "statement": "While fewer keys of each role than its threshold are compromised, clients with one cache may run against any servers, on any disks and clocks, and be interrupted at any moment (also within New and within a write): afterwards every cached timestamp, snapshot and targets file says what a file of some release says. A client that then reaches the repository (which has a release that may follow the earlier ones) creates its updater and refreshes successfully, whatever the attackers did, and trusts the root, timestamp, snapshot and targets of that release.", "quantifier": "every history of calls of New and of sessions, every server, disk, clock and interruption, every release and line of roots", "why_tests_cant": "all attacks and interruptions; the honest signers are only assumed not to sign anything else and signatures not to be forged", "anchors": ["metadata/updater/updater.go:New", "metadata/updater/updater.go:Refresh", "metadata/updater/updater.go:loadTimestamp", "metadata/updater/updater.go:loadSnapshot", "metadata/updater/updater.go:loadTargets", "metadata/updater/updater.go:persistMetadata", "metadata/trustedmetadata/trustedmetadata.go:UpdateTimestamp", "metadata/trustedmetadata/trustedmetadata.go:UpdateSnapshot"]}
{"id": "C135", "title": "Attacks without enough keys do no lasting harm to searches of delegated targets", "statement": "While fewer keys of each role (also of delegated ones) than its threshold are compromised, clients with one cache may run against any servers, on any disks and clocks, and be interrupted at any moment: afterwards every cached document of a role of the repository's delegations says what some published document of the role says. A client that then reaches the repository refreshes successfully, and every GetTargetInfo, also one without an earlier Refresh, does not crash, answers only with entries of roles that the published delegations reach for the path, and finds the target when some reached role has it, no delegation stands in the way and the number of roles is within the limit.", "quantifier": "every history of calls of New and of sessions, every server, disk, clock and interruption, every release, tree of delegations and list of searched paths", "why_tests_cant": "all attacks and interruptions, all trees of delegations", "anchors": ["metadata/updater/updater.go:GetTargetInfo", "metadata/updater/updater.go:preOrderDepthFirstWalk", "metadata/updater/updater.go:loadTargets", "metadata/updater/updater.go:persistMetadata", "metadata/trustedmetadata/trustedmetadata.go:UpdateDelegatedTargets", "metadata/metadata.go:VerifyDelegate"]}
{"id": "C136", "title": "Clients that are many root rotations behind catch up, a limited number of rotations per run", "statement": "Let a repository's server have every root file from the client's one to the newest, each a correctly signed rotation of the one before. New with one of these roots and Refresh, whatever comes of the refresh and whatever was cached, leave the client with the root that is MaxRootRotations rotations later, or with the newest one if that is nearer, both trusted and in the cache. Commands 'get' of tuf-client and runs of the example client in examples/client, whatever comes of them, each take the trust anchor 32 rotations further, so that after enough of them it is the newest root. [Not true of programs that start every run from the same root file: with more than MaxRootRotations rotations since, every run, whatever earlier ones cached, ends before the newest root, and Refresh fails each time if the root reached has expired. The cached root is overwritten and not read.]", "quantifier": "every line of root files, every configuration with a root of the line, every other file of the server, every cache, disk history without failures, and number of runs", "why_tests_cant": "root lines of any length, all outcomes of the runs", "anchors": ["metadata/updater/updater.go:New", "metadata/updater/updater.go:loadRoot", "metadata/updater/updater.go:Refresh", "metadata/config/config.go:MaxRootRotations", "metadata/trustedmetadata/trustedmetadata.go:UpdateRoot"]}
{"id": "C137", "title": "A document means what it says", "statement": "FromBytes of a document that mentions no member of an object twice (in whatever spelling of the names; entries of maps may be repeated) succeeds with a value if and only if the value is what the document says, for all four types: the document is an object whose signed part declares the type; every text, number, truth value, time, hex string, list, map, key, role, file, target and delegation of the value is the one written under its name, in any of the spellings Go's decoder takes, or the zero value if there is none or null; of entries of a map with the same name the last counts and all must be readable; the path of a target is the name of its entry and no target is null in the end; members that are not named exactly like a recognised one are kept as unrecognised, all numbers being in float64's range; and no two signatures have the same key ID. So there is exactly one reading, nothing else is accepted, and nothing that says something is refused.", "quantifier": "every document of the four types and every value", "why_tests_cant": "all documents with all combinations of spellings, missing members, nulls and repeated entries", "anchors": ["metadata/metadata.go:FromBytes", "metadata/metadata.go:fromBytes", "metadata/marshal.go:UnmarshalJSON", "metadata/metadata.go:checkType", "metadata/metadata.go:checkUniqueSignatures"]}
{"id": "C138", "title": "Texts of public keys are PEM, and are read back", "statement": "KeyFromPublicKey of every RSA or ECDSA public key whose DER form crypto/x509 writes and reads back gives a key whose text is a PEM block PUBLIC KEY with the DER form in Base64, in ASCII; ToPublicKey gives the public key back (so also for Ed25519 keys). ToPublicKey gives RSA and ECDSA keys only for texts with a PEM block, of a type PUBLIC KEY holding the key in PKIX form, or RSA PUBLIC KEY holding it in PKCS #1 form: the marks at beginnings of lines, the same type in both, header lines with colons, and Base64 with any white space in it. What follows the block, and lines without dashes before it, change nothing, so that one public key has many texts. Adding the key of a signer to a role makes its signatures count, and the second example repository can be made, without an assumption about PEM.", "quantifier": "every public key, every text, every DER encoding that is read back", "why_tests_cant": "all texts and keys", "anchors": ["metadata/keys.go:ToPublicKey", "metadata/keys.go:KeyFromPublicKey", "metadata/metadata.go:AddKey", "metadata/metadata.go:VerifyDelegate"]}
{"id": "C139", "title": "A call does a bounded amount of work", "statement": "Whatever the server, the cache and the file system do, Refresh makes at most MaxRootRotations + 3 requests and GetTargetInfo at most MaxDelegations more, DownloadTarget one, FindCachedTarget and New none; also the operations on the disk are bounded. With a fetcher that obeys its limits, as the default one does, Refresh receives at most MaxRootRotations times the limit for roots, the limit for timestamps, and what the metadata trusted in the end allow for snapshot and targets; a server whose documents are all refused cannot make it receive more than the first two. Searches receive besides at most MaxDelegations times what the trusted snapshot allows for a role, and downloads of targets at most the length in the target info.", "quantifier": "every configuration with a non-negative 64-bit MaxRootRotations, every state, server, cache and IO failure pattern", "why_tests_cant": "endless data cannot be tried out", "anchors": ["metadata/updater/updater.go:Refresh", "metadata/updater/updater.go:GetTargetInfo", "metadata/updater/updater.go:DownloadTarget", "metadata/updater/updater.go:loadRoot", "metadata/updater/updater.go:preOrderDepthFirstWalk", "metadata/fetcher/fetcher.go:DownloadFile"]}
{"id": "C140", "title": "Clients may share a cache directory", "statement": "Any number of processes use updaters on one file system, each with its own server, IO failures and temporary names; their operations on the disk interleave in any order and each may be killed at any point. Then at every moment every file that is neither a temporary file nor the file of a downloaded target holds what it held in the beginning or one whole document which a client of that configuration verified for the role that the file is named after; and the trusted set of every process has come about from its configured root by verified documents only. A call that is not interrupted does what it does alone.", "quantifier": "every number of processes, configuration, server, interleaving, kill and IO failure pattern", "why_tests_cant": "interleavings are unbounded and races rarely show in tests", "anchors": ["metadata/updater/updater.go:persistMetadata", "metadata/updater/updater.go:New", "metadata/updater/updater.go:Refresh", "metadata/updater/updater.go:GetTargetInfo", "metadata/updater/updater.go:DownloadTarget", "metadata/updater/updater.go:FindCachedTarget"]}
{"id": "C141", "title": "Rollback protection for clients that share a cache directory", "statement": "If a client has completed Refresh with some version of the timestamp and of the targets, then no client of the same configuration and cache that is started later completes Refresh with lower ones, even if other clients run at the same time.", "quantifier": "every number of processes and interleaving", "why_tests_cant": "needs a particular interleaving of three processes", "anchors": ["metadata/updater/updater.go:persistMetadata", "metadata/updater/updater.go:loadTimestamp", "metadata/updater/updater.go:loadSnapshot"]}
{"id": "C142", "title": "Target files that several clients download", "statement": "When several clients download and look up targets at the same time, then the data that DownloadTarget and FindCachedTarget return match the given target info, and the file to which DownloadTarget has stored its data holds, until another DownloadTarget to it returns, those data.", "quantifier": "every target info, interleaving, content of the file and server", "why_tests_cant": "needs a particular interleaving of two processes", "anchors": ["metadata/updater/updater.go:DownloadTarget", "metadata/updater/updater.go:FindCachedTarget", "metadata/updater/updater.go:generateTargetFilePath"]}
{"id": "C143", "title": "Rollback protection for clients that take turns", "statement": "Any number of clients share a cache directory and take turns: every call is finished or interrupted before the next begins, whoever makes it, whatever their servers, clocks and IO failures (reading the cache works). Each client refreshes once, with or without success, and after a success makes any calls. While the roots that they come to trust demand the same of timestamps and snapshots, and snapshots do not list top-level files: a cached timestamp is replaced only by one that is not older and lists no older snapshot, a cached snapshot only by one that lists the same roles in no lower versions; and if one client has refreshed successfully and then another does, no version of timestamp, snapshot or top-level targets that the second trusts is lower.", "quantifier": "every number of clients, configuration, server, clock, IO failure and interruption pattern", "why_tests_cant": "histories of several clients, some of which fail or are killed, are unbounded", "anchors": ["metadata/updater/updater.go:Refresh", "metadata/updater/updater.go:loadTimestamp", "metadata/updater/updater.go:loadSnapshot", "metadata/updater/updater.go:persistMetadata", "metadata/updater/updater.go:New", "metadata/trustedmetadata/trustedmetadata.go:UpdateTimestamp", "metadata/trustedmetadata/trustedmetadata.go:UpdateSnapshot"]}
{"id": "C144", "title": "Where lists of strings come from", "statement": "In root and targets metadata that was read, whatever the document says and however often it names a member: the key IDs of each role, and the key IDs, paths and path hash prefixes of each delegation, are nil if the object they were read from does not mention them or mentions null last. Otherwise the last mention is an array of the same length, and each element is the text written at its place. Only where null is written there, the element is empty or the text that another mention of the list has at the same place; such leftovers of earlier mentions do occur.", "quantifier": "every document, mentions in any number, order and spelling", "why_tests_cant": "repeated members and null elements make the result depend on decoder state", "anchors": ["metadata/marshal.go:UnmarshalJSON", "metadata/metadata.go:FromBytes"]}
{"id": "C145", "title": "A failed Refresh can be repeated", "statement": "An Updater whose Refresh failed (the network broke, or servers or mirrors sent what they liked while fewer keys than the thresholds were compromised) can be refreshed again: when disk and network work and the server has a release under a root that the client can follow, Refresh succeeds and the client trusts what the release says. The failed calls do not spoil the Updater.", "quantifier": "every sequence of earlier API calls, against every host, cache directory and release", "why_tests_cant": "needs a failure at each possible point followed by a recovery", "anchors": ["metadata/updater/updater.go:Refresh", "metadata/updater/updater.go:loadRoot", "metadata/updater/updater.go:loadTimestamp", "metadata/updater/updater.go:loadSnapshot", "metadata/updater/updater.go:GetTargetInfo", "metadata/trustedmetadata/trustedmetadata.go:UpdateTimestamp", "metadata/trustedmetadata/trustedmetadata.go:UpdateRoot"]}
{"id": "C146", "title": "The dump of the test repository holds what it serves", "statement": "Write of the repository simulator succeeds whatever the test did to the repository before, and leaves in a folder named by the next number: every published root under its version, and for every delegated role what FetchMetadata answers (nothing if it fails) under its escaped name. A client in local mode that is given this folder and the newest root refreshes and then trusts root, timestamp, snapshot and targets of the simulator.", "quantifier": "every sequence of changes to the repository, keys, iteration order of maps, folder and number of dumps", "why_tests_cant": "a debugging aid that no test uses", "anchors": ["testutils/simulator/repository_simulator.go:Write", "testutils/simulator/repository_simulator.go:FetchMetadata", "metadata/updater/updater.go:unsafeLocalRefresh"]}
{"id": "C147", "title": "Tests start from the first root of the simulator", "statement": "If InitMetadataDir returns no error, then, whatever the disk did, the root file has the first root that the returned simulator published, completely, and GetRootBytes gives nothing else. With a disk that works InitMetadataDir succeeds and what GetRootBytes gives is accepted as trusted root.", "quantifier": "every host, key and time", "why_tests_cant": "only one disk state is tested", "anchors": ["testutils/simulator/repository_simulator_setup.go:InitMetadataDir", "testutils/simulator/repository_simulator_setup.go:InitLocalEnv", "testutils/simulator/repository_simulator_setup.go:GetRootBytes"]}
{"id": "C148", "title": "Copies of repository files for tests are complete", "statement": "After Copy without an error every entry of the source folder is in the destination with the same content and all other files are as before. After SetupTestDirs without an error the three folders have the entries of the given folders, and no file outside the new temporary folder has changed.", "quantifier": "every host, folder contents and paths, also when source and destination are the same folder", "why_tests_cant": "tests copy two fixed folders", "anchors": ["testutils/testutils/setup.go:Copy", "testutils/testutils/setup.go:SetupTestDirs"]}
{"id": "C149", "title": "What is cached and current is not downloaded again", "statement": "If the cached snapshot and top-level targets are current by the root and timestamp that a client comes to trust (signed by the root's keys, unexpired, with the versions listed, targets also with the listed length and hashes), Refresh asks only for roots and once for the timestamp, uses the cached metadata and leaves the files alone. In particular a run after a run that refreshed does so if root and snapshot version are the same and nothing has expired, whatever else changed in between. Afterwards GetTargetInfo downloads metadata only for visited roles that are neither trusted nor in a file <role>.json of the cache that is acceptable by then, once each, in the order of the visits.", "quantifier": "every pair of runs, configuration, cache content, server and history", "why_tests_cant": "tests count downloads for one repository and one order of events", "anchors": ["metadata/updater/updater.go:onlineRefresh", "metadata/updater/updater.go:loadSnapshot", "metadata/updater/updater.go:loadTargets", "metadata/updater/updater.go:preOrderDepthFirstWalk"]}
{"id": "C150", "title": "Refresh follows the order of the specification", "statement": "An online Refresh asks for roots (C25), then at most once each, in this order, for the timestamp, for the snapshot in the version that the trusted timestamp lists and for top-level targets in the version that the trusted snapshot lists, with the listed lengths or the configured limits. After one of the last three requests fails there is no further request and Refresh returns an error. If it returns nil, the trusted snapshot is the answer to its request or, if there was none, the content of the cache file from before; likewise targets; the timestamp is the answer, the cached one, or one that was trusted already.", "quantifier": "every state before top-level targets are trusted, also after failed refreshes; every configuration, cache content and server", "why_tests_cant": "tests see the requests of a few runs", "anchors": ["metadata/updater/updater.go:onlineRefresh", "metadata/updater/updater.go:loadRoot", "metadata/updater/updater.go:loadTimestamp", "metadata/updater/updater.go:loadSnapshot", "metadata/updater/updater.go:loadTargets"]}
{"id": "C151", "title": "Who may sign for delegated roles after a history of key changes", "statement": "Start from targets metadata that delegates to roles, or to the bins of a succinct delegation, without keys. After any history of AddKey and RevokeKey, whether the calls succeed or fail, a document of a delegated role (the first one, if the name occurs more than once) that was signed by members of the staff is accepted by VerifyDelegate exactly if the role has any key and the signers hold at least its threshold of different key IDs that were added to the role and not revoked since. Roles by name do not share keys: revoking a key from one does not take it from another, nor the other way round. All bins of a succinct delegation have the same keys, whatever role name the calls were given.", "quantifier": "all histories, all lists of delegated roles and succinct delegations, all staffs of working signers of any key kind with different key IDs, all documents they signed", "why_tests_cant": "sets of key IDs are computed independently of the metadata; histories have any length; roles share the store of keys", "anchors": ["metadata/metadata.go:AddKey", "metadata/metadata.go:RevokeKey", "metadata/metadata.go:VerifyDelegate", "metadata/metadata.go:Sign", "metadata/keys.go:ID"]}
