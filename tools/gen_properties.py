#!/usr/bin/env python3
"""Writes /verif/properties.jsonl. The list below is the source; keep ids stable."""
import json, os
P = []
def p(id, title, statement, quantifier, why, *anchors):
    P.append(dict(id=id, title=title, statement=statement, quantifier=quantifier,
                  why_tests_cant=why, anchors=list(anchors)))
MD = "metadata/metadata.go"; TM = "metadata/trustedmetadata/trustedmetadata.go"
UP = "metadata/updater/updater.go"; MJ = "metadata/marshal.go"; MR = "metadata/multirepo/multirepo.go"
FE = "metadata/fetcher/fetcher.go"; ER = "metadata/errors.go"; KE = "metadata/keys.go"; CF = "metadata/config/config.go"
RE = "metadata/repository/repository.go"

# ---- A. signatures
p("C01", "Threshold soundness",
  "If delegator.VerifyDelegate(role, m) returns nil, then there are at least `threshold` different key IDs, each listed for `role` by the delegator, each resolved to a key in the delegator's key map, and each with a signature that the key's verifier accepts over the canonical JSON of m.Signed.",
  "every delegator (root or targets, plain or succinct delegations), role name, delegated metadata of any type, and every behaviour of the signature verifiers",
  "tests use a handful of keys and thresholds; the claim is about all key sets, thresholds and forged documents", f"{MD}:VerifyDelegate")
p("C02", "Threshold completeness",
  "If every key ID listed for the role resolves to a usable key, m.Signed has a canonical form and at least `threshold` different listed key IDs have an acceptable signature, then VerifyDelegate returns nil; together with C01 the verdict is exactly the threshold rule.",
  "every delegator, role and delegated metadata", "an if-and-only-if over all signature sets cannot be sampled", f"{MD}:VerifyDelegate")
p("C03", "A key ID counts once",
  "Repeating a key ID in the delegation's keyids list never changes the set of counted signers and so can never turn a rejected document into an accepted one.",
  "every delegator, role, document and every duplicated keyids list", "needs all multiplicities and positions", f"{MD}:VerifyDelegate", f"{MD}:checkUniqueSignatures")
p("C04", "No unsigned metadata is accepted",
  "VerifyDelegate never returns nil for a document that carries no acceptable signature at all.",
  "every delegator and document", "the unit tests only use thresholds >= 1", f"{MD}:VerifyDelegate")
p("C05", "Threshold counts different keys",
  "If VerifyDelegate returns nil with threshold t, then at least t different public keys accepted a signature.",
  "every delegator and document", "tests never list one key under two key IDs", f"{MD}:VerifyDelegate", f"{KE}:ID")
p("C06", "Foreign signatures are irrelevant",
  "Adding a signature whose key ID is not listed for the role does not change the verdict of VerifyDelegate.",
  "every delegator, document and added signature, at any position", "all positions and contents", f"{MD}:VerifyDelegate")
p("C07", "Verdict does not depend on listing order",
  "Reordering the keyids of a role, or the entries of the key map, never changes whether VerifyDelegate accepts.",
  "every delegator, document and every permutation", "factorially many orders; Go map order is random", f"{MD}:VerifyDelegate")
p("C08", "Sign then verify",
  "After metadata.Sign is called with signers whose keys are delegated to, whatever their number and order, VerifyDelegate accepts as soon as at least `threshold` different delegated key IDs have signed, and Sign only ever appends one signature and leaves Signed untouched.",
  "every document, sequence of signers and correct signature scheme", "all signer sequences", f"{MD}:Sign", f"{MD}:VerifyDelegate")
p("C09", "Only delegated roles verify",
  "VerifyDelegate returns an error when the delegator is not root or targets metadata, has no delegations, does not delegate to the given role name, or lists no key IDs for it.",
  "every delegator, role name and document", "all role names; in particular names outside the bins of a succinct delegation", f"{MD}:VerifyDelegate", f"{MD}:IsDelegatedRole")
p("C10", "The key's declared scheme is honoured",
  "A signature is only accepted under the signature scheme that the key declares.",
  "every key and scheme string", "tests only use matching type/scheme pairs", f"{MD}:VerifyDelegate", f"{KE}:ToPublicKey")
# ---- B. trusted set
p("C11", "Root rotations are consecutive and doubly signed",
  "In every history of Update calls on a TrustedMetadata, whenever the trusted root changes, the new root's version is exactly one more than the old one's, and it meets the root-role signature threshold of both the old and the new root.",
  "every initial root, every sequence of Update* calls with arbitrary bytes", "unbounded histories of adversarial documents", f"{TM}:UpdateRoot", f"{TM}:New")
p("C12", "Loaded levels are frozen",
  "In every history: once a timestamp is trusted the root never changes; once a snapshot is trusted the timestamp never changes; once top-level targets is trusted the snapshot never changes.",
  "every sequence of Update* calls", "all interleavings of calls", f"{TM}:UpdateRoot", f"{TM}:UpdateTimestamp", f"{TM}:UpdateSnapshot")
p("C13", "No timestamp rollback",
  "In every history the version of the trusted timestamp never decreases, and a trusted timestamp is only ever replaced by one of strictly higher version; the same version is reported as ErrEqualVersionNumber and discarded.",
  "every sequence of Update* calls", "unbounded histories", f"{TM}:UpdateTimestamp")
p("C14", "No snapshot rollback through timestamp",
  "In every history the snapshot version listed in the trusted timestamp never decreases.",
  "every sequence of Update* calls", "unbounded histories", f"{TM}:UpdateTimestamp")
p("C15", "No targets rollback or removal through snapshot",
  "In every history, when a trusted snapshot is replaced, every role listed in the old snapshot is listed in the new one with a version that is not lower.",
  "every sequence of Update* calls, every set of listed roles and every map iteration order", "all role sets and orders", f"{TM}:UpdateSnapshot")
p("C16", "Trusted targets match the trusted snapshot",
  "In every history in which roles are loaded the way the client loads them (top-level targets first), every trusted targets role has the version that the trusted snapshot lists for it, is not expired at the reference time and met the signature threshold of the delegator it was loaded under; its bytes had the length and hashes that the snapshot lists.",
  "every sequence of Update* calls, role names and delegators", "unbounded histories and delegation graphs", f"{TM}:UpdateDelegatedTargets")
p("C17", "Freshness gates",
  "UpdateTimestamp never stores a timestamp while the trusted root is expired, UpdateSnapshot never stores a snapshot while the trusted timestamp is expired, and UpdateDelegatedTargets never stores targets while the trusted snapshot is expired or its version differs from the one in the trusted timestamp.",
  "every state and every input", "all states", f"{TM}:checkFinalTimestamp", f"{TM}:checkFinalSnapshot")
p("C18", "A failed update changes nothing, with two documented exceptions",
  "If an Update* call returns an error, the trusted set is unchanged, except that UpdateTimestamp keeps a correctly signed newer but expired timestamp and UpdateSnapshot keeps a correctly signed, non-rolled-back snapshot that is expired or has another version than the timestamp lists.",
  "every state, call and input", "every error path", f"{TM}:UpdateRoot", f"{TM}:UpdateTimestamp", f"{TM}:UpdateSnapshot", f"{TM}:UpdateDelegatedTargets")
p("C19", "No role type confusion",
  "Bytes are accepted as root, timestamp, snapshot or targets metadata only if their signed part declares exactly that _type.",
  "every byte string and every entry point (FromBytes, New, Update*)", "all byte strings", f"{MD}:checkType", f"{MD}:fromBytes")
p("C20", "Expiry is exact and evaluated at one reference time",
  "IsExpired(t) is true exactly when t is strictly after Expires; all expiry checks of one TrustedMetadata use the reference time fixed when it was created, in every history.",
  "every metadata, time and history", "all times and histories", f"{MD}:IsExpired", f"{TM}:New")
p("C21", "Malformed bytes give errors, not crashes",
  "For every byte string, FromBytes and the Update* methods return (a value or an error) and never panic.",
  "every byte string", "fuzzing only samples", f"{MD}:checkType", f"{MD}:fromBytes", f"{MJ}:UnmarshalJSON")
p("C22", "Loaded metadata has at most one signature per key ID",
  "Metadata that FromBytes or FromFile returns never contains two signatures with the same key ID, and a document is rejected on this ground only if it does.",
  "every byte string", "all signature lists", f"{MD}:checkUniqueSignatures")
p("C23", "Snapshot bytes are bound to the timestamp",
  "A snapshot loaded as untrusted data is stored only if its bytes have the length and hashes that the trusted timestamp lists; every stored snapshot's bytes do.",
  "every state and input", "all inputs; in particular the locally cached copy, which is loaded as trusted", f"{TM}:UpdateSnapshot", f"{UP}:loadSnapshot")
# ---- C. updater
p("C24", "A successful Refresh leaves a complete consistent set",
  "If Refresh returns nil, then root, timestamp, snapshot and top-level targets are all trusted; none is expired at the reference time; timestamp, snapshot and targets meet the thresholds of the trusted root; the snapshot version is the one in the timestamp and the targets version is the one in the snapshot.",
  "every configuration, cache content, network behaviour and IO failure pattern", "all cache contents and adversarial servers", f"{UP}:Refresh", f"{UP}:onlineRefresh", f"{UP}:unsafeLocalRefresh")
p("C25", "Root update walks consecutive versions and is bounded",
  "The online Refresh requests root versions N+1, N+2, ... in order, where N is the trusted version, makes at most MaxRootRotations such requests, stops at the first 403/404 and fails on any other error; each downloaded root is verified against its predecessor before the next one is requested.",
  "every configuration and server behaviour", "all lengths of rotation chains", f"{UP}:loadRoot")
p("C26", "Refresh happens once",
  "After a successful Refresh every further Refresh on the same Updater fails and does not change the trusted metadata.",
  "every server and cache behaviour after the first refresh", "all later behaviours", f"{UP}:Refresh")
p("C27", "Only verified metadata reaches the cache",
  "Every metadata file that the Updater moves into the metadata directory holds bytes that the trusted set accepted for that role at that time (for New: the configured trusted root).",
  "every API history, cache content, network behaviour and IO failure pattern", "all histories", f"{UP}:persistMetadata", f"{UP}:loadRoot", f"{UP}:loadTimestamp", f"{UP}:loadSnapshot", f"{UP}:loadTargets")
p("C28", "Metadata cache writes are crash atomic",
  "At every crash point of every API call each file in the metadata directory holds its complete old content or the complete content of one accepted new document, never a mixture or a truncation.",
  "every API call, every crash point including inside a file write, every IO failure pattern", "crash points cannot be enumerated by unit tests", f"{UP}:persistMetadata")
p("C29", "Rollback protection survives restarts",
  "If the cache holds a timestamp that verifies under the root that a new session trusts, then when Refresh returns nil in that session the trusted timestamp's version, and the snapshot version it lists, are not lower than the cached ones; likewise a cached snapshot that verifies bounds the versions of all roles it lists.",
  "every cache content, configuration and server behaviour", "unbounded sequences of sessions", f"{UP}:loadTimestamp", f"{UP}:loadSnapshot", f"{TM}:UpdateTimestamp")
p("C30", "Disabled cache writes nothing",
  "With DisableLocalCache set no API call creates, writes, renames or removes any file or directory.",
  "every API call and environment", "all executions", f"{UP}:persistMetadata", f"{UP}:DownloadTarget", f"{CF}:EnsurePathsExist")
p("C31", "Local mode does not use the network",
  "With UnsafeLocalMode set Refresh and GetTargetInfo perform no download.",
  "every cache content and target path", "all cache contents", f"{UP}:unsafeLocalRefresh", f"{UP}:GetTargetInfo", f"{UP}:loadTargets")
p("C32", "Download sizes are bounded",
  "Every metadata download passes the configured maximum length of its role, or the length listed by the parent metadata if that is not zero, and every target download passes the length in the target info.",
  "every execution", "all executions", f"{UP}:downloadMetadata", f"{UP}:loadTimestamp", f"{UP}:loadSnapshot", f"{UP}:loadTargets", f"{UP}:loadRoot")
p("C33", "Download URLs name the right file",
  "Metadata is requested as <base>/<version>.<escaped role>.json for root and, under consistent snapshots, for snapshot and targets with the version listed by the parent, and as <base>/<escaped role>.json otherwise; with a fixed base, different (version, role) pairs never map to the same URL.",
  "every role name, version and base URL", "all byte strings", f"{UP}:downloadMetadata", f"{UP}:ensureTrailingSlash")
p("C34", "A damaged cache does not block an update",
  "If the server offers a valid update, Refresh succeeds whatever the contents of the local cache files.",
  "every cache content", "all byte contents of the cache", f"{UP}:loadTimestamp", f"{UP}:loadSnapshot", f"{UP}:loadTargets", f"{ER}:ErrRepository")
p("C35", "The cached root is never rolled back",
  "The version of the root metadata in the cache never decreases.",
  "every sequence of sessions", "sequences of sessions", f"{UP}:New", f"{UP}:persistMetadata")
p("C36", "A role missing from the snapshot gives an error",
  "If a delegated role is not listed in the trusted snapshot, GetTargetInfo returns an error.",
  "every delegation graph and snapshot", "all graphs", f"{UP}:loadTargets")
p("C37", "The delegation search terminates and is bounded",
  "GetTargetInfo visits every role at most once, visits at most MaxDelegations+1 roles, and terminates for every, also cyclic, delegation graph.",
  "every delegation graph, target path, configuration and map iteration order", "all graphs", f"{UP}:preOrderDepthFirstWalk")
p("C38", "A returned target is backed by a delegation chain",
  "If GetTargetInfo returns a target info, it is the entry for that path in a trusted targets role that is reached from top-level targets by a chain of delegations each of which covers the path.",
  "every delegation graph, target path and map iteration order", "all graphs", f"{UP}:preOrderDepthFirstWalk", f"{MD}:GetRolesForTarget")
p("C39", "Terminating delegations stop backtracking",
  "Once the search has entered a role that has a terminating delegation covering the path and has reached that delegation, no role outside the children collected so far and their descendants is consulted.",
  "every delegation graph, target path and map iteration order", "all graphs", f"{UP}:preOrderDepthFirstWalk")
p("C40", "Delegations are searched in order of appearance",
  "Among the delegations of a role that cover the path, GetTargetInfo consults them in the order in which the metadata lists them, so that the most trusted role wins and repeated calls agree.",
  "every delegation graph and every run", "map iteration order is random: a test may pass by luck", f"{UP}:preOrderDepthFirstWalk", f"{MD}:GetRolesForTarget")
p("C41", "Delegated metadata is verified for the delegation used",
  "The metadata that GetTargetInfo consults for a role reached through a parent met the threshold that this parent sets for the role.",
  "every delegation graph, in particular graphs in which two parents delegate to one role name", "all graphs and call histories", f"{UP}:loadTargets")
p("C42", "The returned info is for the requested path",
  "If GetTargetInfo(path) returns info, then info.Path = path.",
  "every repository content and path", "all contents", f"{UP}:GetTargetInfo", f"{MJ}:TargetsType.UnmarshalJSON")
p("C43", "DownloadTarget only yields matching bytes",
  "If DownloadTarget returns data then the data has exactly the length and every hash that the target info lists; if caching is on the same data is what was written to the returned path; on a mismatch nothing is written.",
  "every target info, server behaviour and IO failure pattern", "all server responses", f"{UP}:DownloadTarget")
p("C44", "FindCachedTarget only yields matching bytes",
  "If FindCachedTarget returns a path, then the file's current content is returned and has exactly the length and every hash of the target info; an absent or mismatching file yields no error and no path; nothing is written or downloaded.",
  "every target info and file system content", "all file contents", f"{UP}:FindCachedTarget")
p("C45", "Downloaded targets are authenticated by a hash",
  "Data returned by DownloadTarget always matched at least one cryptographic hash from signed metadata.",
  "every target info from signed metadata", "targets without hashes are not tested", f"{UP}:DownloadTarget", f"{MD}:verifyHashes")
p("C46", "Hash-prefixed target names follow the specification",
  "Under consistent snapshots with PrefixTargetsWithHash, the target a/b/c is requested as <base>/a/b/<hash>.c.",
  "every target path", "all path depths", f"{UP}:DownloadTarget")
p("C47", "Cache file names are safe",
  "Metadata files are only written directly inside the metadata directory, whatever the role name, and different role names use different files.",
  "every role name (any bytes) and directory", "all byte strings", f"{UP}:persistMetadata")
p("C48", "Persisted metadata is found again",
  "What persistMetadata stored for a role is what the next session reads for that role.",
  "every role name", "all role names, in particular those changed by URL escaping", f"{UP}:persistMetadata", f"{UP}:loadLocalMetadata")
p("C49", "Interrupted target downloads are never taken for complete ones",
  "At every crash point of DownloadTarget, a later FindCachedTarget for the same info returns either nothing or bytes that match the info.",
  "every crash point", "crash points", f"{UP}:DownloadTarget", f"{UP}:FindCachedTarget")
p("C50", "Repository errors are recognised as such",
  "errors.Is(err, ErrRepository{}) holds for every error that the library reports as a repository error, and the Is relation of the error types is the documented hierarchy.",
  "every error value", "all message contents", f"{ER}:Is")
# ---- D. delegations
p("C51", "Path patterns never cross directories",
  "A delegation path pattern covers a target path only if both have the same number of slash-separated parts and every part matches its own pattern part; a malformed pattern covers nothing.",
  "every pattern and path", "all strings", f"{MD}:isTargetInPathPattern", f"{MD}:IsDelegatedPath")
p("C52", "Hash prefixes select by the hex digest",
  "A role with path_hash_prefixes covers exactly the target paths whose hex-encoded SHA-256 digest starts with one of the prefixes.",
  "every path and prefix list", "all digests", f"{MD}:IsDelegatedPath")
p("C53", "Succinct delegations assign every path to exactly one existing bin",
  "For bit lengths 1..32 SuccinctRoles.GetRolesForTarget yields exactly one role, it is terminating, its number is the leftmost BitLength bits of the path's SHA-256, it is in GetRoles(), and IsDelegatedRole holds for it.",
  "every path, name prefix and bit length 1..32", "2^32 bins and all paths", f"{MD}:SuccinctRoles.GetRolesForTarget", f"{MD}:GetRoles", f"{MD}:GetSuffixLen")
p("C54", "IsDelegatedRole agrees with GetRoles",
  "For a succinct delegation, IsDelegatedRole(name) holds exactly for the names in GetRoles(), which are 2^BitLength different names.",
  "every name and bit length", "all strings", f"{MD}:IsDelegatedRole", f"{MD}:GetRoles")
p("C55", "GetRolesForTarget reports exactly the covering roles",
  "Delegations.GetRolesForTarget returns a role name exactly if some delegated role of that name covers the path, with the terminating flag of that role.",
  "every delegation list and path", "all lists, also with repeated names", f"{MD}:Delegations.GetRolesForTarget")
# ---- E. editing
p("C56", "Root AddKey",
  "RootType.AddKey(key, role) fails without changes if the role does not exist; otherwise it lists the key ID for the role exactly once more than needed (no duplicate), stores the key, leaves all other roles and keys alone, and is idempotent.",
  "every root, key and role", "all roots", f"{MD}:RootType.AddKey")
p("C57", "Root RevokeKey",
  "RootType.RevokeKey(keyID, role) fails without changes if the role does not exist or does not list the key ID; otherwise the role no longer lists it, other roles are untouched, and the key is dropped from the key store exactly if no role lists it any more.",
  "every root without null roles, key ID and role (with a null role, which FromBytes reads, RevokeKey crashes)", "all roots", f"{MD}:RootType.RevokeKey")
p("C58", "Key store consistency over edit histories",
  "Starting from a root in which every listed key ID has a key and every stored key is listed by some role, every history of AddKey and RevokeKey preserves both.",
  "every root with a key store and without null roles, every edit history", "unbounded histories", f"{MD}:RootType.AddKey", f"{MD}:RootType.RevokeKey")
p("C59", "Targets AddKey and RevokeKey",
  "For targets metadata, after a successful AddKey the delegated role lists the key ID and the key is stored; after a successful RevokeKey the first delegated role of that name (or the succinct delegation) no longer lists it, and the key is dropped exactly if no delegated role lists it.",
  "every targets metadata, key and role", "all delegation lists", f"{MD}:TargetsType.AddKey", f"{MD}:TargetsType.RevokeKey")
# ---- F. lengths and hashes
p("C60", "Generated target info verifies its own data and only that",
  "TargetFile().FromBytes(path, data, algs...) succeeds exactly if all algorithms are supported, and then VerifyLengthHashes accepts d exactly if d has the same length and the same listed hashes as data; otherwise it returns an error.",
  "every byte string and algorithm list", "all data", f"{MD}:TargetFiles.FromBytes", f"{MD}:VerifyLengthHashes")
p("C61", "Length and hash checks are exact",
  "VerifyLengthHashes of a target info accepts exactly the data of the listed length whose digest equals every listed hash, all algorithms being supported; for a meta file the length is checked unless 0 and the hashes unless empty; the verdict does not depend on map order.",
  "every info and data", "all data", f"{MD}:verifyHashes", f"{MD}:verifyLength", f"{MD}:VerifyLengthHashes")
p("C62", "Target info equality is an equivalence",
  "TargetFiles.Equal is reflexive, symmetric and transitive.",
  "every triple of target infos", "all triples", f"{MD}:TargetFiles.Equal", f"{MD}:Hashes.Equal")
# ---- G. serialization
p("C63", "Hex bytes round trip",
  "Unmarshalling a marshalled HexBytes value gives the same bytes, marshalled values are lowercase hex in quotes, and only quoted even-length hex strings are accepted.",
  "every byte string", "all byte strings", f"{MJ}:HexBytes.MarshalJSON", f"{MJ}:HexBytes.UnmarshalJSON")
p("C64", "Metadata round trip keeps unrecognised fields",
  "For every metadata value that FromBytes can return, serialising and parsing it again gives the same value, including all unrecognised fields at all levels.",
  "every metadata value", "all documents", f"{MJ}:MarshalJSON", f"{MJ}:UnmarshalJSON")
p("C65", "The signed payload determines the content",
  "Two metadata values returned by FromBytes whose Signed parts have the same canonical signing payload agree in every field that the client uses (type, version, expiry, keys, roles, meta, targets, delegations).",
  "every pair of documents", "collisions cannot be found by sampling", f"{MD}:Sign", f"{MD}:VerifyDelegate", f"{MJ}:MarshalJSON")
p("C66", "Signatures are checked over the document as signed",
  "The payload used by VerifyDelegate for parsed metadata is the canonical form of the document's own signed member.",
  "every document", "all documents; in particular ones that omit optional fields", f"{MD}:VerifyDelegate", f"{MJ}:MarshalJSON")
p("C67", "Unrecognised fields cannot shadow recognised ones",
  "In the serialised form every recognised field has the value from the struct, whatever UnrecognizedFields holds.",
  "every metadata value", "all field maps", f"{MJ}:MarshalJSON", f"{MJ}:copyMapValues")
# ---- H. multi repository
p("C68", "Multi-repository consensus",
  "If MultiRepoClient.GetTargetInfo returns a target info and a repository list, then at least `threshold` of the repositories listed in the applied mapping returned an equal target info, and the list holds exactly such repositories.",
  "every map file and behaviour of the repositories", "all combinations of answers; tests do not cover the package", f"{MR}:GetTargetInfo")
p("C69", "Terminating mappings stop the search",
  "When the path matches a mapping that is terminating and has no consensus, later mappings are not consulted.",
  "every map file", "all map files", f"{MR}:GetTargetInfo")
p("C70", "Ambiguous consensus is an error",
  "If two different target infos both reach the threshold of the applied mapping, GetTargetInfo returns an error.",
  "every map file and behaviour of the repositories", "all combinations", f"{MR}:GetTargetInfo")
p("C71", "Multi-repository downloads are verified",
  "MultiRepoClient.DownloadTarget returns only data that has the length and hashes of the given target info.",
  "every repository list, target info and environment", "all environments", f"{MR}:DownloadTarget")
p("C72", "Every repository has its own root of trust",
  "NewConfig succeeds only if a trusted root is given for every repository of the map file, and New creates exactly one client per repository, each from its own root.",
  "every map file and set of roots", "all map files", f"{MR}:NewConfig", f"{MR}:initTUFClients")
p("C73", "Unknown repositories in a mapping give errors",
  "A mapping that names a repository without client makes GetTargetInfo skip it or return an error.",
  "every map file", "all map files", f"{MR}:GetTargetInfo", f"{MR}:DownloadTarget")
# ---- I. fetcher
p("C74", "Downloads never exceed the limit",
  "DefaultFetcher.DownloadFile never returns more than maxLength bytes and never reads more than maxLength+1 bytes of the body.",
  "every response and limit", "all bodies and limits, also at the int64 boundary", f"{FE}:DownloadFile")
p("C75", "Downloads are complete",
  "If DownloadFile returns data, the response had status 200 and the data is the complete response body. Conversely a body within the limit is delivered if Content-Length is absent or a decimal number (with or without a sign) within the limit; if it is anything else, nothing of the body is read and an error is returned.",
  "every response and limit", "all bodies and limits, also at the int64 boundary", f"{FE}:DownloadFile")
p("C76", "HTTP errors carry the status",
  "For every status other than 200 DownloadFile returns ErrDownloadHTTP with that status, so that callers can recognise 403 and 404.",
  "every status", "all statuses", f"{FE}:DownloadFile", f"{UP}:loadRoot")
# ---- J. rest
p("C77", "Repository store behaves like a map",
  "After any history of Set calls, each getter returns the value of the last Set for that role (and nil if there was none).",
  "every history of Set calls", "unbounded histories", f"{RE}:SetTargets", f"{RE}:Targets")
# ---- K. added while the model grew
p("C78", "Exact acceptance rule of the trusted set",
  "New and every Update* call report success exactly if the document meets the stated conditions: order of roles, parsing, type, signature thresholds, versions, listed lengths and hashes, expiry; nothing else can make them fail or succeed.",
  "every trusted set, byte string, role and delegator", "both directions for all inputs", f"{TM}:UpdateRoot", f"{TM}:UpdateTimestamp", f"{TM}:UpdateSnapshot", f"{TM}:UpdateDelegatedTargets", f"{TM}:New")
p("C79", "The cache mirrors the trusted metadata",
  "After New and a successful online Refresh with caching on and LocalMetadataDir not touched by others, the files root.json, timestamp.json, snapshot.json and targets.json in the cache parse to exactly the metadata that the client trusts.",
  "every cache content, configuration and server behaviour", "all executions and all cache contents", f"{UP}:Refresh", f"{UP}:persistMetadata", f"{UP}:loadTimestamp", f"{UP}:loadSnapshot", f"{UP}:loadTargets")
p("C80", "Versions do not decrease between sessions",
  "If a session refreshes successfully with caching on and a second session that can read the same cache refreshes successfully, and the first session's timestamp and snapshot still verify under the second session's root, then no trusted timestamp, snapshot or targets version is lower in the second session.",
  "every pair of sessions and server behaviours", "all pairs of executions", f"{UP}:Refresh", f"{TM}:UpdateTimestamp", f"{TM}:UpdateSnapshot")
p("C81", "A signature for one role type is none for another",
  "If two documents are read as metadata of different role types, the payloads over which their signatures are checked differ.",
  "every pair of documents", "needs documents made for this purpose; tests use one spelling of each field", f"{MD}:FromBytes", f"{MD}:checkType", f"{MJ}:UnmarshalJSON")
p("C82", "Whatever is trusted is authentic, at any time",
  "After New and any sequence of Refresh, GetTargetInfo, DownloadTarget and FindCachedTarget calls with any outcomes (also failed ones), the trusted set is sound: the root verifies itself; timestamp and snapshot verify under it; if any targets role is loaded, all four top-level roles are there, unexpired, and linked by versions; and every loaded targets role is unexpired, has the version that the trusted snapshot lists, and is signed by a threshold of keys assigned by the root or by another loaded role for which the same holds.",
  "every configuration, cache content, server behaviour and sequence of API calls", "unbounded sequences of calls with failures in between", f"{UP}:Refresh", f"{UP}:GetTargetInfo", f"{UP}:loadTargets", f"{TM}:UpdateDelegatedTargets")
p("C83", "End-to-end authenticity of targets",
  "After New and any API calls, if GetTargetInfo returns an info for a path, then it is the entry for that path in unexpired metadata that has a chain of signature thresholds up to the trusted root and the version listed in the trusted snapshot; and any bytes that DownloadTarget or FindCachedTarget return for this info, at any later time, have the length and hashes of that entry.",
  "every configuration, cache content, server behaviour, sequence of API calls and path", "all executions; composes all layers of the client", f"{UP}:GetTargetInfo", f"{UP}:DownloadTarget", f"{UP}:FindCachedTarget", f"{TM}:UpdateDelegatedTargets")
p("C84", "Delegated roles cannot displace cached top-level metadata",
  "Whatever a client writes to root.json, timestamp.json or snapshot.json in its metadata directory was accepted as root, timestamp or snapshot metadata.",
  "every session", "needs delegated roles with the names of top-level roles", f"{UP}:loadTargets", f"{UP}:persistMetadata", f"{TM}:UpdateDelegatedTargets")
p("C85", "What is published is what is read",
  "For every root, snapshot, timestamp or targets value that is built without nil entries, without both kinds of paths or roles, with the right type, with at most one signature per key, and without unrecognised fields that spell recognised ones: ToBytes succeeds, FromBytes on the result succeeds, and returns the same value, except that computed key IDs are forgotten, empty hash maps of meta files become nil, and targets get their paths; the signed payload is the same.",
  "every such value", "all nested values, maps of any size", f"{MD}:ToBytes", f"{MD}:FromBytes", f"{MJ}:MarshalJSON", f"{MJ}:UnmarshalJSON")
p("C86", "Clients accept what honest repositories publish",
  "Metadata that is built, signed with Sign by enough different signers of its role (with correct signature schemes) and written with ToBytes is accepted by the trusted set: as initial root, as next root, and as timestamp, snapshot, targets and delegated targets of a consistent unexpired release.",
  "every such repository", "all numbers of signers, thresholds and contents", f"{MD}:Sign", f"{MD}:ToBytes", f"{TM}:New", f"{TM}:UpdateRoot", f"{TM}:UpdateTimestamp", f"{TM}:UpdateSnapshot", f"{TM}:UpdateDelegatedTargets")
p("C87", "Refresh against an honest repository succeeds",
  "A client without cached metadata whose trusted root leads, by the roots on the server, to a published root, and whose server has a published release of it, refreshes successfully and then trusts exactly the published values.",
  "every such repository, server and client", "composes signing, serialisation, verification and the update workflow for all contents", f"{UP}:Refresh", f"{MD}:Sign", f"{MD}:ToBytes")
p("C88", "Published targets are found and delivered",
  "After that refresh GetTargetInfo returns, for every path in the published targets metadata, the published entry, and DownloadTarget returns the published bytes, if the server has them under the names that TUF prescribes.",
  "every such repository, server, client and path", "composes all layers for all contents", f"{UP}:GetTargetInfo", f"{UP}:DownloadTarget")
p("C89", "A target that is not found is not there",
  "If GetTargetInfo fails after a search in which every consulted role could be loaded and the delegation limit was not reached, and if no consulted role has a terminating delegation for the path or none delegates the path to two roles, then every role that trusted roles delegate the path to, transitively, was consulted, is trusted and does not list the path.",
  "every state, path, server behaviour and delegation graph", "delegation graphs of any size and shape, with cycles", f"{UP}:GetTargetInfo", f"{UP}:preOrderDepthFirstWalk")
p("C90", "Published targets of delegated roles are found",
  "If a client as in C87, or one whose cached metadata (also that of delegated roles) is from earlier releases, asks for a path and all roles that the published delegations lead to for this path are published, listed in the snapshot and served, then GetTargetInfo does not crash, and an answer is an entry of such a role. If there are at most MaxDelegations such roles, and no terminating delegation covers the path or no role delegates it twice, then there is an answer if one of these roles has an entry for the path, and if only one has, the answer is that entry.",
  "every such repository, server, client and path", "composes all layers for delegation graphs of any size", f"{UP}:GetTargetInfo", f"{UP}:preOrderDepthFirstWalk", f"{UP}:loadTargets", f"{TM}:UpdateDelegatedTargets")
p("C91", "No forgery without a threshold of keys",
  "Suppose that in the initial root, and in every document that honest key holders sign, fewer keys than the threshold of each role are compromised, and that signatures of honest keys verify only for payloads that their holders signed. Then after New and any sequence of API calls, against any server and any cache content, every trusted document says the same as a document that an honest holder of a key assigned to its role, by documents that are themselves so signed, has signed; and all bytes that DownloadTarget or FindCachedTarget return for the answer of GetTargetInfo have the length and hashes of an entry of such a document.",
  "every attacker who controls the server, the cache and fewer keys than each threshold; every sequence of API calls", "an unbounded adversary", f"{UP}:Refresh", f"{UP}:GetTargetInfo", f"{UP}:DownloadTarget", f"{TM}:UpdateRoot", f"{TM}:UpdateDelegatedTargets", f"{MD}:VerifyDelegate")
p("C92", "What was refreshed can be used offline",
  "If a client refreshes successfully with caching on, then a client on the same cache, started from the cached root in local mode (UnsafeLocalMode) at a time at which nothing has expired, refreshes successfully without any request and trusts the same metadata.",
  "every cache content, configuration and server behaviour", "all pairs of executions", f"{UP}:Refresh", f"{UP}:loadTimestamp", f"{UP}:loadSnapshot", f"{UP}:loadTargets", f"{TM}:UpdateSnapshot")
p("C93", "Clients keep up with the repository",
  "A client whose cached timestamp, snapshot and targets come from earlier releases (possibly different ones, possibly signed with keys that are no longer trusted) refreshes successfully to the current release of an honest repository and then trusts exactly what was published. Hence any number of client runs (New, then Refresh) on the same cache, at any times at which the current release is fresh, all succeed, as long as versions do not decrease from release to release, listed files stay listed, and a changed document has a new version.",
  "every sequence of releases, client runs, root rotations and cache contents from earlier releases", "unbounded sequences of sessions", f"{UP}:New", f"{UP}:Refresh", f"{UP}:loadTimestamp", f"{UP}:loadSnapshot", f"{UP}:loadTargets", f"{TM}:UpdateTimestamp", f"{TM}:UpdateSnapshot")
p("C94", "tuf-client get delivers authentic files",
  "When `tuf-client get <target>` ends well, the file whose name it prints lies at the target's place in the download folder and has exactly the bytes (length and hashes) that authentic, complete and unexpired metadata lists for the target, where trust begins with the root.json in the metadata folder.",
  "every server, disk, flags, working directory, cache and target", "all behaviours of servers and caches", "examples/cli/tuf-client/cmd/get.go:GetCmd", "examples/cli/tuf-client/cmd/get.go:verifyEnv", f"{UP}:New", f"{UP}:DownloadTarget")
p("C95", "The trust anchor of tuf-client evolves only by rotation",
  "Whatever number of `tuf-client get` commands ran in a directory, with any flags, against any servers, with any disk errors and interrupted at any moment, a root.json in the metadata folder that a client accepts is a root to which consecutive doubly signed rotations lead from the root with which the folder began; and whatever `get` delivers afterwards is authenticated by a chain from that first root.",
  "every sequence of interrupted and completed commands", "unbounded histories, crash points", "examples/cli/tuf-client/cmd/get.go:GetCmd", f"{UP}:New", f"{UP}:persistMetadata", f"{UP}:loadRoot")
p("C96", "tuf-client init establishes a verified trust anchor or fails",
  "When `tuf-client init` ends well, both folders exist and root.json in the metadata folder is the root metadata of the server (or the given file), and verifies itself; later `get` commands then deliver only what is authenticated by a chain from it. `init` in a directory that has a metadata folder fails and changes no files. `get` with a root.json that is no valid root fails without network requests and without changes. The claim for a given file is false unless its name is that of root.json: the file is verified and then copied under its own name, and `get` fails for lack of a root.json. It is also false for failing calls: `init` leaves an unverified root.json and the folders behind, and cannot be repeated.",
  "every server, disk, flags and files", "all server answers and initial states", "examples/cli/tuf-client/cmd/init.go:InitializeCmd", "examples/cli/tuf-client/cmd/init.go:prepareEnvironment", "examples/cli/tuf-client/cmd/init.go:fetchTrustedRoot", "examples/cli/tuf-client/cmd/get.go:GetCmd")
p("C97", "tuf-client get succeeds with an honest repository",
  "In an initialized directory, with working disk and network, whatever earlier releases the cache is from, `tuf-client get` of a target that the current release of an honest repository lists, in top-level targets or in a delegated role that the client can find (C90), succeeds, and the file that it names has the published length and hashes.",
  "every honest repository, rotation history, cache of earlier releases and target", "all repositories and caches", "examples/cli/tuf-client/cmd/get.go:GetCmd", "examples/cli/tuf-client/cmd/get.go:verifyEnv", f"{UP}:Refresh", f"{UP}:GetTargetInfo", f"{UP}:FindCachedTarget", f"{UP}:DownloadTarget")
p("C98", "tuf-client reset deletes what it says it deleted, with consent",
  "After `tuf-client reset`, a folder that is said to be deleted is gone with all its contents, a folder that is said not to be deleted is untouched, and so is everything else; without --force a folder is deleted only if the user said yes to that folder. The first part is false if a deletion fails, since the result of RemoveAll is ignored and success is reported.",
  "every directory content, answers and flags", "all contents, failing deletions", "examples/cli/tuf-client/cmd/reset.go:ResetCmd", "examples/cli/tuf-client/cmd/reset.go:askForConfirmation")
p("C99", "Files that were read can be written and read again",
  "If FromBytes reads a file and the metadata has none of the features listed in C64 (other spellings, both kinds of paths or roles, empty hash maps), then ToBytes writes a text, compact or indented, that FromBytes reads as the same metadata. What was made in memory from UTF-8 strings, signed and written is read back as well. Nothing is assumed about encoding/json, time and strconv: their text formats are modelled down to the bytes.",
  "every file and every metadata value", "all texts: escapes, surrogates, white space, nesting, numbers, times", f"{MD}:FromBytes", f"{MD}:ToBytes", f"{MJ}:MarshalJSON", f"{MJ}:UnmarshalJSON")
p("C100", "Expiry times mean calendar times",
  "Expiry times are read from exactly the texts of RFC 3339 with a capital T and Z (with the liberties of Go 1.21: hours of one digit, a comma before the fraction, 60 minutes in an offset, digits beyond nanoseconds cut off), each to the time that it denotes. Every expiry time that can be read is a date of the Gregorian calendar with a time of day and an offset; written and read again it is the same time; metadata is expired exactly if its expiry is earlier on the calendar than the reference time; for UTC times without fractions that is the order of their texts.",
  "every text and every date", "all dates: leap years, ends of months, offsets, fractions", f"{MD}:IsExpired", "metadata/types.go:RootType", f"{MJ}:UnmarshalJSON")
p("C101", "Numbers in unrecognised fields survive reading and writing",
  "A number in an unrecognised field is the same after FromBytes and ToBytes. False: it is decoded as a float64, so integers above 2^53 are altered, and with them the payload over which signatures are checked. True for integers below 2^53, and from the second reading on. Numbers of at most 15 digits, with or without a point or an exponent, keep their value (not their spelling); every number that is not tiny changes by less than one part in 2^51.",
  "every number", "all numbers", f"{MJ}:UnmarshalJSON", f"{MD}:VerifyDelegate")
p("C102", "Path patterns of delegations are shell patterns",
  "A delegated role with path patterns is asked for a target exactly if path and pattern have equally many parts and each part of the path matches its part of the pattern: * stands for any characters but the slash, ? for one character, [a-z] and [^a-z] for one character inside or outside of the ranges, a backslash for the next character as it is. A malformed pattern covers nothing; a plain path covers itself only. In a map file a malformed pattern ends the search, and an entry whose patterns do not match is passed over. False beyond ASCII: *?? covers a path of one character. Nothing is assumed about path/filepath: its Match is modelled down to the bytes.",
  "every pattern and path", "all patterns and all paths, in particular the greedy search after a star", f"{MD}:IsDelegatedPath", f"{MD}:isTargetInPathPattern", f"{MR}:GetTargetInfo")
p("C103", "Key IDs identify keys",
  "Key.ID is the hex SHA-256 digest of the canonical JSON text of the key; keys that differ in type, scheme or public value have different IDs unless their two texts have the same SHA-256 digest; in root metadata made with AddKey and RevokeKey every key is stored under its own ID. False for keys that are changed after their ID was asked for (it is cached), and not checked for metadata that is read.",
  "every key; every history of AddKey and RevokeKey", "all keys and histories; digests cannot be enumerated", f"{KE}:ID", f"{MD}:AddKey", f"{MD}:RevokeKey", f"{MD}:VerifyDelegate")
p("C104", "Keys made from public keys stand for them",
  "KeyFromPublicKey declares the key type and scheme that belong to the kind of public key, and refuses other kinds; ToPublicKey of the result is the same public key. If a signer's key is added to a role of root metadata with AddKey and the signer signs a document with Sign, VerifyDelegate accepts it (threshold 1, other listed keys usable). False for keys with the key type ecdsa-sha2-nistp256 of the TUF specification: they are understood for verification, but Sign files their signatures under another key ID.",
  "every public key, root metadata, role, signer and document", "all keys, roles and documents", f"{KE}:KeyFromPublicKey", f"{KE}:ToPublicKey", f"{MD}:Sign", f"{MD}:AddKey", f"{MD}:VerifyDelegate")
p("C105", "Only JSON is read",
  "FromBytes and NewConfig read exactly the texts of the JSON grammar of RFC 8259 (at most 10000 levels deep), and what they return depends on the denoted value only: a text has one value, layout and the spelling of strings do not matter, nothing but white space may follow the document, everything else is an error. What ToBytes writes is such a text. False to the letter for texts that are not UTF-8, which the RFC excludes: bytes that belong to no character are read as U+FFFD. False for times, hashes and signatures that contain escape sequences: they are refused though the same strings without escape sequences are read. Proved: files of the same value are read alike (the bytes to be signed included) if they differ elsewhere only; otherwise they are read alike or the one with escape sequences is refused.",
  "every byte string", "all byte strings", f"{MD}:FromBytes", f"{MD}:ToBytes", f"{MD}:checkType", f"{MR}:NewConfig")
p("C106", "The listing of top-level targets agrees with lookups",
  "After a successful Refresh, Updater.GetTopLevelTargets returns the targets of the accepted top-level targets metadata, and the same after any further calls. What it lists under a path is what GetTargetInfo returns for the path, at once, without downloading, reading, writing or changing anything; a path that is not listed is not found if there are no delegations.",
  "all updater states, configurations with MaxDelegations >= 0, paths, sequences of calls", "all metadata contents and all call sequences", f"{UP}:GetTopLevelTargets", f"{UP}:GetTargetInfo", f"{UP}:preOrderDepthFirstWalk")
p("C107", "Multi-repository listing holds what has consensus",
  "MultiRepoClient.GetTopLevelTargets returns the names that are listed by some repository and have consensus, each with the info GetTargetInfo finds; names without consensus are skipped (comment in the source). False: one name without consensus makes the whole call fail, so a single repository can make the listing unusable. Proved: what is returned on success is found by GetTargetInfo, and the names are exactly those listed by at least one repository.",
  "all map files, repositories, client states and orders of map iteration", "all repositories' contents and all iteration orders", f"{MR}:GetTopLevelTargets", f"{MR}:GetTargetInfo", f"{UP}:GetTopLevelTargets")
p("C108", "Listing targets does not crash",
  "GetTopLevelTargets of the updater and of the multi-repository client do not crash. False before Refresh: directly after New both always crash with a nil dereference. After a successful Refresh the multi-repository listing crashes only if a lookup does.",
  "all configurations and states", "all client states", f"{UP}:GetTopLevelTargets", f"{MR}:GetTopLevelTargets", f"{UP}:New", f"{MR}:Refresh")
p("C109", "Metadata can be signed exactly when its numbers are integers",
  "With a signer that works and whose key is of a supported kind, Metadata.Sign succeeds if and only if all numbers in unrecognised fields, at all levels, and in custom are integers that fit 64 bits. Otherwise Sign fails, and VerifyDelegate accepts the document for no delegator and no signatures. FromBytes reads such documents.",
  "all root, timestamp, snapshot and targets metadata that FromBytes can return; all signers; all delegators", "all metadata contents, including arbitrarily nested unrecognised fields", f"{MD}:Sign", f"{MD}:VerifyDelegate", f"{MD}:FromBytes")
p("C110", "The repository that the example program generates works for its clients",
  "With working Ed25519 keys the program examples/multirepo/repository succeeds. A client that starts with the root it wrote to the client folder, on a server with the folders metadata and targets that it wrote, refreshes successfully until the first role expires, then finds exactly the target files and downloads their contents. False for paths with two or more slashes when targets are fetched with hash prefixes: the program and the client place the hash at different components.",
  "all sets of target files, keys, expiry times, client configurations with caching, earlier runs of the client (empty or filled cache)", "all repositories that the program can generate", "examples/multirepo/repository/generate_metadata.go:main", "examples/multirepo/repository/generate_metadata.go:copyHashPrefixed", f"{UP}:New", f"{UP}:Refresh", f"{UP}:GetTargetInfo", f"{UP}:DownloadTarget")
p("C111", "Targets are stored in the directory for targets, one file each",
  "Without an explicit file name DownloadTarget stores a target in LocalTargetsDir under its URL-escaped path, FindCachedTarget looks for it there, and a download of another target never touches that file. True for directories made of plain names (with any percent-escapes) and targets other than '.' and '..'. False otherwise, because url.JoinPath makes the file name: a directory with a space is written with %20, a leading '..' is dropped, with a colon all targets share one file, %2A becomes *, with a lone % nothing can be stored, and the target '..' is stored as the parent directory.",
  "all plain directories, target paths, infos, servers, states", "all directory and target names", f"{UP}:DownloadTarget", f"{UP}:FindCachedTarget", f"{UP}:generateTargetFilePath")
p("C112", "A new configuration asks below the repository URL",
  "For every URL with a scheme, a host (a name, or an IPv6 address with or without zone), a plain path (also with percent-escapes), with or without user, password, port and a slash at its end, config.New succeeds with the documented limits; metadata are requested as files directly below the URL and targets below <URL>/targets, with the hash prefix under consistent snapshots. False for every URL with a query or a fragment: file names are appended to the query or the fragment, so all metadata are requested at one path, that of the URL, and all targets at that of its targets folder (there an empty fragment is dropped).",
  "all repository URLs, roots, servers, states, targets", "all URLs", f"{CF}:New", f"{UP}:Refresh", f"{UP}:GetTargetInfo", f"{UP}:DownloadTarget")
p("C113", "Exchanging stolen keys recovers clients",
  "Whatever the thief of online keys made a client cache (also documents with the highest version numbers), once a new root exchanges the keys the next Refresh of an honest server succeeds and ends in the honest release: cached documents that the new root's keys did not sign are ignored. As TUF has it (5.3.11: exchanging the keys of timestamp or snapshot drops both documents) it is false: if only the timestamp keys are exchanged, a fast-forwarded snapshot stays in the cache and every later Refresh fails.",
  "all environments, thieves, caches, root chains, honest releases", "any contents of the cache, unbounded chains of roots", f"{UP}:Refresh", f"{UP}:loadTimestamp", f"{UP}:loadSnapshot", f"{UP}:loadTargets", f"{TM}:UpdateTimestamp", f"{TM}:UpdateSnapshot")
p("C114", "Versions, specification versions and expiry dates are those the document states",
  "FromBytes gives each document the version, specification version and expiry date that the last such members of its signed part state (in any spelling that encoding/json takes for the name: capital letters, the long s), each of the right JSON type (an int64, a string, an RFC 3339 time) or null; without them version 0, no specification version, and a date in year 1. After a Refresh the cached files state the trusted values. What TUF demands beyond this is not checked: documents with negative or no versions and with an unsupported, senseless or no specification version are accepted.",
  "all environments, bytes, sessions", "all documents with repeated, differently spelled and ill-typed members", f"{MD}:FromBytes", f"{MJ}:UnmarshalJSON", f"{UP}:Refresh")
p("C115", "Signing a file in turn",
  "A document that is signed, written, read and signed again by one key holder after the other ends with exactly the signatures they would have made together, below the same payload, and is accepted wherever these signers suffice. This works exactly as long as no two of them (nor signatures already there) have the same key ID: a file signed twice under one key ID is refused by FromBytes.",
  "all documents of the four types, all lists of signers, all environments whose JSON printing can be read back", "any number of signers in any order", f"{MD}:Sign", f"{MD}:ToBytes", f"{MD}:FromBytes", f"{MD}:VerifyDelegate")
p("C116", "Whatever the API builds can be published",
  "Start from new metadata of any of the four types and edit it in any way through the API: AddKey and RevokeKey (whether they succeed or fail), thresholds, versions, expiry times, target files, delegations, file entries, writing and reading again, in any order and number. As long as the arguments are texts, 64-bit integers and calendar times, the result is always well-formed: any working signers with different key IDs can sign it, ToBytes writes it (compact or indented), and FromBytes reads back the same content with all signatures.",
  "all histories of edits, all arguments of that kind, all lists of signers", "histories have any length; a failed call may leave anything behind", f"{MD}:AddKey", f"{MD}:RevokeKey", f"{MD}:Root", f"{MD}:Sign", f"{MD}:ToBytes", f"{MD}:FromBytes")
p("C117", "Who may sign after a history of key changes",
  "After any history of AddKey, RevokeKey and threshold changes (and other edits, writing and reading), a document of a top-level role that was signed by members of the staff is accepted by VerifyDelegate exactly if the role has any key and the signers hold at least the last set threshold of different key IDs that were added to the role and not revoked since. Keys added to other roles, failed calls and rereading do not matter.",
  "all histories, all staffs of working signers of any key kind with different key IDs, all documents they signed", "sets of key IDs are computed independently of the metadata; histories have any length", f"{MD}:AddKey", f"{MD}:RevokeKey", f"{MD}:VerifyDelegate", f"{MD}:Sign", f"{KE}:ID")
p("C118", "The basic example repository works for its clients",
  "The example program that creates a repository, signs the root out of band, delegates the target file to a role, rotates a root key and mixes key types never fails (with working keys of different key IDs, calendar times and a target file under 2^63 bytes), and leaves exactly nine files. Clients without cached metadata that start with any of its three roots and ask a server with those files refresh successfully until a role of the last release expires, end with the third root, find the target file in the delegated role with the right length and hash, download it, and find no other path.",
  "all keys of the three kinds, expiry times, contents and local paths of the target file, clients, times and paths", "keys, signatures and times differ in every run; the program is only run by hand", "examples/repository/basic_repository.go:main", f"{MD}:Root", f"{MD}:AddKey", f"{MD}:RevokeKey", f"{MD}:VerifyDelegate", f"{UP}:Refresh", f"{UP}:GetTargetInfo")
p("C119", "Repositories of a multi-repository client are separate",
  "Every client that New makes uses the first URL, the trusted root and the folder (named like the repository, in the folder for metadata) of its own repository and the default limits. A call on the client of one repository does not change the metadata files or the trusted metadata of another, and after New every repository's cached root is its own trusted root.",
  "all map files, roots, folders, disks, servers and calls", "a test has a few harmless names", f"{MR}:New", f"{MR}:initTUFClients", f"{MR}:Refresh", f"{MR}:GetTargetInfo")
p("C120", "Target folders of a multi-repository client",
  "If a folder for targets is configured, every repository's client uses it; otherwise New gives every repository a folder of its own, so that there is no conflict.",
  "all map files, roots, disks and configurations", "the documented default is not exercised with caching", f"{MR}:New", f"{MR}:initTUFClients", f"{MR}:EnsurePathsExist")
p("C121", "No temporary files are left",
  "No call leaves temporary files behind: after New, Refresh, GetTargetInfo and downloads the temporary files on the disk are those that were there before.",
  "all disks, servers, calls and moments at which writing fails", "tests do not inject failures between creating and renaming", f"{UP}:persistMetadata", f"{UP}:New", f"{UP}:Refresh", f"{UP}:GetTargetInfo")
p("C122", "Agreement of honest repositories is found",
  "If all repositories of the first mapping that matches a path answer, or do not have it, all answers are equal, and enough of them answer for the threshold, then GetTargetInfo returns the info and exactly the repositories that have it. In particular, on a client with working disk, clock and network and without cached metadata, New and GetTargetInfo succeed if the repositories of the mapping have each published the target file with the same length and hashes, at whatever depth of delegations.",
  "all map files, repositories with trees of delegations, orders of maps, keys and paths", "a test has one map file and two repositories", f"{MR}:New", f"{MR}:GetTargetInfo", f"{UP}:New", f"{UP}:GetTargetInfo")
p("C123", "A map file means what it says",
  "NewConfig accepts exactly the map files whose members repositories (names with lists of URLs) and mapping (a list of objects with paths, repositories, threshold, terminating) have the right JSON types and that name only repositories with a trusted root; the configuration then has exactly these names with their last lists of URLs and these mappings in order, with empty lists, 0 and false for what is missing; other members are ignored. If a member mapping (or a member of one mapping) is repeated, the last one counts.",
  "all map files in every spelling of the members, all roots", "all JSON documents", f"{MR}:NewConfig")
p("C124", "The example client trusts on first use, and only then",
  "When examples/client ends with its target file in the download folder, the file has exactly the length and hashes that authentic, complete and current metadata list for the target, where trust begins with the root file of its folder, or, if there was none, with the first root the server sent. Once that folder has a good root file, every later run of the program, interrupted anywhere any number of times, starts from that root or a root reached from it by verified updates, whatever servers answer. A root file that is no root delivers nothing and changes no file.",
  "all servers, directories, target names, interruptions and sequences of runs", "all network answers, all crash points and any number of runs", "examples/client/client_example.go", f"{UP}:New", f"{UP}:Refresh")
p("C125", "The multi-repository example reaches its targets from one root file",
  "BootstrapTUF of examples/multirepo/client returns exactly what the current targets metadata of the first repository list: the bytes of map.json and, per folder, the bytes of a root, each with the listed length and hashes, where trust begins with root.json in the working directory. When the whole program succeeds, its data have the length and hashes of an info that every repository of the answer lists under trust that begins with such a downloaded root. BootstrapTUF, interrupted anywhere, leaves root.json unchanged. Its result depends on the server and the files only.",
  "all servers, files, working directories, orders of maps, interruptions", "all network answers, map orders and crash points", "examples/multirepo/client/client_example.go", f"{MR}:New", f"{MR}:GetTargetInfo", f"{MR}:DownloadTarget")
p("C126", "A session with several repositories returns what its repositories list",
  "Let a client for several repositories be made by New and used with any sequence of Refresh, GetTargetInfo, GetTopLevelTargets and DownloadTarget, failing calls included. Whenever GetTargetInfo returns an info with repositories, every one of them lists that info (or one equal to it) in current metadata trusted from its own root alone, the info is for the path asked, the repositories belong to one mapping with a pattern matching the path, and at least threshold many repositories of that mapping support one info. What DownloadTarget returns for it has its length and hashes. Whatever GetTopLevelTargets returns is listed by some repository under trust from that repository's root.",
  "all configurations with any number of repositories, all servers, all sequences of calls", "all repositories, thresholds and call sequences", f"{MR}:New", f"{MR}:Refresh", f"{MR}:GetTargetInfo", f"{MR}:GetTopLevelTargets", f"{MR}:DownloadTarget")
p("C127", "New file descriptors",
  "TargetFile() describes the empty file: VerifyLengthHashes accepts exactly the empty file, and it is written with length 0 and no hashes. MetaFile(v) has version v, or 1 if v is not positive, accepts every file, and is written with the version alone.",
  "all versions and files", "all versions and files", f"{MD}:TargetFile", f"{MD}:MetaFile", f"{MD}:VerifyLengthHashes")
p("C128", "Saving metadata to a file and loading it",
  "After ToFile has succeeded the file holds exactly what ToBytes gives, and FromFile on that file then gives metadata with the same content, for all four types. ToFile changes no other file and not the receiver, and nothing at all if the metadata cannot be written as bytes; if it fails the file still has its old contents. FromFile changes no file, and leaves the receiver unchanged unless it succeeds, in which case receiver and result are what FromBytes gives for the contents of the file. TargetFiles.FromFile describes the file: path, length, and acceptance of exactly the data with the same length and digests.",
  "all metadata, files, disks and failures of the disk", "a failing disk can stop at any byte", f"{MD}:FromFile", f"{MD}:ToFile", f"{MD}:FromBytes", f"{MD}:ToBytes")
p("C129", "Clients that search keep up with the repository",
  "Any number of client sessions (New, Refresh, then GetTargetInfo for any paths) on the same cache, at any times at which the current release of an honest repository is fresh, all refresh successfully and get answers to their searches as in C90, from the roles that are published then, whatever releases were skipped, as long as releases follow each other as in C93 and a changed targets role has a new version. No delegated metadata that is left in the cache by earlier sessions gets in the way or is mistaken for the current one.",
  "every sequence of releases, sessions, paths, delegations, root rotations and caches from earlier releases", "unbounded sequences of sessions on delegation graphs of any size", f"{UP}:New", f"{UP}:Refresh", f"{UP}:GetTargetInfo", f"{UP}:preOrderDepthFirstWalk", f"{UP}:loadTargets", f"{TM}:UpdateDelegatedTargets")
p("C130", "One repository that has the target is enough",
  "MultiRepoClient.DownloadTarget succeeds if one of the given repositories has the target, whatever the others do: the data has the length and hashes of the info and is in the file of the target. If the file already holds the target it is returned without downloads. An error means that every repository failed. After New and GetTargetInfo with repositories that agree (C122), DownloadTarget of the result succeeds if one of them has the target.",
  "every target info, list of repositories, client configuration, server, disk content and pattern of failures", "failures of every subset of the repositories, in every way, and disks with any content", f"{MR}:DownloadTarget", f"{MR}:New", f"{MR}:GetTargetInfo", f"{UP}:DownloadTarget", f"{UP}:FindCachedTarget")
SI = "testutils/simulator/repository_simulator.go"
p("C131", "Clients keep up with the test repository",
  "NewRepository of the repository simulator gives a repository with version 1 of all top-level roles. A test that then in any order adds delegations from the top level and target files and publishes them (next targets version, UpdateSnapshot), rotates the keys of timestamp, snapshot and targets and publishes a root, rotates the root keys keeping the old signers, calls UpdateTimestamp, and switches the hashes of metadata files on or off, and that between these steps lets clients with the simulator as fetcher refresh, all with one cache, sees all of that succeed: every client ends up with exactly the root, timestamp, snapshot and targets that the simulator has.",
  "every sequence of steps and visits, set of keys without two that share a key ID, order of map iterations, published root that a client starts from, number of downloads in between", "sequences of steps and visits of any length; orders in which Go iterates over maps", f"{SI}:NewRepository", f"{SI}:DownloadFile", f"{SI}:FetchMetadata", f"{SI}:PublishRoot", f"{SI}:RotateKeys", f"{SI}:UpdateSnapshot", f"{SI}:UpdateTimestamp", f"{SI}:AddDelegation", f"{SI}:AddTarget", f"{UP}:New", f"{UP}:Refresh")
p("C132", "Target downloads from the test repository",
  "DownloadFile of the repository simulator never returns the data of a target file whose path has no empty part, whatever URL below targets/ is asked for: with fewer than two slashes in the path it crashes, otherwise it looks for a path with an empty part. FetchTarget with the hexadecimal hash of a file says that the hash does not match. FetchMetadata of root with a version below 1 crashes. Other URLs give no data and no error.",
  "every state of the simulator, path, hash, limit", "all paths and all contents of the repository", f"{SI}:DownloadFile", f"{SI}:FetchTarget", f"{SI}:FetchMetadata")
p("C133", "Delegations in the test repository",
  "AddDelegation from the top-level targets appends the role with a new key, keeps its signer, and makes the given metadata that of the role, unless the role has some. From a delegated role without delegations it reports nothing but leaves that role as it was. AddSuccinctRoles crashes, whatever the arguments.",
  "every state of the simulator, role, metadata, bit length and name prefix", "all states and arguments; the crash does not depend on them", f"{SI}:AddDelegation", f"{SI}:AddSuccinctRoles")
p("C134", "Attacks without enough keys do no lasting harm",
  "While fewer keys of each role than its threshold are compromised, clients with one cache may run against any servers, on any disks and clocks, and be interrupted at any moment (also within New and within a write): afterwards every cached timestamp, snapshot and targets file says what a file of some release says. A client that then reaches the repository (which has a release that may follow the earlier ones) creates its updater and refreshes successfully, whatever the attackers did, and trusts the root, timestamp, snapshot and targets of that release.",
  "every history of calls of New and of sessions, every server, disk, clock and interruption, every release and line of roots", "all attacks and interruptions; the honest signers are only assumed not to sign anything else and signatures not to be forged", f"{UP}:New", f"{UP}:Refresh", f"{UP}:loadTimestamp", f"{UP}:loadSnapshot", f"{UP}:loadTargets", f"{UP}:persistMetadata", f"{TM}:UpdateTimestamp", f"{TM}:UpdateSnapshot")
p("C135", "Attacks without enough keys do no lasting harm to searches of delegated targets",
  "While fewer keys of each role (also of delegated ones) than its threshold are compromised, clients with one cache may run against any servers, on any disks and clocks, and be interrupted at any moment: afterwards every cached document of a role of the repository's delegations says what some published document of the role says. A client that then reaches the repository refreshes successfully, and every GetTargetInfo, also one without an earlier Refresh, does not crash, answers only with entries of roles that the published delegations reach for the path, and finds the target when some reached role has it, no delegation stands in the way and the number of roles is within the limit.",
  "every history of calls of New and of sessions, every server, disk, clock and interruption, every release, tree of delegations and list of searched paths", "all attacks and interruptions, all trees of delegations", f"{UP}:GetTargetInfo", f"{UP}:preOrderDepthFirstWalk", f"{UP}:loadTargets", f"{UP}:persistMetadata", f"{TM}:UpdateDelegatedTargets", f"{MD}:VerifyDelegate")
p("C136", "Clients that are many root rotations behind catch up, a limited number of rotations per run",
  "Let a repository's server have every root file from the client's one to the newest, each a correctly signed rotation of the one before. New with one of these roots and Refresh, whatever comes of the refresh and whatever was cached, leave the client with the root that is MaxRootRotations rotations later, or with the newest one if that is nearer, both trusted and in the cache. Commands 'get' of tuf-client and runs of the example client in examples/client, whatever comes of them, each take the trust anchor 32 rotations further, so that after enough of them it is the newest root. [Not true of programs that start every run from the same root file: with more than MaxRootRotations rotations since, every run, whatever earlier ones cached, ends before the newest root, and Refresh fails each time if the root reached has expired. The cached root is overwritten and not read.]",
  "every line of root files, every configuration with a root of the line, every other file of the server, every cache, disk history without failures, and number of runs", "root lines of any length, all outcomes of the runs", f"{UP}:New", f"{UP}:loadRoot", f"{UP}:Refresh", f"{CF}:MaxRootRotations", f"{TM}:UpdateRoot")
p("C137", "A document means what it says",
  "FromBytes of a document that mentions no member of an object twice (in whatever spelling of the names; entries of maps may be repeated) succeeds with a value if and only if the value is what the document says, for all four types: the document is an object whose signed part declares the type; every text, number, truth value, time, hex string, list, map, key, role, file, target and delegation of the value is the one written under its name, in any of the spellings Go's decoder takes, or the zero value if there is none or null; of entries of a map with the same name the last counts and all must be readable; the path of a target is the name of its entry and no target is null in the end; members that are not named exactly like a recognised one are kept as unrecognised, all numbers being in float64's range; and no two signatures have the same key ID. So there is exactly one reading, nothing else is accepted, and nothing that says something is refused.",
  "every document of the four types and every value", "all documents with all combinations of spellings, missing members, nulls and repeated entries", f"{MD}:FromBytes", f"{MD}:fromBytes", f"{MJ}:UnmarshalJSON", f"{MD}:checkType", f"{MD}:checkUniqueSignatures")
p("C138", "Texts of public keys are PEM, and are read back",
  "KeyFromPublicKey of every RSA or ECDSA public key whose DER form crypto/x509 writes and reads back gives a key whose text is a PEM block PUBLIC KEY with the DER form in Base64, in ASCII; ToPublicKey gives the public key back (so also for Ed25519 keys). ToPublicKey gives RSA and ECDSA keys only for texts with a PEM block, of a type PUBLIC KEY holding the key in PKIX form, or RSA PUBLIC KEY holding it in PKCS #1 form: the marks at beginnings of lines, the same type in both, header lines with colons, and Base64 with any white space in it. What follows the block, and lines without dashes before it, change nothing, so that one public key has many texts. Adding the key of a signer to a role makes its signatures count, and the second example repository can be made, without an assumption about PEM.",
  "every public key, every text, every DER encoding that is read back", "all texts and keys", f"{KE}:ToPublicKey", f"{KE}:KeyFromPublicKey", f"{MD}:AddKey", f"{MD}:VerifyDelegate")
p("C139", "A call does a bounded amount of work",
  "Whatever the server, the cache and the file system do, Refresh makes at most MaxRootRotations + 3 requests and GetTargetInfo at most MaxDelegations more, DownloadTarget one, FindCachedTarget and New none; also the operations on the disk are bounded. With a fetcher that obeys its limits, as the default one does, Refresh receives at most MaxRootRotations times the limit for roots, the limit for timestamps, and what the metadata trusted in the end allow for snapshot and targets; a server whose documents are all refused cannot make it receive more than the first two. Searches receive besides at most MaxDelegations times what the trusted snapshot allows for a role, and downloads of targets at most the length in the target info.",
  "every configuration with a non-negative 64-bit MaxRootRotations, every state, server, cache and IO failure pattern", "endless data cannot be tried out", f"{UP}:Refresh", f"{UP}:GetTargetInfo", f"{UP}:DownloadTarget", f"{UP}:loadRoot", f"{UP}:preOrderDepthFirstWalk", f"{FE}:DownloadFile")
p("C140", "Clients may share a cache directory",
  "Any number of processes use updaters on one file system, each with its own server, IO failures and temporary names; their operations on the disk interleave in any order and each may be killed at any point. Then at every moment every file that is neither a temporary file nor the file of a downloaded target holds what it held in the beginning or one whole document which a client of that configuration verified for the role that the file is named after; and the trusted set of every process has come about from its configured root by verified documents only. A call that is not interrupted does what it does alone.",
  "every number of processes, configuration, server, interleaving, kill and IO failure pattern", "interleavings are unbounded and races rarely show in tests", f"{UP}:persistMetadata", f"{UP}:New", f"{UP}:Refresh", f"{UP}:GetTargetInfo", f"{UP}:DownloadTarget", f"{UP}:FindCachedTarget")
p("C141", "Rollback protection for clients that share a cache directory",
  "If a client has completed Refresh with some version of the timestamp and of the targets, then no client of the same configuration and cache that is started later completes Refresh with lower ones, even if other clients run at the same time.",
  "every number of processes and interleaving", "needs a particular interleaving of three processes", f"{UP}:persistMetadata", f"{UP}:loadTimestamp", f"{UP}:loadSnapshot")
p("C142", "Target files that several clients download",
  "When several clients download and look up targets at the same time, then the data that DownloadTarget and FindCachedTarget return match the given target info, and the file to which DownloadTarget has stored its data holds, until another DownloadTarget to it returns, those data.",
  "every target info, interleaving, content of the file and server", "needs a particular interleaving of two processes", f"{UP}:DownloadTarget", f"{UP}:FindCachedTarget", f"{UP}:generateTargetFilePath")
p("C143", "Rollback protection for clients that take turns",
  "Any number of clients share a cache directory and take turns: every call is finished or interrupted before the next begins, whoever makes it, whatever their servers, clocks and IO failures (reading the cache works). Each client refreshes once, with or without success, and after a success makes any calls. While the roots that they come to trust demand the same of timestamps and snapshots, and snapshots do not list top-level files: a cached timestamp is replaced only by one that is not older and lists no older snapshot, a cached snapshot only by one that lists the same roles in no lower versions; and if one client has refreshed successfully and then another does, no version of timestamp, snapshot or top-level targets that the second trusts is lower.",
  "every number of clients, configuration, server, clock, IO failure and interruption pattern", "histories of several clients, some of which fail or are killed, are unbounded", f"{UP}:Refresh", f"{UP}:loadTimestamp", f"{UP}:loadSnapshot", f"{UP}:persistMetadata", f"{UP}:New", f"{TM}:UpdateTimestamp", f"{TM}:UpdateSnapshot")
p("C144", "Where lists of strings come from",
  "In root and targets metadata that was read, whatever the document says and however often it names a member: the key IDs of each role, and the key IDs, paths and path hash prefixes of each delegation, are nil if the object they were read from does not mention them or mentions null last. Otherwise the last mention is an array of the same length, and each element is the text written at its place. Only where null is written there, the element is empty or the text that another mention of the list has at the same place; such leftovers of earlier mentions do occur.",
  "every document, mentions in any number, order and spelling", "repeated members and null elements make the result depend on decoder state", f"{MJ}:UnmarshalJSON", f"{MD}:FromBytes")
p("C145", "A failed Refresh can be repeated",
  "An Updater whose Refresh failed (the network broke, or servers or mirrors sent what they liked while fewer keys than the thresholds were compromised) can be refreshed again: when disk and network work and the server has a release under a root that the client can follow, Refresh succeeds and the client trusts what the release says. The failed calls do not spoil the Updater.",
  "every sequence of earlier API calls, against every host, cache directory and release", "needs a failure at each possible point followed by a recovery", f"{UP}:Refresh", f"{UP}:loadRoot", f"{UP}:loadTimestamp", f"{UP}:loadSnapshot", f"{UP}:GetTargetInfo", f"{TM}:UpdateTimestamp", f"{TM}:UpdateRoot")
p("C146", "The dump of the test repository holds what it serves",
  "Write of the repository simulator succeeds whatever the test did to the repository before, and leaves in a folder named by the next number: every published root under its version, and for every delegated role what FetchMetadata answers (nothing if it fails) under its escaped name. A client in local mode that is given this folder and the newest root refreshes and then trusts root, timestamp, snapshot and targets of the simulator.",
  "every sequence of changes to the repository, keys, iteration order of maps, folder and number of dumps", "a debugging aid that no test uses", f"{SI}:Write", f"{SI}:FetchMetadata", f"{UP}:unsafeLocalRefresh")
p("C147", "Tests start from the first root of the simulator",
  "If InitMetadataDir returns no error, then, whatever the disk did, the root file has the first root that the returned simulator published, completely, and GetRootBytes gives nothing else. With a disk that works InitMetadataDir succeeds and what GetRootBytes gives is accepted as trusted root.",
  "every host, key and time", "only one disk state is tested", "testutils/simulator/repository_simulator_setup.go:InitMetadataDir", "testutils/simulator/repository_simulator_setup.go:InitLocalEnv", "testutils/simulator/repository_simulator_setup.go:GetRootBytes")
p("C148", "Copies of repository files for tests are complete",
  "After Copy without an error every entry of the source folder is in the destination with the same content and all other files are as before. After SetupTestDirs without an error the three folders have the entries of the given folders, and no file outside the new temporary folder has changed.",
  "every host, folder contents and paths, also when source and destination are the same folder", "tests copy two fixed folders", "testutils/testutils/setup.go:Copy", "testutils/testutils/setup.go:SetupTestDirs")
p("C149", "What is cached and current is not downloaded again",
  "If the cached snapshot and top-level targets are current by the root and timestamp that a client comes to trust (signed by the root's keys, unexpired, with the versions listed, targets also with the listed length and hashes), Refresh asks only for roots and once for the timestamp, uses the cached metadata and leaves the files alone. In particular a run after a run that refreshed does so if root and snapshot version are the same and nothing has expired, whatever else changed in between. Afterwards GetTargetInfo downloads metadata only for visited roles that are neither trusted nor in a file <role>.json of the cache that is acceptable by then, once each, in the order of the visits.",
  "every pair of runs, configuration, cache content, server and history", "tests count downloads for one repository and one order of events", f"{UP}:onlineRefresh", f"{UP}:loadSnapshot", f"{UP}:loadTargets", f"{UP}:preOrderDepthFirstWalk")
p("C150", "Refresh follows the order of the specification",
  "An online Refresh asks for roots (C25), then at most once each, in this order, for the timestamp, for the snapshot in the version that the trusted timestamp lists and for top-level targets in the version that the trusted snapshot lists, with the listed lengths or the configured limits. After one of the last three requests fails there is no further request and Refresh returns an error. If it returns nil, the trusted snapshot is the answer to its request or, if there was none, the content of the cache file from before; likewise targets; the timestamp is the answer, the cached one, or one that was trusted already.",
  "every state before top-level targets are trusted, also after failed refreshes; every configuration, cache content and server", "tests see the requests of a few runs", f"{UP}:onlineRefresh", f"{UP}:loadRoot", f"{UP}:loadTimestamp", f"{UP}:loadSnapshot", f"{UP}:loadTargets")
p("C151", "Who may sign for delegated roles after a history of key changes",
  "Start from targets metadata that delegates to roles, or to the bins of a succinct delegation, without keys. After any history of AddKey and RevokeKey, whether the calls succeed or fail, a document of a delegated role (the first one, if the name occurs more than once) that was signed by members of the staff is accepted by VerifyDelegate exactly if the role has any key and the signers hold at least its threshold of different key IDs that were added to the role and not revoked since. Roles by name do not share keys: revoking a key from one does not take it from another, nor the other way round. All bins of a succinct delegation have the same keys, whatever role name the calls were given.",
  "all histories, all lists of delegated roles and succinct delegations, all staffs of working signers of any key kind with different key IDs, all documents they signed", "sets of key IDs are computed independently of the metadata; histories have any length; roles share the store of keys", f"{MD}:AddKey", f"{MD}:RevokeKey", f"{MD}:VerifyDelegate", f"{MD}:Sign", f"{KE}:ID")
with open(os.path.join(os.path.dirname(__file__), "..", "properties.jsonl"), "w") as f:
    for x in P: f.write(json.dumps(x, ensure_ascii=False) + "\n")
print(len(P))
