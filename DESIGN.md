# Formal model of go-tuf-metadata in Lean 4: design

The Go sources are in `/repo` (read-only, not run). The model and proofs are in `/verif/lean/Verif`.

## 1. Approach

* **Model** (`Verif/Model/*`): one Lean definition per Go function, total and computable, over
  byte lists (`Bytes = Str = List UInt8`), `Int`, `Option`, lists and plain structures. Every definition cites
  the Go file and lines, and says where it simplifies.
* **Results** are `Res α = ok | err e | panic`. A Go runtime panic (nil dereference, failed type assertion, ...) is a
  value of the model, so "returns an error" and "crashes" are different outcomes. State changes made before an error
  or a panic are kept, as in Go.
* **Environment**: what the repository takes from elsewhere is a parameter, quantified over in every theorem:
  `Env` (JSON syntax, RFC 3339 time syntax, float64 rounding of `any` numbers, SHA-256/512, PEM parsing, signature
  verifiers, `filepath.Match`) and `Host` (the network, IO faults, temp-file names, Go's random map iteration order),
  the latter as functions of the whole event history so far, i.e. adaptive adversaries.
  Assumptions about a parameter are explicit hypotheses of the theorems that need them.
* **Specification** (`Verif/Spec/*`): small, separate definitions of what the English properties mean.
* **Properties** (`Verif/Props/*`): the theorems named in MANIFEST.json, each next to an `example`/witness that a concrete
  non-trivial case meets its hypotheses. Helper lemmas live in `Verif/Proofs/*`.
* **False properties**: where the code violates the English property the negation is proved with a concrete witness and
  the part that does hold is proved as `..._partial`.

## 2. Plan per property

| id | modelled | proof |
|----|----------|-------|
| C01-C03, C06, C07, C09 | `VerifyDelegate` over all delegator/delegated types | exact characterisation of the key loop by induction over keyids; corollaries |
| C04, C05, C10 | same | negation by witness, partial theorem under the missing condition |
| C08 | `Sign` + `VerifyDelegate` | induction over the list of signers |
| C11-C18, C20 | `TrustedMetadata` as a state machine, `step : State -> Op -> State x Res` | one-step lemmas, induction over op lists |
| C19, C21, C22 | `fromBytes`, `checkType`, JSON decoding of every type over a JSON AST | case analysis; C21 negation by witness |
| C23 | `UpdateSnapshot` | one-step; negation for `isTrusted` |
| C24-C36 | `Updater` in a state monad over trusted set x file system x event trace | Hoare-style composition of relations; induction over the root loop |
| C37-C42 | `preOrderDepthFirstWalk` | induction over remaining visits with a walk invariant; witnesses for C40, C41 |
| C43-C46, C49 | `DownloadTarget`, `FindCachedTarget` | direct; crash semantics of `os.WriteFile` |
| C28 | event trace with crash states at every prefix and inside each write | induction over traces |
| C47, C48 | `url.QueryEscape`, `filepath.Join/Clean` at byte level | injectivity by a decoder; component lemma for Clean |
| C50 | error types and `errors.Is` | case analysis, witness |
| C51-C55 | path matching, hex/base64, succinct bins at bit level | direct; arithmetic over all 32-bit digests |
| C56-C59 | `AddKey`/`RevokeKey` | direct and induction over edit histories |
| C60-C62 | `VerifyLengthHashes`, `FromBytes`, `Equal` | exact characterisation |
| C63-C67 | marshal.go for every type, cjson | decode-encode laws; injectivity of the canonical encoder |
| C68-C73 | multirepo with Go 1.21 loop-variable semantics | induction over the repository list; witness for C68 |
| C74-C76 | `DownloadFile` | case analysis with int64 wrap-around |
| C77 | `repositoryType` | induction over histories |
| C78 | `New` and `Update*` | equivalence with a declarative acceptance rule (`Spec/Trusted.lean`) |
| C79, C80 | `New`, `Refresh` over one file system, two sessions | trace invariants; composition of C29 with the cache contents |
| C81 | `fromBytes` for two role types | C65's injectivity on the type; witness with two spellings of `signed` |
| C82 | `Session` over the whole updater | Invariant `SoundSet` over `Exec`: each call the updater makes (`UpdaterCall`) keeps it |
| C83 | as C82, with the search and the downloads | Composition of C38, C42, C43, C44, C82 |
| C84 | `persistMetadata` calls of a session | Moves are justified by accepted calls (C27); witness with a role named `timestamp` |
| C85 | Marshalling and unmarshalling of all types, `ToBytes`, `FromBytes` | Generalises the round trip lemmas of C64 from values that were read to values that were built (`GoodRoot` …) |
| C86 | `Sign`, `ToBytes`, `New`, `Update*` | C85 + C60 (signatures verify) + the exact acceptance rule C78; `Publishes`, `Suffice`, `Release` |
| C87 | `Refresh` on a server with a release | C86 gives the `ValidUpdate` of C34; the resulting state is tracked |
| C88 | `GetTargetInfo`, `DownloadTarget` after C87 | Lookup in the top-level role; every name that may be requested is served |
| C89 | `GetTargetInfo` search | Induction over searches: what is on the agenda or delegated to gets visited |
| C90 | `GetTargetInfo` on a server with a release and its delegated roles | Invariant: trusted roles are the published ones, cache files of others are from earlier releases and thus harmless; then C89 |
| C91 | Any session, with key holders of whom some are compromised | Each verification has an honest signature (threshold > compromised); equal payloads say the same (C81 parts); induction over the chain of C82 |
| C92 | `Refresh` online, then `New`, `Refresh` in local mode | The cache mirrors the trusted set (C79); acceptance conditions carry over |
| C93 | `New`, `Refresh` on caches of earlier releases | Cached documents of earlier releases are refused with repository errors or may be followed (C34 conditions); induction over runs with C79 |
| C94 | `tuf-client get`, `verifyEnv`, configuration, updater | Parts of a successful run; C83 (end to end), C44/C45 |
| C95 | any sequence of (interrupted) `get` | Induction over histories with C82 for each run and the write events of C27/C28; bytes of other roles are never accepted as a root |
| C96 | `tuf-client init` (TOFU and `-f`), `get` on bad anchors | Case analysis; `path.Clean` lemmas for `dir/root.json`; concrete counterexamples by kernel evaluation |
| C97 | `get` against honest repositories | C93 (refresh), C88 and C90 (info), C88 (download), C44 (cached target) |
| C98 | `tuf-client reset` | Case analysis; counterexample with failing deletion |
| C99 | texts: `encoding/json` scanner and printer, RFC 3339, float64 (`Model/Std`) | Induction over documents: what is printed parses to the same tree; what was parsed can be printed; with C64 and C85 |
| C100 | `IsExpired`, `time.Parse`, `Time.MarshalJSON` | Calendar arithmetic; order of instants against order of dates and texts |
| C101 | numbers decoded into `any` | Rounding is exact below 2^53; the shortest decimal of an integer is the integer; decimals of 15 digits are further apart than float64s (rational arithmetic); witness above |
| C102 | `isTargetInPathPattern`, `filepath.Match` (`Model/Std/Glob`) | Parsing of chunks against the grammar of patterns; the leftmost match of a chunk loses nothing, since a star follows |
| C103 | `Key.ID`, `cjson.EncodeCanonical` | The canonical text written out; injectivity of canonical JSON; invariant over edit histories |
| C104 | `KeyFromPublicKey`, `ToPublicKey` | Cases; hex round trip; with C08 and C56 |
| C105 | `FromBytes`, `NewConfig`, `encoding/json` (`Model/Std/JsonText.lean`) | Grammar of RFC 8259 as inductive relations; soundness and completeness of the parser by induction |
| C106 | `Updater.GetTopLevelTargets`, `GetTargetInfo` | Search relation of C37; invariant over sessions |
| C107 | `MultiRepoClient.GetTopLevelTargets` | Induction over clients and names with the invariant that listings are kept; witness for the false part |
| C108 | `GetTopLevelTargets` of both clients | Negation for all states after `New`; induction after `Refresh` |
| C109 | `Sign`, `VerifyDelegate`, marshalling, canonical JSON | Induction over JSON values: canonical JSON exists iff all numbers are 64-bit integers; per type the written document has only the unrecognised numbers besides its own |
| C110 | `main` of examples/multirepo/repository, all of the updater | The program run symbolically (loops by induction over files and keys), its documents are Good and Publish the roles (C99, C109), then C93 and C88 for the client; false for deep paths with hash prefixes, with witness |
| C111 | `DownloadTarget`, `FindCachedTarget`, `generateTargetFilePath`, `url.JoinPath` | `url.Parse`, `EscapedPath`, `path.Join`, `String` modelled byte by byte; on plain names they reduce to concatenation; witnesses for the other directories |
| C112 | `config.New`, requests of the updater, `url.JoinPath` | the same for URLs `scheme://[user[:password]@]host[:port]/path` with names and IPv6 addresses as hosts, then C33 and C46 for the requests; for URLs with a query or a fragment parsing and joining commute with them, so what a client sends of each request is the same path |
| C113 | `Refresh` over any cache, the root chain, `UpdateTimestamp`, `UpdateSnapshot`, `UpdateTargets` | C90's progress argument with caches of two kinds of documents (older releases, documents the new root does not verify); witness for keys of one role exchanged |
| C114 | `FromBytes`, `UnmarshalJSON` of the four types, `Refresh` | the last member determines a decoded field (as for C59), with C79 for the client; witnesses with negative, missing and unsupported versions |
| C115 | `Sign`, `ToBytes`, `FromBytes`, `VerifyDelegate` | induction over the chain of signers; reading replaces the signed part by one with the same JSON (C85), so that signatures agree; duplicate key IDs by the exact rule of C22 |
| C116 | `Root`, `Snapshot`, `Timestamp`, `Targets`, `AddKey`, `RevokeKey`, `Sign`, `ToBytes`, `FromBytes` | an invariant of the values (good, whole, text: C85, C109, C99) kept by every edit, by induction over the history |
| C117 | `AddKey`, `RevokeKey`, `VerifyDelegate`, `Sign` | who has been granted a role is a set computed from the history alone; invariant: key IDs of the four roles are that set, stored keys are keys of the staff (C56, C57, C58); then the exact rule of C02 |
| C118 | `examples/repository/basic_repository.go`, `AddKey`, `RevokeKey`, `Sign`, `ToBytes`, `VerifyDelegate`, updater | `Model/BasicRepository.lean`; the documents are histories of edits (C116), who may sign them is C117's set; then C86 for the roots and C90 for the clients |
| C119 | `multirepo.New`, `initTUFClients`, all calls | invariant of the loop over repositories: each client has its own configuration; files of a client by the events of each call (`Props/UpdaterEvents.lean`); different names give different files |
| C120 | `initTUFClients`, `EnsurePathsExist` | from C119; `MkdirAll("")` fails, so the first iteration fails |
| C121 | `persistMetadata` and its callers | invariant over all effects: temporary files are the same before and after, under hosts that rename and remove; witness for a failing rename |
| C122 | `multirepo.New`, `GetTargetInfo` | the search of C68 with all answers equal gives one group; clients start by C86, are asked by C90, and keep their files by C119 and C121 |
| C123 | `multirepo.NewConfig` | decoding of a member that occurs once depends on that member alone, each decoder is equivalent to a relation between JSON and value; slices in the making keep their backing array as in `encoding/json`; witnesses for repeated members |
| C124 | `examples/client/client_example.go`, all of the updater | `Model/ClientExample.lean`; the run in stages, each stage an execution with known events; crash points are prefixes of writes; then C20, C82 and root rotations for the chain from the anchor; witnesses |
| C125 | `examples/multirepo/client/client_example.go`, `multirepo` | Loop over the listed targets by induction, then C16, C43 for the listing and C126 for the end; crash points of all events; paths as stacks of components for `..`; witnesses |
| C126 | `multirepo.New`, `Refresh`, `GetTargetInfo`, `GetTopLevelTargets`, `DownloadTarget` | Invariant over all sessions: every client stands on the root given for it and its own session (`Standing`); calls on one client leave the others' states; then C68's description of the search |
| C127 | `metadata.TargetFile`, `metadata.MetaFile` | Unfolding `VerifyLengthHashes` and the written form for all arguments |
| C128 | `Metadata.FromFile`, `Metadata.ToFile`, `TargetFiles.FromFile` | Unfolding over the disk model, with C85 and C60; false clause with a witness |
| C129 | `New`, `Refresh`, `GetTargetInfo` in sequences of sessions | C90's invariant extended by what a search writes to the cache; induction over sessions |
| C130 | `MultiRepoClient.DownloadTarget`, after `New` and `GetTargetInfo` | relation `MirrorRun` of everything the loop does; induction over the repositories; C88 for the one that delivers; C122 strengthened by the roots that are trusted after the lookups |
| C131 | `repository_simulator.go` as server of `updater.New` and `Refresh` | invariant of the simulator (`Settled`) kept by every step; each visit meets the conditions of C93; successive releases may follow each other |
| C132 | `DownloadFile`, `FetchTarget`, `FetchMetadata` of the simulator | path of the URL after parsing; `strings.SplitAfterN` |
| C133 | `AddDelegation`, `AddSuccinctRoles` of the simulator | C59 for the key; what the copy of a delegated role shares with the original |
| C134 | `updater.go` New, Refresh and all other calls, under attack | C28 and C93 with C91: what is stored was just accepted, so says what an honest holder signed (C65); documents that say the same as a release are as harmless in the cache as the release (generalised C93) |
| C135 | `updater.go` GetTargetInfo and all other calls, under attack | the cache as in C134, for delegated roles (C65 for what an accepted document says); the search of C90/C129 again, over documents that say what is published instead of being it |
| C136 | `updater.go` New, Refresh, loadRoot; `config.go` MaxRootRotations; `cmd/get.go`; `examples/client` | a line of root files as a list; induction over the loop; the rest of the run does not write the root file; histories of `get` and of runs of the example client as inductive relations |
| C137 | `marshal.go` all UnmarshalJSON; `metadata.go` fromBytes, checkType, checkUniqueSignatures | a relation between syntax trees and values, structure by structure; one lemma for all structs (fields decoded independently), decoders functional and total on the relation |
| C138 | `keys.go` ToPublicKey, KeyFromPublicKey with `Model/Std/Pem.lean`: encoding/pem, encoding/base64, sigstore cryptoutils | Base64 as an inductive relation between texts and bytes, PEM blocks as a relation between texts, types and bytes; decoding of encoded texts by searching the marks; soundness by induction over the attempts of the decoder |
| C139 | `updater.go` all calls (`Model/Updater.lean`), `fetcher.go` | Weights of histories (`Spec/Effort.lean`): requests, operations, bytes received. Bounds for each piece of code compose over `bind` (`Proofs/Effort.lean`); for bytes the bound follows the trusted timestamp and snapshot through the call |
| C140, C141 | `updater.go` all calls, one operation at a time (`Model/Small.lean`, proved equal to `Model/Updater.lean` when nothing comes in between) | Systems of processes on one disk (`Spec/Shared.lean`). Code logic with ghost ownership of the temporary file, for all answers of the disk (`Proofs/Shared.lean`); invariant of all systems. C141: executable witness |
| C142 | `DownloadTarget`, `FindCachedTarget` one operation at a time (`Model/Small.lean`) | The code logic of C140 for all answers of disk and server; executable witness of two interleaved downloads |
| C143 | `Refresh`, `New` and all other calls, with crash states | Histories of turns (`Spec/Turns.lean`); each turn leaves a cache that is not behind (events of a refresh justified against the cached documents, C12 for later calls), then C29 for the last refresh |
| C144 | `UnmarshalJSON` of roles, delegated roles and succinct roles; reuse of slices by encoding/json | Invariant of the cells of a slice over the mentions of a list (`refill`), and of maps and slices for the objects that their entries come from; `Spec/Lists.lean`; leftovers shown with concrete documents |
| C145 | `Refresh` and `GetTargetInfo` on an Updater after any calls | The failed calls of a careful client leave only what released roles say (C134), so the timestamp that it trusts is not newer than the release; progress of the second call as in C108; stuck states are kept by every call; the failing run by evaluation |
| C146 | `Write` on the simulator of C131 and the files of the host; then `New` and `Refresh` in local mode | Fetching changes nothing that is served (C131), so each loop leaves what is fetched in the file named by the role; `PathEscape` is injective; the release of a settled simulator is accepted by a local refresh (C86, C92); exceptions by evaluation |
| C147 | `InitMetadataDir`, `InitLocalEnv`, `GetRootBytes` against any host | The steps of a successful run; a short write is an error; the first root verifies by itself (C86, C131) |
| C148 | `Copy`, `SetupTestDirs` against any host and folder listing | Induction over the listing: paths below two folders are equal only for equal folders and names; the three copies do not meet |
| C149 | `New`, `Refresh`, `GetTargetInfo`: the downloads of a run, two runs on one cache | The timestamp phase asks once; accepted cached files are taken without an event of download; the cache holds what the first run accepted (C79, C92); the search of C37 visit by visit |
| C150 | Online `Refresh`: the downloads of a run and where the trusted metadata come from | Phase by phase: the requests of each and its result; later phases leave the trusted metadata and the cache files of the others alone |
| C151 | `AddKey` and `RevokeKey` of targets metadata, `VerifyDelegate`, `Sign` | like C117: the set of key IDs of a role comes from the history alone; invariant: every role lists that set, every listed key is stored and a key of the staff (C59); then the exact rule of C02 |

Nothing in the list is judged inexpressible.

## 3. What is modelled

| Go file | Lean | left out |
|---------|------|----------|
| `metadata/types.go` | `Model/Types.lean` | - |
| `metadata/marshal.go` | `Model/Marshal.lean` (every method) | - |
| `metadata/metadata.go` | `Model/Metadata.lean`, `Model/Files.lean` (`FromFile`, `ToFile`) | errors of closing a file |
| `metadata/keys.go` | `Model/Keys.lean` | the crypto libraries (parameters) |
| `metadata/errors.go` | `Model/Errors.lean` | message texts (only whether they are empty) |
| `metadata/trustedmetadata/trustedmetadata.go` | `Model/Trusted.lean` | logging |
| `metadata/updater/updater.go` | `Model/Updater.lean`, `Model/World.lean`; one operation at a time: `Model/Small.lean` | logging; `GetTrustedMetadataSet` |
| `metadata/config/config.go` | `Model/World.lean` (`Cfg`), `Model/Updater.lean` | - |
| `metadata/fetcher/fetcher.go` | `Model/Fetcher.lean` | HTTP itself (parameter), timeout, user agent |
| `metadata/repository/repository.go` | `Model/Repository.lean` | - |
| `metadata/multirepo/multirepo.go` | `Model/MultiRepo.lean` | logging |
| `examples/cli/tuf-client/cmd/*.go` | `Model/Cli.lean` | cobra's flag parsing, printing, logging |
| `examples/multirepo/repository/generate_metadata.go` | `Model/Example.lean` | key generation and the target files (parameters); the folders (the files written are the result); a copy with hash prefix overwriting another target file |
| `examples/repository/basic_repository.go` | `Model/BasicRepository.lean` | key generation, the clock and the contents of the target file (parameters); the temporary folder (the files written are the result); failures of writing; console output |
| `examples/client/client_example.go`, `examples/multirepo/client/client_example.go` | `Model/ClientExample.lean` | the logger, console output, the exit status (the error is the result) |
| `testutils/simulator/repository_simulator.go` | `Model/Simulator.lean`, `Model/SimulatorDump.lean` (`Write`) | key generation and the order of map iterations (parameters), logging; maps that callers share with the simulator |
| `testutils/simulator/repository_simulator_setup.go`, `testutils/testutils/setup.go` | `Model/SimulatorDump.lean`, `Model/TestSetup.lean` | the names of temporary folders and folder listings (parameters); `RepositoryCleanup`, `Cleanup`; global variables are results |
| `metadata/logger.go`, other `examples/`, other `testutils/` (key and signer helpers) | not modelled | everything |

Parts of the Go libraries that the properties look inside are modelled in `Model/GoLib.lean` and `Model/Json.lean`: `strconv`, `%x`/`%s` formatting,
hex, base64url, `url.QueryEscape`, `filepath.Join/Clean`, `strings.Cut/Split/HasPrefix`, field matching and number ranges of `encoding/json`, map semantics, canonical JSON
(go-securesystemslib's `cjson`).

`Model/Std` models parts of Go 1.21's standard library down to the bytes: the JSON text syntax (`JsonText`), RFC 3339 times (`Time`), float64 numbers (`Float`), `filepath.Match` (`Glob`), `url.JoinPath` (`Url`).
 `Std.std env` is the environment
`env` with these in place of its parameters; it meets `EnvLaws` (`std_laws`), so that every theorem below holds for it without assumptions about the standard library.

### Parameters

`Env` (fields in `Model/Types.lean`): JSON text to syntax tree and back, RFC 3339, float64 rounding, SHA-256/512, PEM, signature verification, `url.JoinPath`, `filepath.Match`.
`Host` (`Model/World.lean`): fetcher results, IO failures, partial writes, temporary names, working directory, clock, map iteration order; `CliHost` (`Model/Cli.lean`): `os.Stat` failures, the HTTP client of `init`, failing deletions, the user's answers. All theorems quantify over all
environments and hosts; nothing is assumed about them except what a theorem states as a hypothesis:

* `EnvLaws` (C64-C67): float64 and RFC 3339 printing and parsing are inverse on their own output, int64 values are in float64's range.
* C53: SHA-256 digests have at least 4 bytes. C60: digests are compared as given. C08: a signer's signatures verify under its public key.
* C66 (written documents): the JSON printer's output parses to what was printed.
* C21: verifiers panic at most for Ed25519 keys that are not 32 bytes long (`PanicsOnlyOnLength`), and do for these (`PanicsOnLength`, only for the witnesses of crashes).
* C104, C117, C118, C151: the PEM text of a signer's key is read back (`PemReads`). `withPem` (`Model/Std/Pem.lean`) puts models of encoding/pem and encoding/base64 in place of this parameter; there only DER remains a parameter, and C138 proves `PemReads`.

### Simplifications

* JSON strings with escape sequences keep their spelling (`Json.esc`), since `HexBytes` and `time.Time` read the raw text and `custom` is kept raw; the names of members do not
  (a name in `custom` that needs escapes is spelled anew when written).
* On a document with several defects, one of which panics, the model may report the other defect first (`encoding/json` collects type errors). Both refuse the document.
* Times outside the years 0..9999 are not distinguished (`MarshalJSON` fails for them).
* Maps are association lists. Maps made by the model are sorted by key, hand-made ones need not be; where a result could depend on Go's iteration order, the order is a `Host` choice.
* Pointers that callers pass are not nil and do not alias.
* Files are path strings (no links, no case folding); directories exist implicitly; nothing else writes to the file system during a call (except in C140 to C142, where other clients do); a taken temporary name counts as failure.
* A body read error exactly at the limit is reported as in Go; `bytes.Buffer` growth is not modelled.
* `numberOfBins` beyond `2^63` is the amd64 conversion.
* Loop variables have Go 1.21 semantics (`/repo/go.mod:3`).
* `time.Now` is a host function; deadlines and timeouts are not modelled. There are no goroutines in the library.

## 4. Trusted base

Lean 4.33.0's kernel; the axioms `propext`, `Classical.choice`, `Quot.sound` (at most; `AXIOMS.txt` lists the axioms of every theorem in MANIFEST.json, made with
`#print axioms` by `tools/axioms.sh`); the reading of `/repo` and of the Go libraries recorded in the comments of each definition; and the Spec files as the meaning of the English.
No axioms of our own, no `sorry`, `native_decide` or `bv_decide`. `decide +kernel` is used only for concrete witnesses and examples.

## 5. Deviations of the code from the stated properties

Each is proved as a negation with a concrete witness (see MANIFEST.json for theorem names): thresholds of 0 accept unsigned metadata (C04); one public key under two ids counts
twice (C05), and every RSA or ECDSA key has many texts and so many ids (C138); succinct delegations verify any role name (C09); a key's scheme is ignored (C10); the root version wraps (C11); struct decoding ignores letter case, so that a snapshot can be
replayed as a timestamp (C19, C64, C81); several malformed documents, also Ed25519 keys of a wrong length in delegations, crash the client (C21, C36, C56, C73); the cached snapshot is not checked against the timestamp's hashes online (C23), but is in local mode (C92); a delegated role named like a top-level role replaces its cached file (C84); local mode
downloads delegated roles (C31); broken cache files block an update (C34); `New` rolls the cached root back (C35); a slower client that shares the cache rolls it back (C141); two downloads to one file can leave a mixture (C142); delegations are searched in random order (C40); roles are trusted by name
whatever the delegator, and the delegations of a delegated role called root are verified against root metadata (C41); targets without hashes are accepted by length (C45); hash prefixes go before the wrong path part (C46); cache file names do not match for escaped names (C48);
a dump of the simulator loses a root to a delegated role named like it (C146); list elements of earlier mentions show where the last has null (C144); after a failed Refresh that trusted a snapshot but no targets the Updater never recovers (C145); `errors.Is(err, ErrRepository{})` fails for the library's own errors (C50); path hash prefixes compare base64 (C52); succinct names accept signs and upper case (C54); target equality is not an equivalence
(C62); the signed payload is re-made from the struct (C66); multi-repository lookup returns the last group (C68) and misses conflicts (C70); a download limit of `2^63-1` wraps (C75); `tuf-client init -f` copies the root under a name that `get` does not read, and a failed `init` leaves an unverified root behind (C96); `tuf-client reset` reports deletions that failed (C98); integers above 2^53 in unrecognised fields are altered (C101); `*??` covers one non-ASCII character (C102); a changed key keeps its old ID, and key IDs in metadata are not compared with the keys (C103); signatures by keys of type `ecdsa-sha2-nistp256` are filed under another ID (C104); text that is not UTF-8 is read with U+FFFD in place of what is no character (C105); one target without consensus makes the multi-repository listing fail (C107); listings crash before `Refresh` (C108); file names of targets go through `url.JoinPath` (C111); URLs with a query or a fragment are extended there (C112); exchanging only the timestamp key does not undo a fast-forward attack on the snapshot (C113); versions below 1 and unsupported specification versions are accepted (C114); repositories in a map file may be named so that they share a folder or leave it (C119); a multi-repository client with caching and no folder for targets cannot be made (C120); a failed rename leaves a temporary file (C121); repeated members of a map file are decoded over each other (C123); the example client overwrites its root file when asking for it fails, and keeps a first answer that is no root (C124); the multi-repository example lets the order of a map choose a root and a target `../../root.json` replace its trust anchor (C125); the repository simulator of the tests serves no target files, crashes for most of their URLs, loses delegations from delegated roles and cannot make hash bins (C132, C133).

## 6. Testing the theorems

`seeded/LOG.jsonl` records wrong programs: each line is one edit of the model that mimics a realistic bug, the claims that become false, the declarations that stop checking, and any theorem that was
tightened because it survived. The edits are made and rebuilt in a scratch copy outside `/verif`; a theorem counts as broken if, with failing proofs replaced by `sorry`, it depends on `sorry`.

## 7. Testing the model

`Props/GoTests.lean` has the 40 tests of `metadata/updater/*_test.go` as programs on the models of the simulator and of the client, each evaluated in the kernel. They prove none of the claims; they show that the model does what the authors expect of the code. All of them pass; one passes only for some orders of a map iteration, which Go leaves open (`GetRolesForTarget` returns a map). This is read from the tests; they were not run in Go.

`Props/RepositoryData.lean` has the files of `testutils/repository_data/repository` as literals and 25 tests of `metadata_test.go` and `metadata_api_test.go` on them, with SHA-256, SHA-512, RSA and Ed25519 checks written out in `Props/RealCrypto.lean`. The model writes the files back byte by byte, finds the key IDs that are in them, and accepts the real signatures over its canonical JSON; a client of the model refreshes from them and downloads two target files, one through a delegation. What needs a new key and what is about the file system of the tests is left out of the transcription.

`Props/TrustedTests.lean` has the 23 tests of `trustedmetadata_test.go`, with the signatures that the keys of the tests make. Signing the files of the repository again in the model gives the same files. These are `#guard` checks, evaluated when the file is built and not in the kernel.
