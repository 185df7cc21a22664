# Formal model of containernetworking/cni — design

Language: Lean 4.33.0 (core only; no Mathlib module is imported). Project: `/verif/lean`. The code in `/repo` is read as text; nothing
of it is executed. Properties: `properties.jsonl`. Which theorems prove which property: `MANIFEST.json`. Wrong programs tried against
the theorems: `seeded/LOG.jsonl`.

## 1. Approach

* **Go strings and []byte** are `Bytes := List UInt8` everywhere (names, paths, environment entries, JSON documents), so byte lengths,
  invalid UTF‑8, `-` and `/` separators and truncated files are visible to the model. `b!"…"` is a byte literal.
* **encoding/json** is modelled concretely at byte level: `Json.parse : Bytes → Option Json` (grammar, escapes, surrogates,
  UTF‑8 replacement), `Json.print` (`json.Marshal`: compact, HTML escaping) and `Json.printIndent` (`MarshalIndent`), with proved
  round trips. Decoding into `interface{}` is `toAny` (last duplicate wins, map keys sorted, numbers through float64); decoding into the
  structs of the repository folds over the matching members (case-insensitive keys, `null` handling, repeated fields).
* **float64** is modelled concretely (decimal → nearest binary64 → shortest decimal), because configuration numbers pass through it.
* **net.IP / CIDR text, base64, filepath.Join/Clean/Dir/Ext, strconv.Atoi, strings.Split and the like** are modelled concretely as far
  as they are used.
* **Effects**: the API operations are programs in a small free monad `Prog` whose actions are find-plugin, execute-plugin,
  make-directory, read, write and remove file, list directory (`Libcni/Prog.lean`). Three semantics of the same programs:
  `Runs flt p fs tr fs' o` (sequential; plugins answer anything, files behave like files, with `flt = true` every file action may also
  fail), `interpCrash` (`Spec/Crash`: stops after any action, or in the middle of a write with any prefix of the data written) and
  `Inter` (`Spec/Inter`: any number of clients interleaved at each action, a write passing through any prefix).
* **Errors** are values (`GoErr`) with wrapping and joining, so `errors.As` is expressible; a **panic** is an explicit outcome of `Out`.
* **Map iteration order** is an explicit argument (a permutation of the entries) where it matters, and the theorems hold for all of them.
* **Plugins built with pkg/skel** are functions from a process (environment, standard input, namespaces) to exit status and output, with
  arbitrary callbacks, so runtime and plugin can be composed (C39, C46, C53, C54).

Layout under `lean/Verif`: `Base`, `Json`, `Net` (libraries), `Types`, `Version`, `Utils`, `Invoke`, `Libcni`, `Skel`, `Tools`, `Plugins` (model, one file
per area; every definition cites the Go file and lines), `Spec` (vocabulary of the statements, written without the model's
helpers as far as possible), `Props` (theorems `cNN_…` and, beside them, concrete cases that meet their hypotheses).

## 2. Properties, what is modelled for them, how they are proved

All quantification is unbounded: over all byte strings, lists, documents, file systems, plugin answers, fault choices, histories,
interleavings and crash points. `example`s and `decide +kernel` serve only for non-vacuity and for witnesses of existential findings.

| id | property | modelled in | proof |
|----|----------|-------------|-------|
| C01 | Version comparison is the numeric lexicographic preorder | Version/Version: ParseVersion, Atoi, GreaterThan(OrEqualTo) | case analysis against an independent relation `Reads`; order laws on integer triples |
| C02 | cniVersions selection picks the highest version this library supports | Libcni/Conf: the cniVersions block of NetworkConfFromBytes | for every sorter with the properties of `VersionSorter`; insertion sort (what Go runs up to 12 elements) is proved to be one |
| C03 | Version reconciliation accepts exactly the supported versions | Version/Version: Reconciler.CheckRaw | list induction |
| C04 | Injecting values into a plugin config preserves every other key | Libcni/Conf: InjectConf | JSON round trip and finite-map lemmas |
| C05 | Injection does not depend on map iteration order | Libcni/Conf: InjectConf | permutation invariance of inserting distinct keys |
| C06 | Plugin stdin configuration is exactly the transformed plugin config | Libcni/Build: buildOneConfig | composition of injections, spec `StdinSpec` |
| C07 | Only capabilities a plugin enables reach it | Libcni/Build: injectRuntimeConfig | map lemmas; witness for the configuration's own runtimeConfig |
| C08 | Config integers survive unchanged only inside the exact float64 range | Json/Num, Libcni/Build, Libcni/Conf | float64 rounding modelled exactly; induction over the path to the number (Spec/Place), through loading and injection, to every execution (Props/Deliver) |
| C09 | Loading a configuration list is total and decides exactly the documented cases | Libcni/Conf: NetworkConfFromBytes | equivalence with the declarative `ListLoads` |
| C10 | A single plugin config up-converts to the equivalent one-plugin list | Libcni/Conf: ConfListFromConf | JSON round trip |
| C11 | Network lookup by name is deterministic and first-match | Libcni/Conf: ConfFiles, LoadConf, LoadNetworkConf over an arbitrary directory | induction over the sorted files; independence of enumeration order |
| C12 | ADD runs the plugins in order, chaining results, and stops at the first failure | Libcni/Api: AddNetworkList, AddNetwork | induction over the plugin list; characterisation of the trace (`AddChain`) |
| C13 | A failed ADD leaves the cache untouched | Libcni/Api, Libcni/Cache | the same, frame of the file system |
| C14 | DEL runs the plugins in reverse order and keeps the cache on failure | Libcni/Api: DelNetworkList, DelNetwork | induction over the reversed list (`Sweep`) |
| C15 | CHECK is gated by version and disableCheck | Libcni/Api: CheckNetworkList, CheckNetwork | as C14 |
| C16 | CHECK and DEL see the result of the last successful ADD | Libcni/Cache: cacheAdd, getCachedResult | round trip of the cache file through base64 and JSON |
| C17 | Cached runtime configuration round-trips | Libcni/Cache: getCachedConfig | the same |
| C18 | The cache behaves like a map under any operation history | all list operations in sequence | refinement to a map from attachments to stored data over arbitrary histories |
| C19 | Different attachments use different cache entries | Libcni/Cache: getCacheFilePath | string lemmas; collision witnesses |
| C20 | Cache files stay inside the results directory | Libcni/Cache, Base/Path | Clean/Join lemmas; escape witnesses |
| C21 | GetCachedAttachments(id) is exactly the attachments of that container | Libcni/Cache: GetCachedAttachments | list induction over the directory listing |
| C22 | GC never deletes valid attachments or other networks | Libcni/Api: GCNetworkList | characterisation of the trace and of the files; invariant over histories |
| C23 | GC attempts every stale attachment and every plugin despite failures | Libcni/Api: GCNetworkList | the same, with every attempt accounted for; completeness (`c23_complete`) from C14 and C21 |
| C24 | GC does not crash on lists produced by the loader | Libcni/Api: GCNetworkList | loaded configurations survive rewriting; crash witness |
| C25 | STATUS asks plugins in order and stops at the first error | Libcni/Api: GetStatusNetworkList | trace characterisation |
| C26 | Validation checks every plugin and reports exactly the enabled capabilities | Libcni/Api: ValidateNetworkList, ValidateNetwork | list induction |
| C27 | Every pair of spec versions is convertible and yields the requested version | Types/Results: converter table, Convert, GetAsVersion | case analysis over the table; recursion depth proved stable |
| C28 | 0.3/0.4 and 1.x results convert back and forth without loss | Types/Results | list induction |
| C29 | Down-conversion to 0.2.0 keeps the first address of each family | Types/Results: convertTo02x | loop invariants of pickIPs/pickRoutes |
| C30 | 0.2.0 results survive a round trip through newer versions | Types/Results | composition |
| C31 | Conversion never crashes on results without null entries | Types/Results with nil entries | case analysis; panic witnesses |
| C32 | Result JSON round-trips | Types/ResultJson | encode/decode round trip |
| C33 | A plugin result without a version takes the configuration's version | Invoke/Fixup: fixupResultVersion | JSON round trip |
| C34 | prevResult parsing in plugins is version-checked | Types/PluginConf: ParsePrevResult | decoding lemma for two spellings of one key |
| C35 | A plugin callback runs only for a fully validated request | Skel/Skel: dispatcher | case analysis |
| C36 | Plugin errors carry the specified error codes | Skel/Skel | case analysis |
| C37 | VERSION works without configuration | Skel/Skel, Version/Version | case analysis, JSON round trip |
| C38 | ADD into the plugin's own network namespace is refused | Skel/Skel with a namespace oracle | case analysis |
| C39 | Runtime invocations are accepted by conforming plugins | Libcni/Api composed with Skel/Skel | composition of C12/C14/C22/C25 with C35 |
| C40 | Plugin environment is the process environment overridden by the CNI variables | Invoke/Args: AsEnv, dedupEnv | list induction, up to permutation |
| C41 | Delegation passes the environment through with only the command changed | Invoke/Args, Invoke/Exec: delegate | list induction |
| C42 | CNI_ARGS round-trips between runtime and plugin | Invoke/Args: stringifyArgs, parseArgs; LoadArgs | split/join lemmas |
| C43 | Name validation accepts exactly the documented names | Utils/Validate | character classes against the documented rules |
| C44 | Plugin lookup returns the first match and never escapes the search path by name | Invoke/Exec: FindInPath | list induction |
| C45 | A reported plugin success means the plugin ran successfully | Invoke/Exec: RawExec.ExecPlugin | induction over the attempts |
| C46 | Plugin error details reach the caller unchanged | Invoke/Exec, Types/Print, Skel/Main, Libcni/Api | error containment through every operation |
| C47 | Address text round-trips and keeps host bits | Net/IP | digit and group codecs |
| C48 | Crash safety of the attachment cache | crash semantics of Prog | frame lemmas per operation; prefixes of a JSON document are not documents |
| C49 | Operations on different attachments do not interfere | interleaving semantics of Prog | projection: each client's actions and files are as if alone |
| C50 | Missing optional data never crashes the runtime | panic outcome of every operation | induction, `Safe` programs |
| C51 | cnitool container IDs are always valid | Utils/Validate, cnitool's ID | character classes; injectivity of hex |
| C52 | A list file's plugin folder is appended, in file-name order, unless only inlined plugins are wanted | Libcni/Conf: NetworkConfFromFile | list induction |
| C53 | What a plugin prints is what the runtime reads | Types/Print, Json/Indent, Invoke/Fixup | composition of round trips |
| C54 | Plugins decode exactly the configuration, previous result and valid attachments the runtime sent | Libcni/Api composed with Types/PluginConf | composition of C06/C16/C22 with decoding lemmas |
| C55 | GetResult and NewResultFromResult give the implemented version or an error | Types/GetResult | from C27 |
| C56 | A converted result and the original can be changed independently | Types/Heap: conversion over an explicit heap | refinement of Types/Results plus a separation invariant |
| C57 | A runtime learns exactly the versions a plugin was built for | `getVersionInfo` and `decodePluginInfo` as programs over find/exec answers; the skel main function and executor for the plugin's side | by unfolding the run; the answer of a skel plugin from `c37_version`; validation by induction over the probes |
| C58 | VersionsStartingFrom gives exactly the versions not older than the given one | `versionsStartingFrom` over the fixed version list | closed form by induction over the list, then the order by evaluating the seven versions |
| C59 | Printing a plugin configuration keeps everything in it | `PluginConf.marshal`: the struct encoding, through a map, empty `dns` dropped | each field read back from the printed members; decoded configurations shown to be printable |
| C60 | The debug plugin is transparent in a chain and reports what the runtime was asked for | `Plugins/Debug`, `Skel/*`, `Libcni/*`, `Types/Convert` | composition of C39, C54, C28/C30 round trips and the plugin's definition; the process is the skeleton model with the plugin's callbacks |
| C61 | cnitool does what its arguments and environment say | `Cnitool/Main`, `Libcni/*` | the tool is a program over the modelled library; its request is characterised by `Asked` (`prepare_iff`), and the rest follows from C12-C17, C23, C39 |
| C62 | Copies of interfaces, addresses, routes and DNS settings are equal and independent | Types/Heap, Types/HeapCopy | Each Copy is followed on an explicit heap; every address the copy can reach beyond address bytes is fresh, so a heap that agrees with the later one on the copy's footprint gives the same value. |
| C63 | Operations fail only for reasons that can be seen | Libcni/Api, Libcni/Build, Libcni/Cache, Types/Created | Configurations that survive one rewriting survive all; results read from documents print to documents that decode; so every step between plugins succeeds, and the outcome is the conjunction of the plugins' answers (induction over the plugins). |
| C64 | The life of an attachment: ADD, CHECK and DEL depend only on the plugins | Libcni/Conf, Libcni/Api, Libcni/Cache, Types/Results, Types/ResultJson | Composition of C24 (loaded lists survive rewriting), C63 (ADD succeeds), C32/C16 (what is cached is read back, `c16_faithful` turning `Representable` into a condition on the result's contents), C27 (conversion succeeds) and C14/C15. |
| C65 | Listings and garbage collections are complete while other clients use the cache | interleaving semantics of Prog; Libcni/Cache, Libcni/Api | a relation for one program among others that change the files in a given way between its steps (`Amid`), derived from the interleaving; induction over the loops of the listing and of GC in it; the DEL of one entry is projected to a run by itself |
| C66 | A chain of plugins computes the composition of their functions | AddNetworkList down to the plugin process and back (C12, C39, C46, C53, C54, C63) | a refinement: the run of the runtime with plugins around arbitrary functions is matched, step by step, with an inductive relation that says what the chain of functions computes; a pure `composed` for functions of the decoded configuration only |
| C67 | Only what a search for the network's own plugins has found is executed | Libcni/Api (all operations), Invoke/Exec: FindInPath | a predicate on programs, closed under sequencing and error handling, that every operation satisfies; induction over complete and interrupted executions |
| C68 | Validation predicts acceptance | Libcni/Api (validation and all operations), Skel/Main, Invoke/Exec, Version/Version | composes C57 (a validation succeeds iff every plugin found was built for the version), C67 (what is executed is what the search finds) and C39 (every request is passed on if the version is supported); the converse from C11's chain of results and the refusal of unsupported versions |
| C69 | Delegation is transparent | Libcni/Api, Invoke/Args, Invoke/Fixup (delegation), Skel/Main, Types/Print | composes C40 (the environment of an execution repeats no name), C41 (delegation), C39 (acceptance), C53 and C66 (what a plugin's answer is), C46 (errors) |
| C70 | Previous results come from ADDs of the same attachment, also under concurrency | Libcni/Api, Libcni/Cache, Libcni/Prog (`Inter`) | local paths of a program under arbitrary answers (induction on programs); invariant over interleavings that a file holds only (prefixes of) what some ADD writes; `c70_blank` is a schedule with the blank result |
| C71 | The cache settles after concurrent use | Libcni/Api, Libcni/Cache, Libcni/Prog (`Inter`); `Spec/Settled` says what a call leaves in a file and which call was the last to change it | `Props/Settled`: induction over the steps, invariant "what the last completed change left, or some program is about to complete a write of that file"; local paths attribute the write to an ADD and its reply |
| C72 | A concurrent garbage collection deletes only stale attachments that were added | Libcni/Api (`gcNetworkList`, `gcDelLoop`, `gcLoop`), Libcni/Cache (`attachmentLoop`), Libcni/Prog (`Inter`) | `Props/Collected`: local paths of the collection (its listing, the DEL loop, the GC loop); what it reads as an entry is whole (a torn entry is no JSON) and was stored by an ADD (invariant of C70) |
| C73 | Concurrent use with files as the operating system keeps them | Libcni/Posix (`Disk`, `Fine`): directory entries, files and open files, with the programs of Libcni/Api and Libcni/Cache; Libcni/Prog (`Inter`) | `Props/Posix`: simulation by induction over the fine steps; a writer whose file has been removed is ahead by that write in the coarse run. Then C70, C71 and C72 transfer; `c73_mixture` is a run of two overlapping ADDs |
| C74 | Crashes and restarts under concurrent use | Libcni/Api, Libcni/Cache, Libcni/Prog (`Inter`), Libcni/Posix (`Fine`); `Spec/Restart` (`Epochs`): only the files are left of a run that crashes | `Props/Restart`: all runs together are one run in which clients stop for ever when theirs ends; then C70, C71, C72 and C73 apply, and their conclusions are brought back to the single runs |
| C75 | Which fields a request to a plugin has | Libcni/Api (buildOneConfig, the operations), Libcni/Inject; spec: Spec/Request | from C06 (document given to a plugin), C12, C14, C15, C23, C25: the set of keys of that document, both inclusions, per operation; `c75_rules` compares with the text of SPEC.md |
| C76 | Reading cache files piece by piece while others write, remove and list them | Libcni/Reads (os.ReadFile and os.WriteFile as open, pieces, end; os.ReadDir as POSIX readdir; handles and inodes), Libcni/Api | invariant over all steps: every inode has one name for ever, has the beginning of what its only writer writes, and what a reader has got is a beginning of it; then as C70 and C72; c76_once removes the assumption for attachments added once, c76_mixed_read shows that it is needed |
| C77 | A single plugin configuration and the one-plugin list made of it are interchangeable | `Libcni/Api`, `Libcni/Conf`, `Spec/Same` | simulation of runs in both directions (`Props/Upconvert`): storing into the re-printed document equals storing into the original (decoding to `interface{}` is idempotent), so the two programs differ only in error wrapping and the cached configuration; CHECK is an equality of programs; the need for the condition on `type` is a theorem (`c77_type_needed`) |
| C78 | DEL can be retried and repeated, and a repeated GC has nothing left to delete | `Libcni/Api`, `Libcni/Cache`, `Spec/Again` | induction on the sequence of attempts over the theorems for one DEL (`Props/Again`); for GC, completeness of the first (C23) leaves the second no stale attachment |
| C79 | Results stored by earlier releases of the library are still used | `Libcni/Cache`, `Libcni/Api`, `Types/ResultJson`, `Spec/Legacy` | no member of a marshalled result is named `kind` (case-folded), so it is never read in the current format; then the round trip of C32 and the theorems for CHECK, DEL, listing and GC (`Props/Legacy`) |
| C80 | One cache directory is in effect for a call, and calls that disagree about it do not see each other | `Libcni/Cache`, `Libcni/Api` | the programs of the operations do not depend on the setting (equality by induction on the plugins); cleaned results directories have disjoint children (`Props/CacheDir`) |
| C81 | The test plugin records every request and behaves as it is told | `Plugins/Noop`, `Plugins/NoopRecord` (all of plugins/test/noop; a failing write leaves anything) | JSON round trip of the files; induction over the sequence of requests; C39 for the invocations by libcni (`Props/Noop`, `Props/NoopRun`) |
| C82 | What an ADD has stored is seen by every operation that begins after it has replied | Libcni/Reads, Libcni/Api (clients as in C76), Spec/Later (one operation has replied before another one begins) | invariant: from the reply of the ADD on, its inode keeps its name and contents and nobody may write it, what the later reader has open is that inode and what its listing has missed is another file; so every answer is as after the ADD alone (then C16), a later successful DEL or GC makes the call that removes it; c82_concurrent_listing shows that the listing must begin later |
| C83 | Addresses and networks are written in one canonical text | Net/IP: IP.String, IPNet.String (standard library, byte by byte); Json/Decode: jIP, jIPNet | against the relations of Spec/AddrText: numerals and their uniqueness, the run chosen is the leftmost longest by induction over the groups, masks bit by bit |
| C84 | Documents are read by the grammar of JSON, and only their value counts | Json/Json: the parser that stands for encoding/json; Libcni/Conf, Version, Types/ResultJson, Invoke/Fixup, Libcni/Cache, Cnitool/Main: everything that reads documents | soundness by induction on the parser's fuel, completeness by induction on derivations in an independent grammar (`Spec/Grammar`); UTF-8 and escapes by arithmetic on bytes |
| C85 | The texts of addresses and networks that are accepted | Net/IP: the parser that stands for net.ParseIP and net.ParseCIDR; ParseCIDR, IPNet.UnmarshalJSON | soundness and completeness of each parsing function against an independent grammar (`Spec/AddrRead`), by induction on the text and on derivations |
| C86 | What result and configuration documents say | Json/Decode, Types/ResultJson, Types/PluginConf, Libcni/Conf: struct decoding, NewResult of the three forms, CreateFromBytes, NetworkPluginConfFromBytes | each decoder agrees, in both directions, with a relation on documents (`Spec/Fields`, `Spec/ResultDoc`, `Spec/ConfDoc`); names by induction |
| C87 | Where paths lead | Base/Path (filepath.Clean, Join, Dir, Ext, SplitList), Libcni/Api cache paths, Invoke/Find, Libcni/Conf ConfFiles, Cnitool | `Spec/Spot` walks the elements of a path; the cleaned path is shown to render that walk and rendering to be injective (`Base/PathLemmas`); then the operations |
| C88 | The document of a cache entry | Libcni/Cache: cachedInfo with its JSON names, cacheAdd, getCachedConfig, getCachedResult, GetCachedAttachments; Base/Base64 (encoding/base64) | the written document is shown to be in the relation `Written` (`Spec/EntryDoc`), the decoder to agree in both directions with `IsSaved`; base64 by induction on groups (`Spec/Base64`) |
| C89 | Numbers are the nearest doubles, the rest of a document is kept, and a number too large is refused | `Json/Num.lean` (strconv.ParseFloat and FormatFloat as rational arithmetic), `Json/Any.lean`; spec `Spec/Float.lean`, `Spec/Decoded.lean` | the model's rounding is minimal on the grid of its binade and doubles of lower binades are strictly farther; uniqueness of the nearest double gives the equivalence; induction over documents |
| C90 | GC with a nil list of valid attachments deletes as with the empty list but tells plugins null | `Libcni/GcNil.lean`; spec `Spec/GcNil.lean` | simulation in both directions, by induction over the plugins; the two documents are determined by their members (uniqueness of injection) |

### Restrictions and remarks

* C16: results whose networks are given and whose integers are below 2^53 (`c16_faithful`: for results of an ADD that is the same as Spec Representable); capability values within float64 range
* C18: histories without file faults, with names/IDs accepted by the validators (Proper); a failed list DEL may drop an unusable entry, which the statement records
* C19: distinct keys under the hypothesis that network name and container id contain no '-' separator ambiguity; the unrestricted claim is refuted by c19_collision / c19_collision_effect
* C20: ADD with at least one plugin validates; c20_empty_list_escapes and c20_del_escapes are witnesses that the empty plugin list and DEL do not
* C21: entries well named, an invariant of histories; the deprecated rt.CacheDir is ignored by the listing
* C22: Deletes run only for entries of the network that are not valid, whatever the faults. The file part needs the entries to be in the files of their own names, which every history of API operations with UTF-8 interface names preserves (c22_history); an interface name that is not UTF-8 is stored with replacement characters and GC then does not recognise it.
* C23: For plugin configurations that are still plugin configurations after being rewritten (Sound; all lists with inline plugins are: c24_loaded_sound). A DEL that panics on a cached result with null entries (see C50) ends the GC; the second disjunct says so.
* C24: Lists loaded from text crash GC only through conversion of a cached result with null entries (C50). A configuration that cannot be rewritten crashes it in every fault-free run; such a configuration can come from a plugin file of its own, e.g. {"type":"x","foo":1e999} (c24_file_crashes).
* C25: For all lists; a configuration that cannot be rewritten gives an error and one that is not an object a panic, neither of which occurs for lists loaded from text.
* C26: The order of the returned capabilities (Go map iteration) is not specified: only their set and that there are no duplicates.
* C27: well-typed results (Go type matches reported version); the only failure is no address when going to 0.1.0/0.2.0
* C29: null-free results
* C32: addresses as parsed (16-byte); c32_roundtrip_std covers 4-byte addresses up to that normalisation; 1.x needs integers below 2^53 (c32_exact_needed)
* C34: c34_version/c34_mismatch for prevResults that do not use another capitalisation of cniVersion; c34_empty_version_rejected records that an empty stated version is rejected
* C35: callbacks are arbitrary functions of their arguments; what else they do is not modelled
* C36: errors skel itself produces; a callback's CNI error is passed through, any other error becomes code 999
* C38: the check comes after the callback has run (the code's behaviour), which the theorem says
* C39: ADD as stated, and also CHECK, DEL, GC and STATUS (names valid as hypothesis there, since only ADD validates). The version the plugin reads is the list's unless the plugin configuration spells cniVersion in another case: c39_other_spelling is a witness that then the plugin reads that one.
* C41: os.Getenv is the first binding; c41_same_environment (the delegate reads the same variables) is for environments that do not repeat a name.
* C45: the title claim has one exception in the code, a binary that stays busy for all six attempts; c45_success states both cases, c45_false_when_busy is the witness
* C46: From the document printed (c46_error_doc and the other raw-exec theorems) through every API operation (c46_add_list ... c46_gc, delegation), and from a skel plugin's main function (c46_skel*). For GC the error is one of those joined. Texts formatted with %q are not modelled exactly. c46_add_names and c46_del_names: which plugin failed (Go quotes type and name with %q, which leaves ordinary names as they are).
* C48: list recovery as stated (c48_recover_list); c48_stuck records that DelNetwork/CheckNetwork/CheckNetworkList from 0.4.0 on fail while the torn file is there. ADDs with at least one plugin; plain names for DEL
* C49: any number of concurrent clients (sessions of operations, GC, listings) with partial writes visible; c49_projection allows several clients per entry; GC must not count an attachment of the entry as stale
* C50: ADD and STATUS never panic; DEL, CHECK, cached-result reads and GC only if the cache file concerned holds a result with a null list entry, for plugin configurations that are JSON objects (everything the loaders return); GC additionally needs configurations that can be rewritten (see C24).
* C53: results with UTF-8 strings and integers exact in float64, as C32; an error of writing to stdout is not modelled
* C54: configurations that spell the common fields as documented, once each (others: c39 shows what the other-case key does); results as in C32; c54_other_format records that a result in another format is passed on unconverted and cannot be parsed
* C84: Go's limit of 10000 nesting levels is not modelled: the equivalence is with the whole grammar.

## 3. Trusted base

* Lean's kernel (4.33.0). No axioms are added; `sorryAx`, `Lean.ofReduceBool` and `Lean.trustCompiler` are not used (no `native_decide`,
  no `bv_decide`). `decide +kernel` is evaluated by the kernel.
* The axioms of each theorem are listed in section 6; they are among `propext`, `Quot.sound` and `Classical.choice`.
* That the model says what the Go code does: the reading of `/repo` and of the Go standard library (encoding/json, net, path/filepath,
  os, os/exec, sort, slices, strconv, strings, encoding/base64, regexp for one fixed expression). Nothing was executed against the model.
* That the statements say what the English properties say: `Spec/*.lean` and the statements of the `cNN_…` theorems.

### Assumptions about the environment, in the model

* Paths are read lexically, as path/filepath does: a symbolic link in a directory is not followed, so C87 speaks of the place a text names, not of the inode.
* Files: a file is its name and contents; permissions, links, and directories as objects are not represented (making a directory always
  succeeds unless faults are on). A write replaces the contents; under faults or crashes any prefix may be left. Plugins and other programs do not touch the cache
  files, except in C48/C49/C65 where other clients of the same cache are modelled. There a directory listing is one step, and a write may be
  seen partially, but two writers of one file do not mix. C73 replaces this by opening, writing in pieces and closing, with files that outlive their names; reading a
  file and listing a directory stay one step. In C76 and C82 reading a file, too, is opening it and any number of pieces, and a listing
  is spread over time: it has every file that is there from its beginning to its end, and may have or miss those added or removed meanwhile.
* Plugins: the answer to each find/execute action is arbitrary. `invoke.Exec.Decode` is that of `version.PluginDecoder`. Cancellation of the
  context is one of the arbitrary errors of an execution.
* Skel callbacks are arbitrary functions of their arguments to an outcome and an output; their other effects are not modelled.
  Namespaces are an oracle asked after the callback. `os.Getenv` is the first binding.
* Errors of writing to standard output and standard error are not modelled.

### Simplifications

* nil and empty slices and maps are the same, except that a nil list of GC's valid attachments, which prints as `null`, has its own
  definition (`CNIConfig.gcNetworkListNil`) and is related to the empty list by C90. A nil `*PluginConfig`,
  `*NetworkConfigList`, `*RuntimeConf` or nil `Network` field is not modelled.
* Values put into a configuration by injection are given as the JSON they marshal to; values that cannot be marshalled are not modelled.
* The nesting limit of encoding/json (10000) is not modelled. Error texts are not exact where `%q`, `%v` or `%+v` formatting of Go
  values is involved; which error occurs, and CNI error codes, are.
* Aliasing between Go values is modelled only for result conversion (C56); everywhere else values are copied.
* The sorting function for versions is any function with the specification `VersionSorter` (Go's is unstable above 12 elements).
* Debug plugin: whether its file opens and the namespace can be entered are oracles; what the hooks do, their exit status (ignored by the code) and partial
  writes are not modelled; the `ns` package is of another repository.
* Test plugin (noop): writing to stdout and stderr never fails, the pipe of `saveStdin` is a copy of the input, an exit code is taken modulo 256; `Plugins/Noop` is the part of it the
  conformance modules use, and agrees with the whole (`noop_models_agree`).
* cnitool: SHA-512 is an arbitrary function, the working directory an oracle, the usage text is not represented; the configuration directory and the cache are separate.
* `exec.Cmd` being run several times by `RawExec.ExecPlugin` is inside the oracle for the outcome of attempt n.

### Checking the model against the repository's tests

`Verif/Conformance/*` replays assertions of the repository's own unit tests on the model (as `example`s, by kernel evaluation). They prove no
property and nothing rests on them; they are evidence that the model computes what the code's authors say the code computes.

## 4. What is modelled and what is not

The Go functions (outside tests) and the model file that has them. "—" means not modelled; reasons follow the table.

| Go file | functions → model files |
|---|---|
| cnitool/cnitool.go | parseArgs → Base/Bytes, Invoke/Args; main → Cnitool/Main, Invoke/Exec; usage, exit → Cnitool/Main |
| libcni/api.go | NewCNIConfig, NewCNIConfigWithCacheDir, CNIConfig.ensureExec → —; buildOneConfig, injectRuntimeConfig → Libcni/Build; CNIConfig.getCacheDir, CNIConfig.getCachedConfig, CNIConfig.getLegacyCachedResult → Libcni/Cache; CNIConfig.getCacheFilePath → Base/Path, Libcni/Cache; CNIConfig.cacheAdd → Base/Path, Json/Any, Json/Json, Json/Num, Libcni/Cache, Libcni/Posix, Libcni/Prog, Libcni/Reads, Types/ResultJson; CNIConfig.cacheDel → Libcni/Cache, Libcni/Posix, Libcni/Reads; CNIConfig.getCachedResult → Libcni/Cache, Libcni/CachePath, Libcni/Posix, Libcni/Reads; CNIConfig.GetNetworkListCachedResult, CNIConfig.GetNetworkCachedResult, CNIConfig.GetNetworkListCachedConfig, CNIConfig.GetNetworkCachedConfig, CNIConfig.addNetwork, CNIConfig.checkNetwork, CNIConfig.CheckNetworkList, CNIConfig.delNetwork, CNIConfig.DelNetworkList, pluginDescription, CNIConfig.AddNetwork, CNIConfig.CheckNetwork, CNIConfig.DelNetwork, CNIConfig.ValidateNetworkList, CNIConfig.ValidateNetwork, CNIConfig.validatePlugin, CNIConfig.GetVersionInfo, CNIConfig.gcNetwork, CNIConfig.GetStatusNetworkList, CNIConfig.getStatusNetwork → Libcni/Api; CNIConfig.GetCachedAttachments → Base/Bytes, Base/Sort, Libcni/Cache, Libcni/Reads; CNIConfig.AddNetworkList → Base/Err, Libcni/Api, Libcni/Prog; CNIConfig.GCNetworkList → Base/Err, Libcni/Api, Libcni/GcNil; CNIConfig.args → Base/Bytes, Libcni/Api |
| libcni/conf.go | NotFoundError.Error, NoConfigsFoundError.Error, ConfFromBytes, ConfListFromBytes, ConfListFromFile, LoadConfList → —; NetworkPluginConfFromBytes, NetworkPluginConfsFromFiles, ConfFromFile, LoadNetworkConf, ConfListFromConf → Libcni/Conf; NetworkConfFromBytes → Base/Bytes, Base/GoMap, Libcni/Conf; NetworkConfFromFile, ConfFiles → Base/Path, Libcni/Conf; LoadConf → Base/Bytes, Base/Sort, Libcni/Conf; InjectConf → Base/Err, Base/GoMap, Json/Any, Json/Json, Json/Num, Libcni/Conf |
| pkg/invoke/args.go | inherited.AsEnv, ArgsFromEnv → —; Args.AsEnv, DelegateArgs.AsEnv → Invoke/Args; stringify → Base/Bytes, Invoke/Args; dedupEnv → Base/Bytes, Base/GoMap, Invoke/Args |
| pkg/invoke/delegate.go | delegateCommon → Base/Path, Libcni/Api; DelegateAdd, DelegateCheck, delegateNoResult, DelegateDel, DelegateStatus, DelegateGC → Libcni/Api; delegateArgs → — |
| pkg/invoke/exec.go | fixupResultVersion → Invoke/Fixup; ExecPluginWithResult → Invoke/Fixup, Json/Json, Libcni/Api; ExecPluginWithoutResult, GetVersionInfo → Libcni/Api |
| pkg/invoke/find.go | FindInPath → Base/Bytes, Base/Path, Invoke/Exec |
| pkg/invoke/raw_exec.go | RawExec.ExecPlugin → Base/Bytes, Invoke/Exec, Plugins/Noop, Skel/Main; RawExec.pluginErr → Invoke/Exec; RawExec.FindInPath → — |
| pkg/ns/ns_darwin.go | CheckNetNS → — |
| pkg/ns/ns_linux.go | getCurrentNS → —; CheckNetNS → Skel/Skel |
| pkg/ns/ns_windows.go | CheckNetNS → — |
| pkg/skel/skel.go | dispatcher.getCmdArgsFromEnv → Base/Bytes, Libcni/Api, Skel/Skel; dispatcher.checkVersionAndCall → Base/Err, Skel/Skel; validateConfig → Skel/Skel; dispatcher.pluginMain → Base/Bytes, Skel/Skel; PluginMainWithError, PluginMainFuncsWithError, PluginMain → —; PluginMainFuncs → Skel/Main |
| pkg/types/020/types.go | init → Types/ResultJson, Types/Results; NewResult, IPConfig.MarshalJSON, IPConfig.UnmarshalJSON → Types/ResultJson; GetResult → Types/GetResult; convertFrom010, convertTo010, Result.Version, Result.GetAsVersion, IPConfig.Copy → Types/Heap, Types/Results; Result.Print → —; Result.PrintTo → Types/Print |
| pkg/types/040/types.go | init → Types/ResultJson, Types/Results; NewResult, IPConfig.MarshalJSON, IPConfig.UnmarshalJSON → Types/ResultJson; GetResult, NewResultFromResult → Types/GetResult; convert020IPConfig → Types/Results; convertFrom02x, convertInternal, convertTo02x, Result.Version, Result.GetAsVersion → Types/Heap, Types/Results; Result.Print, Interface.String, Int, IPConfig.String → —; Result.PrintTo → Types/Print; Interface.Copy, IPConfig.Copy → Types/Heap |
| pkg/types/100/types.go | init → Types/ResultJson, Types/Results; NewResult, IPConfig.MarshalJSON, IPConfig.UnmarshalJSON → Types/ResultJson; GetResult, NewResultFromResult → Types/GetResult; Result.MarshalJSON → Json/Any, Json/Num, Types/ResultJson, Types/Results; convertFrom100, convertFrom02x, convertIPConfigFrom040, convertInterfaceFrom040, convertFrom04x, convertIPConfigTo040, convertInterfaceTo040, convertTo04x, convertTo02x, Result.Version, Result.GetAsVersion → Types/Heap, Types/Results; Result.Print, Interface.String, Int, IPConfig.String → —; Result.PrintTo → Json/Indent, Types/Print, Types/ResultJson; Interface.Copy, IPConfig.Copy → Types/HeapCopy |
| pkg/types/args.go | UnmarshallableBool.UnmarshalText, LoadArgs → Base/Bytes, Invoke/Args; UnmarshallableString.UnmarshalText, GetKeyField → — |
| pkg/types/create/create.go | DecodeVersion → Version/Version; Create → Types/ResultJson; CreateFromBytes → Invoke/Fixup |
| pkg/types/internal/convert.go | findConverter → Types/Results; Convert → Types/Heap, Types/Results; RegisterConverter → Types/GetResult |
| pkg/types/internal/create.go | findCreator, Create → Types/ResultJson; RegisterCreator → Types/GetResult |
| pkg/types/types.go | ParseCIDR → Net/IP; IPNet.MarshalJSON, IPNet.UnmarshalJSON → Json/Decode, Net/IP; PluginConf.MarshalJSON, IPAM.IsEmpty → Types/PluginConfJson; PrintResult, Error.Print → Types/Print; DNS.IsEmpty → Types/Results; DNS.Copy → Types/Heap; Route.String, NewError → —; Route.Copy → Types/Heap, Types/HeapCopy, Types/Results; Error.Error → Base/Err; Route.UnmarshalJSON, Route.MarshalJSON → Types/ResultJson; prettyPrint → Json/Indent |
| pkg/utils/utils.go | ValidateContainerID, ValidateNetworkName, ValidateInterfaceName → Utils/Validate |
| pkg/version/conf.go | ConfigDecoder.Decode → Version/Version |
| pkg/version/plugin.go | pluginInfo.Encode, PluginSupports, PluginDecoder.Decode, GreaterThanOrEqualTo, GreaterThan → Version/Version; pluginInfo.SupportedVersions → —; ParseVersion → Base/Bytes, Version/Version |
| pkg/version/reconcile.go | ErrorIncompatible.Details → Skel/Skel; ErrorIncompatible.Error, Reconciler.Check → —; Reconciler.CheckRaw → Version/Version |
| pkg/version/version.go | Current, VersionsStartingFrom → Version/Version; NewResult → Types/ResultJson; ParsePrevResult → Types/PluginConf |
| plugins/debug/main.go | main, outputCmdArgs, parseConf, getResult, executeHooks, cmdAdd, cmdDel, cmdCheck → Plugins/Debug |

Not modelled, and why: the `fakes`, `testhelpers` and `legacy_examples` packages and the plugins under `plugins/test` are test support;
`usage`, `Error()` and `String()` methods only format text; deprecated aliases (`ConfFromBytes`, `ConfListFromBytes`, `ConfListFromFile`,
`LoadConfList`) and wrappers (`NewCNIConfig`, `ensureExec`, `Reconciler.Check`, `PluginMain…WithError`, `ArgsFromEnv`, `Print`) call a function that is
modelled; `CheckNetNS` on Windows and Darwin and `getCurrentNS` are inside the namespace oracle.

## 5. What the proofs found out about the code

Each item is a theorem (or stated in one); the properties are worded so that they are true of the code, with these as the exceptions.

* The cache key `network-container-interface` is not injective (`c19_collision`, `c19_collision_effect`).
* DEL, CHECK and the cache readers do not validate names, so DEL can remove a file outside the results directory (`c20_del_escapes`); ADD of
  an empty list validates nothing either and can write there (`c20_empty_list_escapes`).
* Six "text file busy" attempts are reported as success with empty output (`c45_false_when_busy`).
* GC crashes on a configuration that cannot be rewritten, which a plugin file of its own can contain, e.g. `{"type":"x","foo":1e999}`
  (`c24_crash`, `c24_file_crashes`); injecting into the configuration `null` panics (`c04_null_panics`).
* A cached result with `null` list entries crashes DEL, CHECK and GC when converted below 1.0 (`c50_null_crashes`, `c31_null_…`).
* A cache file torn by a crash in ADD makes DelNetwork, CheckNetwork and CheckNetworkList at ≥ 0.4.0 fail until it is removed (`c48_stuck`);
  DelNetworkList recovers (`c48_recover_list`).
* A plugin's own `runtimeConfig` and `prevResult` keys pass through (`c07_own_runtime_config_passes`, C06); numbers beyond 2^53 change
  (`c08_large_integers_change`, `c32_exact_needed`).
* A key `CNIVERSION` in another case in a plugin configuration overrides the injected version for plugins (`c39_other_spelling`).
* An empty `cniVersion` in a prevResult is rejected although the code means to replace it (`c34_empty_version_rejected`).
* A previous result is handed on unconverted during ADD: a plugin answering in another format makes the next plugin's
  `ParsePrevResult` fail (`c54_other_format`).
* skel checks the namespace only after the callback has run (C38).
* Down-conversion keeps only destination and gateway of routes and the first address of each family (C29); 1.x → 0.4.0 drops MTU, socket path and PCI ID
  (`c28_down_up`); a v4-mapped IPv6 network changes family in text (`c47_mapped_changes_family`).
* `NewResultFromResult` and `types020.GetResult` refuse results that state no version (`c55_unset_refused`).
* An interface name that is not UTF‑8 is stored with replacement characters, so GC does not recognise the attachment as valid (C22's hypothesis).
* Converting between 1.0.0 and 1.1.0 shares interfaces, addresses, routes and DNS with the original (`c56_shared`), unlike every other
  conversion; a conversion to the same version returns the original itself (`c56_same`).
* Printing a `PluginConf` always prints an `ipam` member, `{}` when the configuration has none (`c59_keys`). Struct types that embed `PluginConf`, like the
  debug plugin's `NetConf`, inherit its `MarshalJSON`, so marshalling a pointer to them drops their own fields (from reading, not a theorem).
* The debug plugin: DEL of a list of version 0.1.0, 0.2.0 or without a version always fails, because it prints an empty result, which has no
  form in those versions (`c60_del_old`); a previous result of another format than the list's (`c60_add_other_format`), a configuration that does not
  decode or is `null` (`c60_undecodable`), and an empty hook (`c60_effects`) crash it.
* `cnitool` with an unknown command exits with 0 and prints nothing (`c61_unknown`). `cnitool gc` deletes every attachment of the network in the default
  cache, whatever namespace it is given (`c61_gc_all`).
* `GCNetworkList` returns nil, having done nothing, when the cache directory cannot be read (libcni/api.go:777-780; `c23_unlisted`).
* A result whose route has no `dst`, or whose IP has no `address`, is accepted, but printed with the text `<nil>`, which no reader accepts: the next plugin gets a
  `prevResult` it cannot parse and the cached result is unreadable, so CHECK and DelNetwork fail after a successful ADD (`c63_unreadable_cached`).
* GC and STATUS look for a plugin under the type in its rewritten configuration, the other operations under the type as it was first read. For a plugin file that
  says its type twice, e.g. `{"type":"b","Type":"a"}`, DEL executes `a` and STATUS executes `b` (example beside `c67_inside`).
* A plugin named `.` or `..` passes the check for separators; the search then asks for the directory itself or its parent, which is no regular file (C44).
* `getCachedResult` reads the cache file twice: if the first reading does not yield an entry in the current format it reads the file again as a legacy result. If the first
  reading happens while an ADD has created but not filled the file and the second after it has filled it, the entry itself is taken for a legacy result, and CHECK or DEL
  hand an empty `prevResult` to the plugins, without any error, although a complete one is stored (`c70_blank`; `c70_prev` shows that this is the only anomaly).
* Cache entries are written in place without a lock or a rename. Two overlapping ADDs of one attachment (which the CNI specification forbids) can both succeed and leave the shorter
  entry followed by the end of the longer one: no JSON, so CHECK fails and the listing and garbage collection skip it (`c73_mixture`). If the ADDs are of different
  attachments, or do not overlap while writing, this cannot happen (`c73_apart`, `c73_settled`). A DEL or collection that removes the file while an ADD writes it leaves an ADD that succeeded
  without an entry (example in `Props/Posix`).
* SPEC.md 502 says that `capabilities` "must not be set" in a request for an attachment, and that the first ADD of a chain has no `prevResult`. libcni removes neither: a plugin
  that declares capabilities always gets them, and a `prevResult` in the configuration file reaches the first ADD (`c75_rules`, `c75_add_rules`). GC requests also have
  `cni.dev/attachments`, which SPEC.md does not mention (`c75_gc`).
- **A reader can get a mixture of two entries** (`c76_mixed_read`). Cache files are neither written to a temporary name and renamed nor locked: `cacheAdd` truncates and rewrites the existing file (libcni/api.go:259-297), `getCachedResult` and `GetCachedAttachments` read it with `os.ReadFile`, which reads in pieces. If an attachment is added again while another process is reading its entry, the reader may get the beginning of the old and the end of the new entry; if both have the same length up to that point this is valid JSON, and CHECK or DEL hand to the plugins a previous result that no plugin has returned. `c76_once` shows that this cannot happen as long as no attachment is added twice.
* An attachment whose result was stored by an earlier release is in no listing, and garbage collection never deletes it, however stale (`c79_unlisted`, `c79_gc`); DEL does.
* A plugin configuration that states `type` in two capitalisations uses one plugin as a single configuration and another as the list made of it (`c77_type_needed`).
* Seen while reading, not modelled: a callback that returns a typed nil `*types.Error` counts as success (pkg/skel/skel.go:204-209); `ensureExec` sets `c.exec` without a lock, so two first
  calls on one `CNIConfig` race (libcni/api.go:215-223).
* On a runtime without a cache directory (`NewCNIConfig`), attachments added with `RuntimeConf.CacheDir` are in no listing and are never garbage collected (`c80_unlisted`, `c80_gc`).
* The test plugin records a request in its debug file before it finds that the command log is missing (`c81_log_missing`); with an empty, non-nil `ReportVersionSupport` it panics
  (`PluginSupports` of nothing), and an exit code that is a multiple of 256 is a success for the runtime.
* GC with `GCArgs{}` (a nil list: nothing is valid) sends plugins `null` under both keys, where the specification asks for a list; plugins written with this library cannot tell (`c90_nil`).

## 6. Axioms of each theorem

* `Classical.choice`, `Quot.sound`, `propext`: c01_reads_unique, c01_gte, c01_gt, c01_error_iff, c01_refl, c01_trans, c01_total, c01_strict, c02_selected, c02_plain, c02_malformed, c04_inject_effect, c04_inject_iff, c05_order_irrelevant, c06_stdin, c07_runtime_config, c08_delivered, c08_from_text, c08_add_list, c09_loaded, c09_loads_iff, c10_upconvert, c10_succeeds_iff, c10_succeeds, c11_first_list, c11_unloadable, c11_fallback, c11_total, c11_no_panic, c11_single, c12_add_list, c12_add_network, c13_add_list, c13_add_network, c13_no_faults, c14_del_list, c14_del_bad_version, c14_del_files, c14_del_removes, c14_del_network, c15_check_list, c15_check_network, c16_cached_result, c16_cached_result_network, c16_check, c16_check_network, c16_del, c16_del_network, c16_del_old, c16_faithful, c16_faithful_network, c17_cached_config, c17_cached_config_network, c17_exact, c18_history, c18_after_add, c18_after_del, c19_collision, c20_add_list, c20_add_network, c21_all, c21_container, c21_filter, c21_history, c21_added, c22_execs, c22_valid_not_deleted, c22_files, c22_kept, c22_history, c23_gc, c23_complete, c23_history, c24_loaded_sound, c24_no_crash, c24_crash, c24_file_crashes, c25_status, c25_old, c25_outcome, c26_validate, c27_reports_requested, c30_routes_kept, c32_created, c32_roundtrip, c32_roundtrip_any, c32_roundtrip_detect, c32_roundtrip_std, c33_unnamed, c33_result, c34_version, c34_capital, c34_mismatch, c35_only_valid, c35_valid_called, c36_environment, c36_no_command, c36_stdin, c36_undecodable, c36_name, c36_version_undecodable, c36_version_mismatch, c36_version_malformed, c36_callback_error, c36_codes, c36_unknown_command, c37_version, c37_decodes, c38_own_namespace, c38_success, c39_add_list, c39_add_network, c39_check_list, c39_check_network, c39_del_list, c39_del_network, c39_gc, c39_gc_del, c39_status, c40_plugin_env, c40_delegate_env, c41_add, c41_check, c41_del, c41_status, c41_gc, c41_delegate_accepts, c42_values, c42_load_values, c42_ip, c42_load, c43_interface_name, c45_success, c45_failure, c45_busy, c45_false_when_busy, c46_add_names, c46_del_names, c46_add_list, c46_add_network, c46_check_list, c46_check_network, c46_del_list, c46_del_network, c46_status, c46_gc, c46_delegate_add, c46_delegate, c46_skel, c46_skel_answer, c46_skel_add, c47_json, c48_add_list, c48_add_network, c48_del_list, c48_del_network, c48_gc, c48_torn_rejected, c48_torn_listing, c48_recover_list, c48_stuck, c48_history, c48_never_misread, c48_never_mislisted, c49_cache, c49_untouched, c50_add, c50_add_network, c50_del, c50_del_network, c50_check, c50_check_network, c50_status, c50_gc, c50_loaded_file, c50_loaded_name, c52_from_file, c53_output, c53_returned, c53_add_network, c53_add_list, c53_skel_answer, c54_stdin, c54_bare, c54_add_list, c54_add_network, c54_check, c54_del, c54_gc, c54_status, c55_get100, c55_get040, c55_get020, c56_shared, c57_skel, c57_validate, c58_starting_from, c59_round_trip, c59_keys, c59_pass_on, c60_up_down, c60_add_list, c60_add_other_format, c60_del_old, c61_add, c61_env, c61_add_del, c61_gc_all, c63_plain_sound, c63_add_list, c63_add_network, c63_del_list, c63_del_network, c63_check_list, c63_check_network, c63_status, c63_gc, c64_life, c64_life_network, c65_listing, c65_gc, c65_gc_removes, c66_add_list, c66_composed, c66_add_network, c67_only_found, c67_inside, c68_add, c68_check, c68_del, c68_status, c68_gc, c68_added_is_valid, c68_add_network, c68_del_network, c68_check_network, c68_added_is_valid_network, c69_add, c69_del, c69_check, c69_status, c69_gc, c69_del_network, c69_check_network, c69_add_network, c70_prev, c70_faithful, c70_cached, c72_gc, c72_listing, c73_refine, c73_prev, c73_gc, c73_answers, c73_now, c73_settled, c73_kept, c73_apart, c74_prev, c74_gc, c74_answers, c74_now, c74_posix, c74_posix_prev, c75_add_list, c75_add_network, c75_check_list, c75_check_network, c75_del_list, c75_del_network, c75_status, c75_gc, c75_add_rules, c76_prev, c76_gc, c76_answers, c76_now, c76_ended, c76_kept, c77_check, c77_add, c77_add_list, c77_cached, c77_del, c77_del_list, c77_type, c77_validate, c77_capabilities, c77_validate_caps, c78_retry, c78_retry_network, c78_gc_again, c79_result, c79_result_network, c79_check, c79_check_network, c79_del, c79_del_network, c79_config, c79_unlisted, c79_gc, c80_where, c80_unlisted, c80_gc, c80_elsewhere, c81_debug_file, c81_records, c81_logs, c81_log, c81_last, c81_reports, c81_add_list, c81_del_list, c81_check_list, c81_status, c82_listed, c82_asks, c82_result, c82_check, c82_deleted, c82_collected, c82_stays, Example.c82_concurrent_listing, c83_address, c83_only, c83_net, c83_json, c84_syntax, c84_unambiguous, c84_reprint, c84_refused, c84_spelling, c84_characters, c84_repair, c85_address, c85_network, c85_unambiguous, c85_documents, c86_names, c86_read, c86_only, c86_unambiguous, c86_refused, c86_from_bytes, c86_config, c87_apart, c87_extension, c87_listed, c88_entry, c88_attachment, c88_config, c88_result, c88_add_list, c88_add, c88_base64, c89_nearest, c89_too_large, c89_decoded, c89_refused, c89_refused_args, c89_once, c89_inject, c89_load, c89_stdin, c89_prev, c89_tool, c90_nil, c90_empty
* `propext`: c03_accepts_iff, c04_null_panics, c07_own_runtime_config_passes, c08_large_integers_change, c11_unreadable, c19_distinct, c22_disabled, c27_one_converter, c27_same_version, c27_getAsVersion, c28_family_needed, c30_address_needed, c34_absent, c46_garbage, c47_mapped_changes_family, c50_loaded_conf, c55_unset, c55_registered, c60_empty, c60_undecodable, c75_rules, c77_type_needed, c81_touches, c81_versions
* `Quot.sound`, `propext`: c08_large_changed, c08_small_integers_kept, c09_no_panic, c10_may_fail, c11_byte_order, c11_order_irrelevant, c19_collision_effect, c20_empty_list_escapes, c20_del_escapes, c21_unreadable, c23_unlisted, c26_validate_network, c27_unknown_target, c27_unknown_source, c27_every_pair, c28_up_down, c28_up_down_lossless, c28_down_up, c28_same_format_040, c28_same_format_100, c29_from_040, c29_from_100, c29_fails_iff, c30_via_040, c30_via_100, c31_no_panic, c31_null_ip_panics, c31_null_interface_panics, c31_null_route_panics, c32_exact_needed, c33_named, c33_error, c34_ok, c34_unsupported, c34_empty_version_rejected, c39_other_spelling, c41_same_environment, c42_parse_iff, c42_roundtrip, c42_load_malformed, c43_container_id, c43_network_name, c44_find_iff, c44_find_fails_iff, c44_unix, c44_no_escape, c46_error_doc, c46_no_output, c46_undecodable, c47_ipv4, c47_ipv6, c48_readonly, c49_projection, c49_alone, c50_reads, c50_null_crashes, c51_cnitool_id_valid, c51_cnitool_id_injective, c54_loaded_file, c54_loaded, c54_other_format, c55_unset_refused, c55_creators, c55_converters, c55_one_converter, c56_value, c56_fails, c56_keeps, c56_address_bytes, c56_same, c56_independent, c56_receiver, c57_asks, c57_document, c57_not_document, c58_all, c60_effects, c60_empty_old, c61_unique, c61_check, c61_del, c61_gc, c61_status, c61_unknown, c61_refused, c62_interface040, c62_interface100, c62_ip020, c62_ip040, c62_ip100, c62_route, c62_dns, c63_unreadable_cached, c68_other_spelling, c70_blank, c71_now, c71_settled, c71_kept, c73_mixture, c74_kept, c76_once, Example.c76_mixed_read, c80_ignored, c80_ignored_network, c81_silent, c81_refuses, c81_log_missing, c81_write_fails, c81_which, c81_process, c81_exit, c82_unremoved, c82_once, c87_spot, c87_clean, c87_spelling, c87_entry, c87_plugin, c87_search_path, c87_beside, c87_absolute
