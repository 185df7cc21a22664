{"id": "C01", "title": "Version comparison is the numeric lexicographic preorder", "statement": "version.GreaterThanOrEqualTo(a,b) / GreaterThan(a,b) return an error exactly when a or b is not a well-formed version (1-3 dot-separated Go decimal integers, or the empty string), and otherwise agree with the lexicographic order of (major,minor,micro), where missing components are 0 and the empty string means 0.1.0. Hence GreaterThanOrEqualTo is reflexive, transitive and total and GreaterThan is its strict part.", "quantifier": "all byte strings a, b (and c for transitivity)", "why_tests_cant": "ranges over every pair/triple of strings; the test table has about a dozen pairs", "anchors": ["pkg/version/plugin.go:ParseVersion", "pkg/version/plugin.go:GreaterThanOrEqualTo", "pkg/version/plugin.go:GreaterThan"]}
{"id": "C02", "title": "cniVersions selection picks the highest version this library supports", "statement": "When a configuration list has a cniVersions array, the CNIVersion of the loaded list is one of the declared cniVersions/cniVersion entries that is not greater than the library's current version, and no other such entry is greater than it; if every declared entry is too new, the original cniVersion is kept; a malformed entry makes loading fail.", "quantifier": "all configuration documents with any number and order of cniVersions entries", "why_tests_cant": "the sort comparator is applied to arbitrary lists, in any order and with duplicates or equal-valued different strings", "anchors": ["libcni/conf.go:NetworkConfFromBytes", "pkg/version/plugin.go:GreaterThan"]}
{"id": "C03", "title": "Version reconciliation accepts exactly the supported versions", "statement": "A plugin accepts a configuration version if and only if that exact version string is in its supported list, and the reported incompatibility carries the config version and the full supported list.", "quantifier": "all config versions and all supported lists", "why_tests_cant": "universal over lists and strings", "anchors": ["pkg/version/reconcile.go:Reconciler.CheckRaw"]}
{"id": "C04", "title": "Injecting values into a plugin config preserves every other key", "statement": "InjectConf(orig, kv) succeeds exactly when orig parses to a JSON object whose numbers fit float64, no injected key is empty, no injected value is nil, and the result still decodes as a plugin config with a type. In that case the new Bytes parse to an object whose value at each injected key is the injected value and at every other key is the original value as Go decodes it into interface{}; no other key appears.", "quantifier": "all plugin configuration byte strings and all maps of injected values", "why_tests_cant": "must hold for arbitrary user JSON, including nested, duplicate and unknown keys", "anchors": ["libcni/conf.go:InjectConf", "libcni/conf.go:NetworkPluginConfFromBytes"]}
{"id": "C05", "title": "Injection does not depend on map iteration order", "statement": "For every configuration except the document null (which no loader returns, and on which injection crashes), InjectConf gives the same resulting configuration bytes (or an error in both cases) whatever order the Go runtime enumerates the map of injected values.", "quantifier": "all permutations of all injected maps and all configurations other than null", "why_tests_cant": "Go randomises the order; a test sees a few of n! orders", "anchors": ["libcni/conf.go:InjectConf"]}
{"id": "C06", "title": "Plugin stdin configuration is exactly the transformed plugin config", "statement": "The configuration a plugin receives on stdin for ADD, CHECK and DEL is the plugin's own configuration with name and cniVersion set to the list's, prevResult set to the previous/cached result when there is one (and otherwise left as in the file), runtimeConfig set to the filtered capability arguments when that set is non-empty, and every other key unchanged.", "quantifier": "all lists, plugin configs, runtime configs and previous results", "why_tests_cant": "universal over JSON documents and runtime parameters", "anchors": ["libcni/api.go:buildOneConfig", "libcni/api.go:injectRuntimeConfig", "libcni/conf.go:InjectConf"]}
{"id": "C07", "title": "Only capabilities a plugin enables reach it", "statement": "runtimeConfig delivered to a plugin contains a key if and only if the plugin's capabilities map has that key set to true and the runtime supplied a value for it, and then the value is the one supplied; capability arguments never leak to plugins that did not enable them.", "quantifier": "all capability maps and all capability-argument maps", "why_tests_cant": "universal over pairs of maps", "anchors": ["libcni/api.go:injectRuntimeConfig"]}
{"id": "C08", "title": "Config integers survive unchanged only inside the exact float64 range", "statement": "Numbers in plugin configuration are passed through Go float64: every integer of magnitude at most 2^53, at any depth of the configuration, is delivered to the plugin with the same value, and there are larger integers that are delivered with a different value (the spec's pass-through-unchanged requirement is violated for them).", "quantifier": "all integer literals at all places in all configuration documents, all operations", "why_tests_cant": "universal over integers; the failing region starts beyond what tests use", "anchors": ["libcni/conf.go:InjectConf", "libcni/conf.go:NetworkConfFromBytes"]}
{"id": "C09", "title": "Loading a configuration list is total and decides exactly the documented cases", "statement": "NetworkConfFromBytes never crashes; it fails exactly when the document is not a JSON object, name is missing or not a string, cniVersion/cniVersions/disableCheck/disableGC/loadOnlyInlinedPlugins are ill-typed, plugins is present but not a non-empty array of objects with a type, or plugins is absent while loadOnlyInlinedPlugins is set; otherwise the loaded list carries the declared name, flags and the inlined plugins in order.", "quantifier": "all byte strings", "why_tests_cant": "universal over documents", "anchors": ["libcni/conf.go:NetworkConfFromBytes"]}
{"id": "C10", "title": "A single plugin config up-converts to the equivalent one-plugin list", "statement": "ConfListFromConf of any plugin config with a name that loads yields a list with the same name and version and exactly one plugin, whose configuration decodes to the same JSON object.", "quantifier": "all plugin configuration documents accepted by NetworkPluginConfFromBytes", "why_tests_cant": "universal over JSON documents, goes through marshal and re-parse", "anchors": ["libcni/conf.go:ConfListFromConf", "libcni/conf.go:ConfFromBytes"]}
{"id": "C11", "title": "Network lookup by name is deterministic and first-match", "statement": "LoadNetworkConf(dir,name) returns the first .conflist file in byte order whose network name matches, provided every earlier .conflist loads; an unloadable earlier file makes the call fail; only if no list matches is the first matching .conf/.json used, which is the one LoadConf(dir,name) returns, with the same rule for earlier unloadable files. A directory that cannot be read makes the call fail, and the call never panics. The outcome does not depend on the order the directory is enumerated.", "quantifier": "all directory contents and enumeration orders", "why_tests_cant": "universal over directories and orders", "anchors": ["libcni/conf.go:LoadNetworkConf", "libcni/conf.go:LoadConf", "libcni/conf.go:ConfFiles"]}
{"id": "C12", "title": "ADD runs the plugins in order, chaining results, and stops at the first failure", "statement": "AddNetworkList executes plugin 1,2,...,n in list order, each at most once; plugin k+1 is executed only after plugin k succeeded and receives plugin k's result as prevResult; plugin 1 receives no injected prevResult; on success the returned result is the last plugin's result; on a failure no later plugin is executed.", "quantifier": "all plugin lists, plugin behaviours and histories", "why_tests_cant": "universal over list length and arbitrary plugin behaviour", "anchors": ["libcni/api.go:AddNetworkList", "libcni/api.go:addNetwork"]}
{"id": "C13", "title": "A failed ADD leaves the cache untouched", "statement": "If AddNetworkList/AddNetwork fails because of any plugin or validation failure, no cache file is created, changed or removed.", "quantifier": "all lists, plugin behaviours, cache states", "why_tests_cant": "must hold for each possible failing step", "anchors": ["libcni/api.go:AddNetworkList", "libcni/api.go:AddNetwork"]}
{"id": "C14", "title": "DEL runs the plugins in reverse order and keeps the cache on failure", "statement": "DelNetworkList executes plugin n,...,1, each at most once, stops at the first failure and then reports an error and leaves a readable cache entry in place so DEL can be retried; only when all plugins succeeded is the entry of this attachment, and no other file, removed.", "quantifier": "all plugin lists, plugin behaviours, cache contents", "why_tests_cant": "universal over list length, failure position and cache state", "anchors": ["libcni/api.go:DelNetworkList", "libcni/api.go:delNetwork", "libcni/api.go:cacheDel"]}
{"id": "C15", "title": "CHECK is gated by version and disableCheck", "statement": "CheckNetworkList executes no plugin and fails if the list version is below 0.4.0 or malformed; executes no plugin and succeeds if disableCheck is set; otherwise executes plugins in order with the cached result as prevResult, stopping at the first failure. CHECK never changes the cache.", "quantifier": "all lists, runtime configs, cache states, plugin behaviours", "why_tests_cant": "universal over versions and states", "anchors": ["libcni/api.go:CheckNetworkList", "libcni/api.go:CheckNetwork"]}
{"id": "C16", "title": "CHECK and DEL see the result of the last successful ADD", "statement": "After a successful ADD, and as long as that attachment's cache entry is not overwritten, every plugin of a later CHECK or DEL with config version 0.4.0 or higher receives as prevResult a result equal to the one ADD returned, converted to the configuration's version; for versions below 0.4.0 DEL injects no prevResult.", "quantifier": "all results, lists and intervening operations on other attachments", "why_tests_cant": "end-to-end over arbitrary results, histories and encodings", "anchors": ["libcni/api.go:cacheAdd", "libcni/api.go:getCachedResult", "libcni/api.go:DelNetworkList", "libcni/api.go:CheckNetworkList"]}
{"id": "C17", "title": "Cached runtime configuration round-trips", "statement": "After a successful ADD, GetNetworkListCachedConfig for the same attachment returns exactly the configuration bytes given to ADD and a runtime config whose args and capability arguments are those given to ADD, for every byte string and argument list.", "quantifier": "all configuration byte strings, args and capability arguments", "why_tests_cant": "goes through base64 and JSON for arbitrary bytes", "anchors": ["libcni/api.go:cacheAdd", "libcni/api.go:getCachedConfig"]}
{"id": "C18", "title": "The cache behaves like a map under any operation history", "statement": "For any sequence of ADD, DEL, CHECK and cache reads, a cache read for an attachment returns what the most recent acknowledged ADD for the same cache key stored, or nothing if a DEL has succeeded since (or there was no ADD).", "quantifier": "all operation histories of any length", "why_tests_cant": "universal over histories", "anchors": ["libcni/api.go:cacheAdd", "libcni/api.go:cacheDel", "libcni/api.go:getCachedConfig", "libcni/api.go:getCachedResult"]}
{"id": "C19", "title": "Different attachments use different cache entries", "statement": "Two attachments that differ in network name, container ID or interface name never share a cache entry. (False for this code: names may contain '-', the separator; true when container IDs and interface names contain no '-'.)", "quantifier": "all pairs of valid attachment triples", "why_tests_cant": "universal over pairs of triples; the collision needs specially chosen names", "anchors": ["libcni/api.go:getCacheFilePath", "pkg/utils/utils.go:ValidateContainerID"]}
{"id": "C20", "title": "Cache files stay inside the results directory", "statement": "Whatever network name, container ID and interface name are given, a successful ADD only ever writes a file directly inside <cacheDir>/results. (DEL does not validate names: there are inputs for which it removes a file outside that directory.)", "quantifier": "all names accepted by validation; all names for DEL", "why_tests_cant": "universal over path strings including '..' and '/'", "anchors": ["libcni/api.go:getCacheFilePath", "libcni/api.go:cacheDel", "libcni/api.go:addNetwork", "pkg/utils/utils.go:ValidateInterfaceName"]}
{"id": "C21", "title": "GetCachedAttachments(id) is exactly the attachments of that container", "statement": "For a cache populated through ADD, GetCachedAttachments(id) returns, in file-name order, exactly those attachments of GetCachedAttachments(\"\") whose container ID is id; the file-name prefilter never hides an attachment, and unreadable or foreign files are skipped without failing.", "quantifier": "all cache directory contents, all container IDs", "why_tests_cant": "the substring prefilter must be right for every combination of names", "anchors": ["libcni/api.go:GetCachedAttachments"]}
{"id": "C22", "title": "GC never deletes valid attachments or other networks", "statement": "GCNetworkList issues DEL only for cached attachments of the given network whose (container ID, interface name) is not in the valid set; it never executes DEL for a valid attachment and never removes the cache entry of a valid attachment or of another network; with disableGC nothing is executed or changed.", "quantifier": "all cache contents, valid sets, lists and plugin behaviours", "why_tests_cant": "universal over cache states and failures", "anchors": ["libcni/api.go:GCNetworkList"]}
{"id": "C23", "title": "GC attempts every stale attachment and every plugin despite failures", "statement": "GCNetworkList issues a DEL for every stale cached attachment of the network and, when the list version is at least 1.1.0, a GC to every plugin exactly once, in order and carrying the valid attachments, even if earlier DELs or GCs failed; it returns success iff nothing failed. When it succeeds and the cache could be listed, no stale attachment is left in the cache. (When the cache cannot be listed it does nothing and reports success.)", "quantifier": "all failure patterns, lists and cache contents", "why_tests_cant": "universal over failure subsets", "anchors": ["libcni/api.go:GCNetworkList", "libcni/api.go:gcNetwork"]}
{"id": "C24", "title": "GC does not crash on lists produced by the loader", "statement": "For every list loaded from configuration text (plugins inline) GCNetworkList does not panic, except when it converts a cached result that has null list entries; for a list with a plugin config that cannot be rewritten as JSON (hand-built, or loaded from a plugin file of its own) it panics (nil dereference).", "quantifier": "all loaded lists; existence of a crashing hand-built one", "why_tests_cant": "universal over loaded configurations", "anchors": ["libcni/api.go:GCNetworkList", "libcni/conf.go:InjectConf"]}
{"id": "C25", "title": "STATUS asks plugins in order and stops at the first error", "statement": "GetStatusNetworkList executes STATUS on each plugin in order, with the list's name and version injected, until the first failure, which it returns unchanged; below 1.1.0 or with a malformed version it executes nothing and reports success.", "quantifier": "all lists and plugin behaviours", "why_tests_cant": "universal over lists and behaviours", "anchors": ["libcni/api.go:GetStatusNetworkList", "libcni/api.go:getStatusNetwork"]}
{"id": "C26", "title": "Validation checks every plugin and reports exactly the enabled capabilities", "statement": "ValidateNetworkList succeeds iff every plugin is found and reports support for the list's version (empty version meaning 0.1.0), and then returns exactly the set of capabilities enabled by some plugin, without duplicates.", "quantifier": "all lists, plugins and version reports", "why_tests_cant": "universal over lists", "anchors": ["libcni/api.go:ValidateNetworkList", "libcni/api.go:validatePlugin"]}
{"id": "C27", "title": "Every pair of spec versions is convertible and yields the requested version", "statement": "For any two supported result versions there is exactly one registered conversion; a successful conversion yields a result reporting the requested version; converting to the result's own version returns it unchanged; converting to an unknown version is an error.", "quantifier": "all version pairs, all results", "why_tests_cant": "universal over results; covers the full registration table", "anchors": ["pkg/types/internal/convert.go:Convert", "pkg/types/020/types.go", "pkg/types/040/types.go", "pkg/types/100/types.go"]}
{"id": "C28", "title": "0.3/0.4 and 1.x results convert back and forth without loss", "statement": "Converting a 0.3.x/0.4.0 result to 1.x and back gives back the same interfaces, IPs, routes and DNS, provided each IP's declared family matches its address; converting 1.x to 0.4.0 and back loses exactly interface MTU, socket path and PCI id.", "quantifier": "all results with any number of interfaces, IPs and routes", "why_tests_cant": "universal over result contents", "anchors": ["pkg/types/040/types.go", "pkg/types/100/types.go"]}
{"id": "C29", "title": "Down-conversion to 0.2.0 keeps the first address of each family", "statement": "Converting to 0.1.0/0.2.0 keeps exactly the first IPv4 and the first IPv6 address with their gateways, assigns each route to the address of its destination's family in order, keeps DNS, and fails exactly when there is no address of either family.", "quantifier": "all 0.3/0.4/1.x results", "why_tests_cant": "universal over result contents and orders", "anchors": ["pkg/types/040/types.go:convertTo02x", "pkg/types/100/types.go:convertTo02x"]}
{"id": "C30", "title": "0.2.0 results survive a round trip through newer versions", "statement": "Converting a 0.1.0/0.2.0 result to 0.3/0.4/1.x and back gives back its addresses, gateways and DNS, and its routes when each route is of the family of its section and has only destination and gateway.", "quantifier": "all 0.2.0 results", "why_tests_cant": "universal over result contents", "anchors": ["pkg/types/040/types.go:convertFrom02x", "pkg/types/040/types.go:convertTo02x"]}
{"id": "C31", "title": "Conversion never crashes on results without null entries", "statement": "Converting any result whose ips/interfaces/routes lists contain no null entry never panics; a result with a null list entry (accepted by the decoder) makes some conversions panic.", "quantifier": "all results; existence of a crashing decoded result", "why_tests_cant": "universal over result contents", "anchors": ["pkg/types/100/types.go:convertIPConfigFrom040", "pkg/types/040/types.go:convertTo02x"]}
{"id": "C32", "title": "Result JSON round-trips", "statement": "Decoding the JSON encoding of a result of any supported version gives back the same result, for every result with printable addresses and integers in the exact float64 range.", "quantifier": "all results", "why_tests_cant": "universal over result contents and encodings", "anchors": ["pkg/types/020/types.go", "pkg/types/040/types.go", "pkg/types/100/types.go", "pkg/types/types.go:IPNet"]}
{"id": "C33", "title": "A plugin result without a version takes the configuration's version", "statement": "When a plugin's ADD output has no, an empty or a non-string cniVersion, the runtime interprets it as being in the configuration's version (0.1.0 if that is empty) with all other keys unchanged; otherwise the plugin's output is used byte for byte in its own version; output null counts as an empty object.", "quantifier": "all plugin outputs and configurations", "why_tests_cant": "universal over JSON documents", "anchors": ["pkg/invoke/exec.go:fixupResultVersion", "pkg/invoke/exec.go:ExecPluginWithResult"]}
{"id": "C34", "title": "prevResult parsing in plugins is version-checked", "statement": "ParsePrevResult leaves a config without prevResult unchanged; otherwise it yields a result in a version implemented by the result type of the config's version, and fails for unsupported config versions or a prevResult of another result type's version. The version is the one the prevResult states; if it states none (under the name cniVersion; or, under the name CNIVersion, an empty one), it is the config's.", "quantifier": "all plugin configurations and prevResults", "why_tests_cant": "universal over documents, depends on case-insensitive key matching and key order", "anchors": ["pkg/version/version.go:ParsePrevResult"]}
{"id": "C35", "title": "A plugin callback runs only for a fully validated request", "statement": "In a plugin using skel, the ADD/CHECK/DEL/GC/STATUS callback is invoked at most once per process and only if all environment variables required for the command are non-empty, container ID, interface name and network name pass validation, and the config version is one the plugin supports (and at least 0.4.0 for CHECK, 1.1.0 for GC/STATUS); the callback invoked is the one for the command and it receives exactly the environment values and stdin bytes.", "quantifier": "all environments, stdin contents, supported version lists and callbacks", "why_tests_cant": "universal over environments and documents", "anchors": ["pkg/skel/skel.go:getCmdArgsFromEnv", "pkg/skel/skel.go:pluginMain", "pkg/skel/skel.go:checkVersionAndCall"]}
{"id": "C36", "title": "Plugin errors carry the specified error codes", "statement": "skel reports code 4 for missing/invalid environment variables, 3 never for a non-empty container ID, 6 for undecodable config, 7 for a missing/invalid network name, 1 for version mismatch, the callback's own error unchanged if it is a CNI error and code 999 otherwise.", "quantifier": "all environments, stdin contents and callbacks", "why_tests_cant": "universal over inputs", "anchors": ["pkg/skel/skel.go:pluginMain", "pkg/skel/skel.go:validateConfig"]}
{"id": "C37", "title": "VERSION works without configuration", "statement": "With CNI_COMMAND=VERSION a plugin prints its supported versions whatever the other environment variables and stdin are, invokes no callback, and the printed document decodes to exactly the same supported versions.", "quantifier": "all environments, stdin contents and version lists", "why_tests_cant": "universal over environments", "anchors": ["pkg/skel/skel.go:pluginMain", "pkg/version/plugin.go:PluginDecoder.Decode"]}
{"id": "C38", "title": "ADD into the plugin's own network namespace is refused", "statement": "A plugin invoked with CNI_NETNS equal to its own network namespace (without override) reports error 8. (In this code the check comes after the callback, so the callback has already run.)", "quantifier": "all environments and callbacks", "why_tests_cant": "depends on namespace identity and order of effects", "anchors": ["pkg/skel/skel.go:pluginMain", "pkg/ns/ns_linux.go:CheckNetNS"]}
{"id": "C39", "title": "Runtime invocations are accepted by conforming plugins", "statement": "Every ADD invocation issued by AddNetworkList with a non-empty network namespace and plugin path passes a skel-based plugin's environment and configuration validation, and the plugin callback observes exactly the container ID, namespace, interface name, args string and path the runtime was given.", "quantifier": "all runtime configs and lists for which the runtime executes a plugin", "why_tests_cant": "end-to-end composition of two independent validations over all inputs", "anchors": ["libcni/api.go:addNetwork", "pkg/invoke/args.go:AsEnv", "pkg/skel/skel.go:getCmdArgsFromEnv"]}
{"id": "C40", "title": "Plugin environment is the process environment overridden by the CNI variables", "statement": "The environment passed to a plugin contains each CNI_* variable exactly once with the value from the invocation, every other variable of the process environment exactly once with its last value, entries without '=' unchanged, and nothing else, whatever order the map is enumerated in.", "quantifier": "all process environments and arguments, all map orders", "why_tests_cant": "universal over environments with duplicates; order is random", "anchors": ["pkg/invoke/args.go:Args.AsEnv", "pkg/invoke/args.go:dedupEnv"]}
{"id": "C41", "title": "Delegation passes the environment through with only the command changed", "statement": "DelegateAdd/Check/Del/Status/GC execute the named plugin found on CNI_PATH with the caller's configuration bytes and the process environment in which only CNI_COMMAND is replaced by the requested verb.", "quantifier": "all environments, plugin names and configurations", "why_tests_cant": "universal over environments", "anchors": ["pkg/invoke/delegate.go", "pkg/invoke/args.go:DelegateArgs.AsEnv"]}
{"id": "C42", "title": "CNI_ARGS round-trips between runtime and plugin", "statement": "The CNI_ARGS string built from a list of key/value pairs without '=' and ';' is read back by LoadArgs as the same pairs, and by cnitool's parseArgs as well if the list and all names and values are non-empty (parseArgs rejects the others); LoadArgs rejects unknown keys unless IgnoreUnknown is true, whatever the position of IgnoreUnknown, and malformed pairs always. A field that is named holds afterwards what the last text given for it stands for: a truth value is 1 or true, 0 or false in any letter case, a text field takes every text, a field of type net.IP the empty text and the texts of addresses (C85); any other text is refused, and fields that are not named keep what they held.", "quantifier": "all pair lists and all containers", "why_tests_cant": "universal over lists and strings", "anchors": ["pkg/invoke/args.go:stringify", "pkg/types/args.go:LoadArgs", "cnitool/cnitool.go:parseArgs"]}
{"id": "C43", "title": "Name validation accepts exactly the documented names", "statement": "ValidateContainerID/ValidateNetworkName accept exactly the non-empty strings over [a-zA-Z0-9_.-] starting with an alphanumeric; ValidateInterfaceName accepts exactly the strings of 1 to 15 bytes other than '.' and '..' without '/', ':' or white space.", "quantifier": "all byte strings", "why_tests_cant": "universal over strings", "anchors": ["pkg/utils/utils.go"]}
{"id": "C44", "title": "Plugin lookup returns the first match and never escapes the search path by name", "statement": "FindInPath fails for empty names, names containing a path separator and empty path lists; otherwise it returns the first candidate that is a regular file, in the order of the directories and, in each, of the configured file extensions, and fails exactly when none is. With the extensions of Unix what it returns is a direct child of one of the directories.", "quantifier": "all names, path lists, extension lists and file systems", "why_tests_cant": "universal over file systems", "anchors": ["pkg/invoke/find.go:FindInPath"]}
{"id": "C45", "title": "A reported plugin success means the plugin ran successfully", "statement": "Executing a plugin reports success exactly if the first of at most six attempts that does not find the binary busy (text file busy) ran and exited successfully, with what was written as output, or if all six attempts found it busy. So a reported success means that the plugin ran successfully, except that a binary that stays busy is reported as a success with empty output although it never ran. Any other failure is reported as an error.", "quantifier": "all sequences of process outcomes", "why_tests_cant": "needs a failing sequence of six attempts over six seconds", "anchors": ["pkg/invoke/raw_exec.go:ExecPlugin"]}
{"id": "C46", "title": "Plugin error details reach the caller unchanged", "statement": "If a plugin fails and prints a CNI error document, the error returned by the runtime API carries the same code, message and details, through every layer of wrapping; without output, stderr or the exit error is reported. A failing ADD or DEL of a list names, in front of that error, the type and name of the plugin at which it stopped.", "quantifier": "all plugin outputs and API operations", "why_tests_cant": "universal over outputs and layers", "anchors": ["pkg/invoke/raw_exec.go:pluginErr", "libcni/api.go:AddNetworkList"]}
{"id": "C47", "title": "Address text round-trips and keeps host bits", "statement": "Parsing the JSON form of an IP network gives back the same address (including host bits) and mask, for every IPv4 and IPv6 address and prefix length.", "quantifier": "all addresses and prefix lengths", "why_tests_cant": "2^128 addresses times prefix lengths", "anchors": ["pkg/types/types.go:ParseCIDR", "pkg/types/types.go:IPNet"]}
{"id": "C48", "title": "Crash safety of the attachment cache", "statement": "If the runtime crashes at any point of an ADD or DEL (including in the middle of writing the cache file), cache entries of all other attachments are intact, and the interrupted attachment's entry is either the old one, absent, or a torn file that every reader rejects rather than misreads; a subsequent DEL of a list with the attachment still runs all plugins and cleans up.", "quantifier": "all crash points, all lists, all results and all truncation lengths", "why_tests_cant": "universal over crash points and byte prefixes", "anchors": ["libcni/api.go:cacheAdd", "libcni/api.go:DelNetworkList", "libcni/api.go:getCachedResult"]}
{"id": "C49", "title": "Operations on different attachments do not interfere", "statement": "Running API operations for attachments with different cache entries concurrently, in any interleaving, leaves each attachment's cache entry as if its operations had run alone in the same order.", "quantifier": "all interleavings of all operations", "why_tests_cant": "universal over schedules", "anchors": ["libcni/api.go"]}
{"id": "C50", "title": "Missing optional data never crashes the runtime", "statement": "ADD, DEL, CHECK, STATUS and GC never panic for lists obtained from the configuration loader, whatever the plugins print and whatever the cache contains, except through conversion of results with null entries.", "quantifier": "all loaded lists, plugin outputs and cache contents", "why_tests_cant": "universal over inputs", "anchors": ["libcni/api.go", "libcni/conf.go"]}
{"id": "C51", "title": "cnitool container IDs are always valid", "statement": "The container ID cnitool derives from the namespace path is accepted by the container ID validation for every path and every hash value.", "quantifier": "all namespace paths / hash outputs", "why_tests_cant": "universal over hash values", "anchors": ["cnitool/cnitool.go:main"]}
{"id": "C52", "title": "A list file's plugin folder is appended, in file-name order, unless only inlined plugins are wanted", "statement": "A configuration list loaded from a file consists of the plugins inlined in it, in order, followed, unless loadOnlyInlinedPlugins is set, by the plugins in the .conf files of the folder named after the network beside the list file, in file-name order (directories and other extensions ignored, a missing folder adds nothing); loading fails rather than give a list with no plugins.", "quantifier": "all list files, all folder contents and enumeration orders", "why_tests_cant": "universal over documents and directory contents", "anchors": ["libcni/conf.go:NetworkConfFromFile", "libcni/conf.go:NetworkPluginConfsFromFiles"]}
{"id": "C53", "title": "What a plugin prints is what the runtime reads", "statement": "A result that a plugin prints for a version with PrintResult is read by the runtime, whatever configuration with a readable version the plugin was given, as exactly that result converted to that version (addresses in parsed form); a plugin built with skel that succeeds answers with exactly what its callback printed.", "quantifier": "all results with printable contents, all versions and configurations", "why_tests_cant": "universal over result contents, versions and configurations; spans encoder, indentation, version detection and decoder", "anchors": ["pkg/types/types.go:PrintResult", "pkg/types/100/types.go:PrintTo", "pkg/invoke/exec.go:ExecPluginWithResult", "pkg/skel/skel.go:PluginMainFuncs"]}
{"id": "C54", "title": "Plugins decode exactly the configuration, previous result and valid attachments the runtime sent", "statement": "A plugin that decodes its standard input as a PluginConf gets its own entry of the configuration list (type, capabilities, ipam, dns and, without a previous result, prevResult) with the name and version of the list. On ADD of a list the second and later plugins parse the result of the plugin before them exactly, provided it is in the result format of the list's version, and get an error otherwise; on a later CHECK or DEL all plugins parse the cached result of the ADD, converted to their version, exactly. On GC the plugins decode exactly the attachments the caller listed as valid.", "quantifier": "all configurations that spell the common fields plainly and once, all names, versions, results with printable contents, valid lists and plugin answers", "why_tests_cant": "universal over configurations and results; spans injection, printing, re-reading, version detection and conversion on both sides of the process boundary", "anchors": ["libcni/api.go:buildOneConfig", "libcni/api.go:addNetwork", "libcni/api.go:GCNetworkList", "pkg/types/types.go:PluginConf", "pkg/version/version.go:ParsePrevResult"]}
{"id": "C55", "title": "GetResult and NewResultFromResult give the implemented version or an error", "statement": "For a result that states a version of its own type, GetResult and NewResultFromResult of the 0.4.0 and 1.x packages, and GetResult of the 0.2.0 package, give a value of the package's type reporting the package's implemented version and equal to the conversion to that version, or (0.2.0 only) an error when there is no address; they never panic. A result that states no version is taken to be of its type's newest version by GetResult of the newer packages, and is refused with an error by the others. Registering converters (creators) does not panic exactly if no two are for the same pair of versions (the same version), so there is only one to be found; in particular the registrations at initialisation do not panic.", "quantifier": "all results without null list entries", "why_tests_cant": "universal over results and version pairs", "anchors": ["pkg/types/020/types.go:GetResult", "pkg/types/040/types.go:GetResult", "pkg/types/040/types.go:NewResultFromResult", "pkg/types/100/types.go:GetResult", "pkg/types/100/types.go:NewResultFromResult", "pkg/types/internal/convert.go:RegisterConverter"]}
{"id": "C56", "title": "A converted result and the original can be changed independently", "statement": "Converting a result never changes anything that was in memory before, except that GetAsVersion fills in an unset version of its receiver. A result converted to another version consists of new structs, slices and integers, so that changing it afterwards (its fields, interfaces, addresses, routes, DNS entries, interface indexes) does not change the original, nor the other way round; only the bytes inside addresses are shared. Two exceptions: conversion to the version the result already has returns the very same result, and conversion between 1.0.0 and 1.1.0 shares everything but the top struct.", "quantifier": "all results in all memory layouts (including ones that share parts), all versions, all later writes", "why_tests_cant": "a statement about every field and every later write; sharing shows only when something is written", "anchors": ["pkg/types/internal/convert.go:Convert", "pkg/types/020/types.go:Copy", "pkg/types/040/types.go:convertInternal", "pkg/types/100/types.go:convertFrom100", "pkg/types/types.go:Route.Copy", "pkg/types/types.go:DNS.Copy"]}
{"id": "C57", "title": "A runtime learns exactly the versions a plugin was built for", "statement": "GetVersionInfo searches the whole plugin path, executes the plugin once with a VERSION request, writes nothing and never panics. If the plugin was built with skel it reports exactly the versions the plugin was built for, in order, whatever its callbacks, environment and stderr output. In general the versions are exactly those declared by the answer (a list and a non-empty version, or version 0.2.0 without a list, meaning 0.1.0 and 0.2.0), a plugin that does not know VERSION supports 0.1.0, any other answer or failure is an error, and the plugin's own failure is passed on. Hence a list of plugins built with skel passes ValidateNetworkList if and only if each is found and was built for the list's version.", "quantifier": "all plugin types, paths, plugin answers, versions, callbacks and environments", "why_tests_cant": "universal over answers and plugins; spans both sides of the process boundary", "anchors": ["libcni/api.go:GetVersionInfo", "libcni/api.go:ValidateNetworkList", "pkg/invoke/exec.go:GetVersionInfo", "pkg/version/plugin.go:PluginDecoder.Decode", "pkg/skel/skel.go:PluginMainFuncs"]}
{"id": "C58", "title": "VersionsStartingFrom gives exactly the versions not older than the given one", "statement": "VersionsStartingFrom(min) for a version of the library gives a plugin info that supports exactly the library's versions that are greater than or equal to min, each once and in ascending order; for any other string it panics. The library's versions are strictly ascending and end with Current().", "quantifier": "all strings min", "why_tests_cant": "universal over strings; relates list position and version order", "anchors": ["pkg/version/version.go:VersionsStartingFrom", "pkg/version/version.go:All", "pkg/version/plugin.go:GreaterThanOrEqualTo"]}
{"id": "C59", "title": "Printing a plugin configuration keeps everything in it", "statement": "Marshalling a PluginConf made of valid text succeeds, and decoding the result gives the same configuration: version, name, type, capabilities, IPAM type, DNS, raw previous result and valid attachments, without the parsed previous result (an empty raw one counts as none). The document has each key once: ipam always, every other key exactly if its field is not empty. So a plugin that decodes its configuration and prints it for a delegate passes on exactly what it read.", "quantifier": "all configurations with UTF-8 text, and all configurations that were decoded from any document", "why_tests_cant": "universal over configurations; the encoding goes through a map and drops fields conditionally", "anchors": ["pkg/types/types.go:PluginConf.MarshalJSON", "pkg/types/types.go:PluginConf", "pkg/types/types.go:DNS.IsEmpty"]}
{"id": "C60", "title": "The debug plugin is transparent in a chain and reports what the runtime was asked for", "statement": "In a network list added by the library, a debug plugin that is called after a plugin which returned a result of the list's format answers exactly that result, stating the list's version: nothing is lost although the result goes through the current result type. The call writes one report, with the container ID, namespace, interface name, arguments, search path and configuration of the attachment, to the configured file, and runs exactly the configured hooks in order. DEL, CHECK and an ADD without a previous result print an empty result of the configured version, and fail in versions 0.1.0 and 0.2.0, which have none. Failures are exact: a previous result of another format, an undecodable configuration or an empty hook make the call fail, and DEL of a 0.1.0/0.2.0 list with a debug plugin always fails.", "quantifier": "all runs of AddNetworkList/DelNetworkList, all lists and positions of the debug plugin, all results that survive being stored in the current type, all environments and namespaces, all hook and file outcomes", "why_tests_cant": "universal over chains, results and process environments; it is the composition of the library's configuration building, the plugin skeleton, and result conversion up and down", "anchors": ["plugins/debug/main.go:cmdAdd", "plugins/debug/main.go:cmdDel", "plugins/debug/main.go:cmdCheck", "plugins/debug/main.go:parseConf", "plugins/debug/main.go:getResult", "plugins/debug/main.go:executeHooks", "pkg/skel/skel.go:PluginMainFuncs", "libcni/api.go:CNIConfig.AddNetworkList"]}
{"id": "C61", "title": "cnitool does what its arguments and environment say", "statement": "cnitool add, check, del, gc and status perform exactly the corresponding library call, for the network found under the given name, with the attachment determined by the namespace (made absolute and clean; the container ID is derived from it), the interface name, the arguments and the capability arguments of the environment. It exits with 0 exactly if the call succeeds; add then prints the final result in its own version. The plugins get the caller's CNI_ARGS and CNI_PATH unchanged. A successful add followed by a successful del of the same namespace, however written, leaves the cache as before without the attachment, and from 0.4.0 on del gives the plugins the printed result. gc removes all attachments of the network and nothing else. A malformed request (too few arguments, unknown network, malformed CNI_ARGS or CAP_ARGS) exits with 1 and does nothing.", "quantifier": "all argument lists, environments, working directories, configuration directories, caches and plugin behaviours", "why_tests_cant": "universal over command lines, environments and plugin outcomes; the end-to-end claims compose parsing, loading, the chain and the cache", "anchors": ["cnitool/cnitool.go:main", "cnitool/cnitool.go:parseArgs", "cnitool/cnitool.go:usage", "cnitool/cnitool.go:exit"]}
{"id": "C62", "title": "Copies of interfaces, addresses, routes and DNS settings are equal and independent", "statement": "Copying a nil interface or address record gives nil. Otherwise the copy made by Copy (interfaces, IP configurations, routes, DNS settings, in every result version) has the same value as the original; its record, its lists and its integers are new, and it shares with the original at most the bytes of addresses. So whatever later program steps do to one of the two, short of overwriting address bytes in place, the other keeps its value.", "quantifier": "all heaps, all records in them, and all later heaps that differ only outside the other record", "why_tests_cant": "independence is a statement about all later mutations and all heap shapes; a test compares one value after one mutation", "anchors": ["pkg/types/types.go:Route.Copy", "pkg/types/types.go:DNS.Copy", "pkg/types/020/types.go:IPConfig.Copy", "pkg/types/040/types.go:IPConfig.Copy", "pkg/types/040/types.go:Interface.Copy", "pkg/types/100/types.go:IPConfig.Copy", "pkg/types/100/types.go:Interface.Copy"]}
{"id": "C63", "title": "Operations fail only for reasons that can be seen", "statement": "For configurations loaded from files (that decode and hold no text or numbers that cannot be rewritten), and with file accesses that do not fail: ADD of a non-empty list, or of a single network, succeeds exactly if the container ID, network name and interface name are valid, every plugin searched for was found, and every plugin executed exited successfully and printed a result that can be read. DEL of a list succeeds (unless it crashes as C50 describes) exactly if the configuration's version can be read, every plugin was found and every plugin exited successfully; DEL of a single network additionally needs the cached result to be readable from version 0.4.0 on. CHECK succeeds exactly if the version is at least 0.4.0 and checking is disabled, or the cached result is readable and every plugin was found and exited successfully. STATUS and GC succeed exactly if every plugin searched for was found and every plugin executed exited successfully. So preparing configurations for plugins, converting and caching results never makes an operation fail. The converse of readability does not hold: a result with a route without a destination is accepted and cached, and CHECK then fails.", "quantifier": "all configurations, runtime parameters, cache contents, and all answers of all plugins", "why_tests_cant": "a test fixes one configuration and one set of plugin answers; that nothing in between can fail is a statement about all of them", "anchors": ["libcni/api.go:addNetwork", "libcni/api.go:buildOneConfig", "libcni/api.go:cacheAdd", "libcni/api.go:AddNetworkList", "libcni/api.go:DelNetworkList", "libcni/api.go:DelNetwork", "libcni/api.go:CheckNetworkList", "libcni/api.go:CheckNetwork", "libcni/api.go:GetStatusNetworkList", "libcni/api.go:GCNetworkList", "libcni/conf.go:InjectConf"]}
{"id": "C64", "title": "The life of an attachment: ADD, CHECK and DEL depend only on the plugins", "statement": "Take any network list loaded from its text, of version 0.4.0, 1.0.0 or 1.1.0, and an ADD with valid names in which every plugin is found and returns a result, the last one a result without null entries, whose networks are given (not absent, not an IPv4 address in IPv6 form with an IPv6 prefix) and whose integers are below 2^53. Then ADD succeeds and returns the last plugin's result. As long as its cache entry is not touched, every plugin of a later CHECK or DEL of the same attachment receives that result converted to the list's version, CHECK changes no file, and CHECK and DEL succeed exactly if every plugin is executed and succeeds. After a successful DEL the cache entry is gone. The same holds for ADD, CHECK and DEL of a single network.", "quantifier": "all list texts, runtime parameters, earlier cache contents, plugin answers, and all states of other files at the time of CHECK and DEL", "why_tests_cant": "ranges over all configurations, results and plugin answers, and over everything that may happen to other files in between", "anchors": ["libcni/conf.go:NetworkConfFromBytes", "libcni/api.go:AddNetworkList", "libcni/api.go:CheckNetworkList", "libcni/api.go:DelNetworkList", "libcni/api.go:cacheAdd", "libcni/api.go:getCachedResult", "libcni/api.go:AddNetwork", "libcni/api.go:CheckNetwork", "libcni/api.go:DelNetwork"]}
{"id": "C65", "title": "Listings and garbage collections are complete while other clients use the cache", "statement": "While other clients add, check, delete, list and collect concurrently: a listing that has ended returned attachments from distinct files in file-name order, each of which was in its file at some moment while the listing was under way, and it returned every attachment that was there from the start and that no other client concerns. A garbage collection that has ended has executed a complete DEL for every stale attachment that was there from the start and that no other client concerns; the entry is gone if that DEL succeeded, and it did if the collection succeeded. Even if other clients remove the entry at the same time (but none stores it again), it is gone once the collection has succeeded.", "quantifier": "all numbers of clients, their operations and plugin answers, all interleavings including partially written files, all cache contents", "why_tests_cant": "ranges over all schedules of any number of clients", "anchors": ["libcni/api.go:GetCachedAttachments", "libcni/api.go:GCNetworkList", "libcni/api.go:DelNetworkList", "libcni/api.go:cacheDel"]}
{"id": "C66", "title": "A chain of plugins computes the composition of their functions", "statement": "For a list of plugins built with skel that follow the conventions (decode the configuration, parse the previous result, do their work, print their result in the configuration's version), AddNetworkList returns exactly the composition of what they do: each one's function is given its entry of the list with the list's name and version, the attachment as the caller stated it, and the result of the function before it converted to the list's version; the call returns the last result, or fails with the CNI error (same code, message and details) of the first function that failed or whose result cannot be converted. For a single network AddNetwork returns what its plugin's function gives, in the same way.", "quantifier": "all configuration lists of any length, all functions whose results can be printed and read back, all attachments, environments, cache contents and stderr outputs", "why_tests_cant": "the composition passes through JSON, the environment, processes and version conversion at every step; tests fix a few plugins, this holds for every function and every number of plugins", "anchors": ["libcni/api.go:CNIConfig.AddNetworkList", "libcni/api.go:CNIConfig.addNetwork", "libcni/api.go:buildOneConfig", "pkg/invoke/exec.go:ExecPluginWithResult", "pkg/skel/skel.go:PluginMainFuncs", "pkg/version/version.go:ParsePrevResult", "pkg/types/types.go:PrintResult", "pkg/invoke/raw_exec.go:RawExec.ExecPlugin", "libcni/api.go:AddNetwork"]}
{"id": "C67", "title": "Only what a search for the network's own plugins has found is executed", "statement": "Whatever is called (ADD, CHECK, DEL, GC, STATUS, validation, version queries, cache queries, delegation), every binary that is executed is the first regular file that a search, made directly before, for one of the plugin types of the network (or the delegated type) in the configured directories (for delegation those in CNI_PATH) has found. Nothing outside these directories is executed, and a type that is empty or has a path separator in it executes nothing. Cache queries execute nothing.", "quantifier": "all entry points, networks, attachments, search paths and extensions; all complete or interrupted executions; all answers of plugins, faults of file operations and changes of the searched directories meanwhile", "why_tests_cant": "a safety property of every execution: a test can show what was executed in one, not that nothing else ever is", "anchors": ["pkg/invoke/find.go:FindInPath", "pkg/invoke/exec.go:DefaultExec", "libcni/api.go:CNIConfig.addNetwork", "libcni/api.go:CNIConfig.delNetwork", "libcni/api.go:CNIConfig.gcNetwork", "libcni/api.go:CNIConfig.getStatusNetwork", "libcni/api.go:CNIConfig.validatePlugin", "pkg/invoke/delegate.go:delegateCommon"]}
{"id": "C68", "title": "Validation predicts acceptance", "statement": "Suppose ValidateNetworkList succeeded for a list whose plugins are built with skel, and the plugin directories have not changed since. Then every plugin that an ADD, CHECK, DEL, STATUS or GC of that list executes (with a namespace, a plugin path and valid names) gets to its callback: neither the environment, the network name nor the version is refused, and for ADD, CHECK and DEL the callback is told about the attachment what the runtime was told. Conversely, if an ADD of a list succeeds, then validating that list succeeds. The configurations must not spell cniVersion in another case. The same holds for a single network with ValidateNetwork and ADD, CHECK and DEL of it.", "quantifier": "all lists, runtime configurations, plugins built with skel for any versions, directory contents, caches, fault patterns, environments and map enumeration orders", "why_tests_cant": "validation asks for versions in one set of executions, and the operations run others with rewritten configurations; that the two agree for every list, plugin and environment is a statement about pairs of runs that tests only sample", "anchors": ["libcni/api.go:ValidateNetworkList", "libcni/api.go:validatePlugin", "libcni/api.go:AddNetworkList", "libcni/api.go:CheckNetworkList", "libcni/api.go:DelNetworkList", "libcni/api.go:GCNetworkList", "libcni/api.go:GetStatusNetworkList", "pkg/skel/skel.go:dispatcher.pluginMain", "pkg/skel/skel.go:checkVersionAndCall", "pkg/invoke/exec.go:GetVersionInfo", "pkg/version/plugin.go:PluginSupports", "pkg/version/plugin.go:PluginDecoder.Decode", "pkg/invoke/find.go:FindInPath", "libcni/api.go:ValidateNetwork"]}
{"id": "C69", "title": "Delegation is transparent", "statement": "A plugin of a list or of a single network that is built with skel and does its work by delegating the request to another plugin (DelegateAdd, DelegateCheck, DelegateDel, DelegateStatus or DelegateGC with its configuration as it is, returning what that gives) is transparent. The delegate gets the same standard input and, if it is built with skel and supports the list's version, its callback is called with the same arguments, which are what the runtime was told about the attachment. What the delegate returns is what the runtime gets from the delegating plugin: for ADD exactly the delegate's result, for CHECK, DEL, STATUS and GC success, and in all cases a CNI error with the delegate's code, message and details. The same holds for the DELs that a GC makes.", "quantifier": "all lists, positions in the list, attachments, environments, map enumeration orders, delegates, results in the version of the list and CNI errors with UTF-8 texts", "why_tests_cant": "two nested executions with environments and JSON documents derived from each other; tests delegate in a few environments with a few results", "anchors": ["pkg/invoke/delegate.go:DelegateAdd", "pkg/invoke/delegate.go:DelegateCheck", "pkg/invoke/delegate.go:DelegateDel", "pkg/invoke/args.go:dedupEnv", "pkg/invoke/args.go:DelegateArgs", "pkg/skel/skel.go:PluginMainFuncs", "pkg/types/types.go:PrintResult", "libcni/api.go:AddNetworkList", "pkg/invoke/delegate.go:DelegateStatus", "pkg/invoke/delegate.go:DelegateGC"]}
{"id": "C70", "title": "Previous results come from ADDs of the same attachment, also under concurrency", "statement": "When any number of clients use the API concurrently, also on the same attachments, starting with an empty cache, every plugin execution is of a plugin of one of the client's operations, with that operation's arguments. ADD hands on only results that plugins executed by the same client returned. CHECK, DEL and the cached-result query get nothing or exactly what one ADD of the same attachment stored, in the version of their configuration. Only when a file operation fails or a write is seen unfinished may they get something else, namely the result without any content, because the cache file is read twice when the first reading does not yield an entry; this does happen. Each write replaces the contents of the file, possibly after parts of it have been seen; see C73 for writes as the operating system does them.", "quantifier": "all sets of clients (sessions of operations, garbage collections, listings), interleavings, plugin behaviours, file failures and partially visible writes", "why_tests_cant": "the outcome depends on the interleaving of reads with a write in progress; tests run operations one after the other", "anchors": ["libcni/api.go:getCachedResult", "libcni/api.go:getLegacyCachedResult", "libcni/api.go:cacheAdd", "libcni/api.go:DelNetworkList", "libcni/api.go:CheckNetworkList", "libcni/api.go:AddNetworkList", "pkg/types/020/types.go:NewResult"]}
{"id": "C71", "title": "The cache settles after concurrent use", "statement": "When any number of clients use the API concurrently, also on the same attachments, and file operations do not fail, then at any moment (also if everything crashes then) each cache file has what it had before if no call changed it, what the last completed change left, or the first bytes of what an ADD of that attachment is just storing, whose plugins have all succeeded. Once all clients have ended there are no partial files: a file is as before, or it was last removed, by a DEL of the attachment or a garbage collection for which it was stale, or it has exactly what the last storing ADD of that attachment stored, and that ADD replied success. In particular, if an ADD of an attachment succeeded and nobody deletes it or collects it as stale, the cache ends up with exactly the entry of one of the successful ADDs, never nothing. Each write replaces the contents of the file, possibly after parts of it have been seen; see C73 for writes as the operating system does them.", "quantifier": "all sets of clients (sessions of operations, garbage collections, listings), interleavings, crash points, plugin behaviours and partially visible writes, with working files", "why_tests_cant": "lost updates and mixtures appear only under particular interleavings of writes and removals; tests do not run operations on one attachment concurrently", "anchors": ["libcni/api.go:cacheAdd", "libcni/api.go:cacheDel", "libcni/api.go:AddNetworkList", "libcni/api.go:AddNetwork", "libcni/api.go:DelNetworkList", "libcni/api.go:GCNetworkList"]}
{"id": "C72", "title": "A concurrent garbage collection deletes only stale attachments that were added", "statement": "When any number of clients use the API concurrently, starting with an empty cache, everything a garbage collection executes is either a DEL of a plugin of its list, for an attachment of that network which is not among the valid ones and which some client has added before, with the container, interface, namespace and arguments of that ADD and with a previous result that an ADD of that attachment stored (or none; see C70 for unfinished writes), or, from version 1.1.0 on, a GC of a plugin of the list with exactly the valid attachments. With disableGC it executes nothing. A listing returns only attachments that some client has added. Each write replaces the contents of the file, possibly after parts of it have been seen; see C73 for writes as the operating system does them.", "quantifier": "all sets of clients (sessions of operations, garbage collections, listings), interleavings, plugin behaviours, file failures and partially visible writes", "why_tests_cant": "the collection reads a directory and files that change meanwhile; which deletions it may make then is a statement about all interleavings", "anchors": ["libcni/api.go:GCNetworkList", "libcni/api.go:GetCachedAttachments", "libcni/api.go:DelNetworkList", "libcni/api.go:gcNetwork", "libcni/api.go:cacheAdd"]}
{"id": "C73", "title": "Concurrent use with files as the operating system keeps them", "statement": "Storing an entry is opening the file, which creates or empties it, writing in any number of pieces at the position reached, and closing; a name may be removed while the file is open. As long as no two clients have the same file open for writing at the same time, everything that can happen to any number of concurrent clients could also have happened with each write replacing the file in one step (parts of it being seen before), with the same calls, answers and files: previous results, garbage collections and listings are as in C70 and C72, at any moment (crash) a cache file is as before, removed, or has the first bytes of what one ADD stores, and once all have ended it is as before, removed by a DEL or a collection for which it was stale, or exactly the entry of a successful ADD. Clients that do not add the same attachments never have the same file open, so for them this holds without that assumption. Without it, it does not: two overlapping ADDs of one attachment can both succeed and leave an entry nobody can read.", "quantifier": "all sets of clients, interleavings of opening, writing, closing, removing and reading, sizes of the pieces, crash points and plugin behaviours, with working files", "why_tests_cant": "it is a refinement between two models of concurrent file access, over all interleavings; tests see a few schedules", "anchors": ["libcni/api.go:cacheAdd", "libcni/api.go:cacheDel", "libcni/api.go:getCachedResult", "libcni/api.go:getCachedConfig", "libcni/api.go:GetCachedAttachments"]}
{"id": "C74", "title": "Crashes and restarts under concurrent use", "statement": "Any number of clients use the API concurrently until everything crashes at any moment; then others start with what was left in the cache, any number of times, starting with an empty cache. CHECK, DEL, the cached-result query and garbage collections get nothing or exactly what one ADD of the same attachment stored, in this run or one before a crash (or, if a write was seen or left unfinished, possibly the empty result, see C70); a garbage collection deletes and a listing returns only attachments that some client added, in this run or before. At any moment a cache file is as at the start, was removed, or has the first bytes, or all, of what one ADD stored. An entry that nobody stores or removes afterwards is unchanged by any number of crashes and restarts. The same holds with files that are opened, written in pieces and closed, as in C73.", "quantifier": "all numbers of crashes, crash points, sets of clients in each run, interleavings, plugin behaviours, file failures (for the previous results) and partially visible writes", "why_tests_cant": "it is about all crash points of all interleavings, repeated any number of times", "anchors": ["libcni/api.go:cacheAdd", "libcni/api.go:cacheDel", "libcni/api.go:getCachedResult", "libcni/api.go:DelNetworkList", "libcni/api.go:CheckNetworkList", "libcni/api.go:GCNetworkList", "libcni/api.go:GetCachedAttachments"]}
{"id": "C75", "title": "Which fields a request to a plugin has", "statement": "The JSON document a plugin is given has exactly these fields: those of the plugin's own configuration, name, cniVersion; for ADD, CHECK and DEL also prevResult when there is a previous result (in an ADD: for every plugin but the first; in CHECK and DEL: when a result is cached, for DEL from version 0.4.0 on) and runtimeConfig when the runtime supplies an argument for a capability the plugin enables; for GC also cni.dev/valid-attachments and cni.dev/attachments when valid attachments are given. Nothing is dropped and nothing else added. Measured against SPEC.md 492-505, which says that `capabilities` must not be set, and prevResult not in the first ADD: a request obeys it exactly when the plugin's configuration has no `capabilities` and, in the first ADD of a chain, no `prevResult`, because libcni removes neither.", "quantifier": "all lists, networks, runtime configurations, cache contents, file failures (ADD, CHECK, DEL, STATUS) and answers of plugins; every request made", "why_tests_cant": "it is about every field of every request, whatever the configuration contains", "anchors": ["libcni/api.go:buildOneConfig", "libcni/api.go:injectRuntimeConfig", "libcni/conf.go:InjectConf", "libcni/api.go:GCNetworkList", "libcni/api.go:GetStatusNetworkList"]}
{"id": "C76", "title": "Reading cache files piece by piece while others write, remove and list them", "statement": "Several clients of libcni use one cache directory concurrently; the operating system opens, writes and reads files in any number of pieces, and lists directories while they change, so that a reader may have read part of an entry while its writer is still writing it, or while another removes it. As long as no file is emptied (opened for writing) while another client has it open: what CHECK and DEL hand to plugins, what a direct query of the cached result returns and what GC deletes or a listing shows still is nothing, or exactly what one ADD of that attachment stored, or (only if a write has been begun) the blank result; and at any moment each cache file is the beginning, or all, of what one ADD stores. An attachment that was added and that nobody removes still has an entry, complete and stored by one of its ADDs, when all have ended. When no attachment is added twice, the assumption always holds. Without it the property fails: a reader can get a mixture of two entries.", "quantifier": "all sets of clients and operations, all behaviours of plugins, all interleavings of opening, partial writing, partial reading, removing and listing, all points in time", "why_tests_cant": "a test sees one interleaving of a few reads and writes; the splitting of os.ReadFile and os.WriteFile into pieces is chosen by the operating system", "anchors": ["libcni/api.go:CNIConfig.cacheAdd", "libcni/api.go:CNIConfig.cacheDel", "libcni/api.go:CNIConfig.getCachedResult", "libcni/api.go:CNIConfig.GetCachedAttachments", "libcni/api.go:CNIConfig.GCNetworkList"]}
{"id": "C77", "title": "A single plugin configuration and the one-plugin list made of it are interchangeable", "statement": "Let L be the list ConfListFromConf makes of a loaded plugin configuration N. CHECK of N and of L make exactly the same calls and have the same outcome. To every ADD of N corresponds an ADD of L (and the other way round) that looks for and runs the same plugin with the same stdin and environment, gets the same answers, returns the same result or also fails, leaves every other file the same, and leaves a cache entry from which the same cached result is read. DEL of N and of L make the same calls with the same outcome, unless the cache entry cannot be used: then DEL of N returns an error without running anything while DEL of L drops the entry and goes on. Validating N and L ask the same plugin and agree, also on the capabilities if the document states them once. So an attachment added as one can be checked and deleted as the other. (Provided the document states 'type' once, in any capitalisation: otherwise the two may use different plugins.)", "quantifier": "every loaded configuration and the list made of it, all runtime configurations, all cache contents, all answers of the search and of the plugins, with and without file-system faults", "why_tests_cant": "A test compares the two on a few configurations; that they agree for every document (duplicate members, numbers, member order), every cache state, fault and plugin answer is a claim about all pairs of runs.", "anchors": ["libcni/conf.go:ConfListFromConf", "libcni/api.go:AddNetwork", "libcni/api.go:AddNetworkList", "libcni/api.go:CheckNetwork", "libcni/api.go:CheckNetworkList", "libcni/api.go:DelNetwork", "libcni/api.go:DelNetworkList", "libcni/api.go:ValidateNetwork", "libcni/api.go:ValidateNetworkList"]}
{"id": "C78", "title": "DEL can be retried and repeated, and a repeated GC has nothing left to delete", "statement": "As long as no DEL of an attachment has succeeded, every DEL of it hands its plugins the same previous result (the cached one) and leaves all files as they were; the first that succeeds removes the attachment's cache entry and no other file; every further DEL hands no previous result, again runs all plugins, and changes nothing. When a GC has succeeded, another GC of the same list that spares at least the attachments the first spared runs no DEL and changes no file: it only asks the plugins (from 1.1.0), and succeeds exactly if they do.", "quantifier": "all numbers and outcomes of attempts, all lists and single networks (from 0.4.0), all attachments with a readable or no entry, all plugin behaviours, all sets of valid attachments", "why_tests_cant": "A test retries once or twice with one failure pattern; the claim is about sequences of any length and every pattern of failures.", "anchors": ["libcni/api.go:DelNetworkList", "libcni/api.go:DelNetwork", "libcni/api.go:cacheDel", "libcni/api.go:GCNetworkList"]}
{"id": "C79", "title": "Results stored by earlier releases of the library are still used", "statement": "Earlier releases stored, for an attachment, just its marshalled result. If the file of an attachment holds such a result, the cached result of the attachment is that result converted to the version of the configuration (an error if it cannot be converted), CHECK and DEL hand it to every plugin as the previous result, and a DEL whose plugins all succeed removes it. But it holds no configuration and names no attachment: asking for the cached configuration is an error, the listing of cached attachments does not mention it, and garbage collection leaves it alone.", "quantifier": "all stored results whose fields survive marshalling (all three formats), all versions of the configuration from 0.4.0, all lists and single networks, all plugin behaviours, all other cache contents", "why_tests_cant": "The library tells the two formats apart by trying to decode; that no result of any format and content is ever taken for an entry of the current format, and is read back unchanged, is a claim about all documents.", "anchors": ["libcni/api.go:getLegacyCachedResult", "libcni/api.go:getCachedResult", "libcni/api.go:getCachedConfig", "libcni/api.go:GetCachedAttachments", "libcni/api.go:GCNetworkList"]}
{"id": "C80", "title": "One cache directory is in effect for a call, and calls that disagree about it do not see each other", "statement": "A call uses the cache directory the runtime was set to; if none, the one given with the call; if none, /var/lib/cni. A successful ADD changes exactly one file, <directory>/results/<network>-<container>-<interface>. On a runtime with a directory the per-call setting has no effect on ADD, CHECK, DEL or the lookup of the cached result. On a runtime without one, an ADD with a per-call directory other than the one in effect without it changes no listing of the cached attachments, no garbage collection changes a file in that directory, and a lookup with another directory gives what it gave before the ADD.", "quantifier": "all runtimes, per-call settings, names, cache contents, plugin behaviours and outcomes of the ADD, with and without file-system faults", "why_tests_cant": "A test tries one or two directories; independence of every setting, for all operations and outcomes, is a claim about all pairs of calls.", "anchors": ["libcni/api.go:getCacheDir", "libcni/api.go:getCacheFilePath", "libcni/api.go:GetCachedAttachments", "libcni/api.go:GCNetworkList"]}
{"id": "C81", "title": "The test plugin records every request and behaves as it is told", "statement": "A request served by the noop test plugin that names a debug file leaves in it the command and the arguments it was given (input exactly, texts up to invalid UTF-8) with the rest of the file unchanged, touches no file but that one and the command log it names, and reports what the file says: its error first, else its result (the previous result in the version of the configuration for PASSTHROUGH), then its exit code. After any sequence of requests that name a command log, the log holds one entry per request, in order, after what it held; so after an ADD, CHECK, DEL or STATUS by libcni it holds exactly the invocations made, with what the runtime was told about the attachment. A request without a debug file changes nothing and prints {}; one whose configuration, CNI_ARGS or debug file cannot be read fails and changes nothing.", "quantifier": "every file content, request, debug file, command log, sequence of requests, write fault of other files, and every run of the libcni operations", "why_tests_cant": "tests use the plugin as their instrument on a few requests; that its records are faithful for every request and sequence of requests cannot be settled by them", "anchors": ["plugins/test/noop/main.go:debugBehavior", "plugins/test/noop/main.go:getConfig", "plugins/test/noop/main.go:debugGetSupportedVersions", "plugins/test/noop/debug/debug.go:ReadDebug", "plugins/test/noop/debug/debug.go:WriteDebug", "plugins/test/noop/debug/debug.go:WriteCommandLog", "plugins/test/noop/debug/debug.go:ReadCommandLog"]}
{"id": "C82", "title": "What an ADD has stored is seen by every operation that begins after it has replied", "statement": "Several clients of libcni use one cache directory concurrently, with files opened, written and read and directories listed in pieces; whatever was in the cache before. An attachment may be added, deleted and added again, as long as its ADDs do not overlap and no file is emptied while another client has it open (both always hold if no attachment is added twice and the cache is empty at first). When an ADD has replied with success, then, until its entry is removed or the attachment is added again: every listing of the attachments (all, or of that container) that begins later contains it, described as it was added; every CHECK and every query for the cached result or configuration of it that begins later, by the same client or another one, does exactly what it would do alone after that ADD, so that the query replies with the result of the ADD and the CHECK gives it to its plugins; and the entry is, and stays, what the ADD alone would have left. It is not removed before a DEL of it, or a garbage collection for which it is stale, has begun. After every later DEL of it that succeeds, and after every later garbage collection of its network that succeeds and does not have it among the valid attachments, its entry is gone, whatever others do. A listing that began before the ADD replied may miss it.", "quantifier": "all sets of clients and operations, all behaviours of plugins, all interleavings of the pieces of reads, writes and listings, every moment at which the later operation begins", "why_tests_cant": "the interleavings and the moments at which files and directories are accessed are chosen by the scheduler and the operating system", "anchors": ["libcni/api.go:CNIConfig.AddNetworkList", "libcni/api.go:CNIConfig.cacheAdd", "libcni/api.go:CNIConfig.GetCachedAttachments", "libcni/api.go:CNIConfig.GetNetworkListCachedResult", "libcni/api.go:CNIConfig.CheckNetworkList", "libcni/api.go:CNIConfig.DelNetworkList", "libcni/api.go:CNIConfig.GCNetworkList"]}
{"id": "C83", "title": "Addresses and networks are written in one canonical text", "statement": "In results and in cache entries every address of four or sixteen bytes is written in exactly one text, the canonical one: an IPv4 address (in either form) as four decimal numbers without leading zeros, any other as RFC 5952 says (lower-case hexadecimal groups without leading zeros, the longest run of two or more zero groups, the first if there are several, left out). A network whose mask fits its address and is one bits followed by zero bits is written as its whole address, host bits included, a slash and the number of one bits. An absent address is the empty text.", "quantifier": "all addresses, masks and texts", "why_tests_cant": "2^128 addresses; which run of zeros is left out depends on all groups", "anchors": ["pkg/types/types.go:IPNet", "pkg/types/types.go:ParseCIDR", "pkg/types/types.go:Route"]}
{"id": "C84", "title": "Documents are read by the grammar of JSON, and only their value counts", "statement": "A configuration, a network configuration, a plugin's answer, a result or a cache entry is accepted as a document exactly if it is a JSON text by the grammar of RFC 8259, and its contents are the value the grammar gives it (escapes resolved, surrogate pairs joined, half pairs and bytes that are not UTF-8 replaced by the replacement character, numbers kept as written, members kept in order). The grammar gives no text two values. A text that is no JSON document is refused with an error by every function that expects one. Two texts of the same value (other white space, other escapes) are read alike everywhere; only the raw text kept with a configuration differs. (Nesting beyond the 10000 levels Go reads is left out of account.) What is written again from a value that was read, compact or indented, is again a text of that value.", "quantifier": "all byte strings and all JSON values", "why_tests_cant": "infinitely many texts, with unbounded nesting; acceptance must hold in both directions", "anchors": ["libcni/conf.go:NetworkPluginConfFromBytes", "libcni/conf.go:NetworkConfFromBytes", "libcni/conf.go:InjectConf", "libcni/conf.go:ConfListFromConf", "pkg/types/create/create.go:DecodeVersion", "pkg/types/create/create.go:CreateFromBytes", "pkg/invoke/exec.go:ExecPluginWithResult", "cnitool/cnitool.go:main"]}
{"id": "C85", "title": "The texts of addresses and networks that are accepted", "statement": "A text is accepted as an address exactly if it is four decimal numbers up to 255 without leading zeros and with dots between them, or an IPv6 address by RFC 4291 (eight groups of one to four hexadecimal digits with colons between them, or fewer with two colons once in place of at least one group of zeros, the last two groups possibly in dotted decimal; no zone), and it is read as the sixteen bytes it stands for. A text is accepted as a network exactly if it is the text of an address, a slash and decimal digits for a number that is at most the number of bits of the address; the host bits are kept and the mask has that many one bits, in four bytes after dotted decimal and sixteen otherwise. No text stands for two addresses or two networks. In documents (results, routes, DNS and IP arguments) the empty text and null stand for no address, and nothing but such a text stands for a network.", "quantifier": "all byte strings and all JSON values", "why_tests_cant": "infinitely many texts; acceptance and value must agree with the grammar in both directions", "anchors": ["pkg/types/types.go:ParseCIDR", "pkg/types/types.go:IPNet", "pkg/types/types.go:Route"]}
{"id": "C86", "title": "What result and configuration documents say", "statement": "A member of a document counts for a field if its name is the field's name in any letter case (the Kelvin sign counts as k, the long s as s); other members are ignored. A JSON document in which no object has two members for one field is read as a result of a version exactly if every field has a value of the right kind and it names a version of the same form (up to 0.2.0, where none counts as 0.1.0; 0.3.0 to 0.4.0; 1.0.0 and 1.1.0), and what is read is what the fields say: texts; whole numbers of 64 bits written without fraction and exponent; addresses and networks by C85; lists, whose elements may be null if they are records; a missing field, and null for anything but a network, stand for empty, zero or none. Every other text is refused with an error. CreateFromBytes reads it by the version it names itself. A plugin configuration is loaded exactly if its fields are such values and it has a type; what is loaded are these fields and the text.", "quantifier": "all byte strings, all JSON documents without repeated fields, all versions", "why_tests_cant": "infinitely many documents, with any members in any order and spelling; acceptance and value must agree with the description in both directions", "anchors": ["pkg/types/create/create.go:Create", "pkg/types/create/create.go:CreateFromBytes", "pkg/types/020/types.go:NewResult", "pkg/types/040/types.go:NewResult", "pkg/types/100/types.go:NewResult", "pkg/types/types.go:Route", "pkg/types/types.go:DNS", "libcni/conf.go:NetworkPluginConfFromBytes", "pkg/types/types.go:PluginConf"]}
{"id": "C87", "title": "Where paths lead", "statement": "Every path text leads to exactly one place: a number of steps up (for relative paths) followed by a list of names, reached by reading the elements between slashes one by one, skipping empty elements and '.', and letting '..' undo the last name. Two cache directories that are different spellings of the same place behave identically in every operation; cache directories that lead to different places never share a file, so an ADD with one changes nothing that a reader of the other sees; a cache entry is in the file <network>-<container>-<interface> directly inside 'results' inside the cache directory. A plugin that is found lies, under its own name, directly inside one of the directories searched; the search path is the text cut at every colon (empty text: no directories). Configuration files listed are exactly the non-directories directly inside the directory given whose extension (from the last dot of the name on) is one of those asked for; plugin directories of a list are looked for beside the file of the list; cnitool makes a relative network namespace or directory absolute by reading it from the current directory.", "quantifier": "all path texts, cache directories, networks, containers, interfaces, search paths, directory contents and file histories", "why_tests_cant": "There are infinitely many spellings of a path; that two directories never collide and that all spellings agree must hold for every pair of texts.", "anchors": ["libcni/api.go:getCacheFilePath", "libcni/api.go:getCacheDir", "pkg/invoke/find.go:FindInPath", "libcni/conf.go:ConfFiles", "libcni/conf.go:NetworkConfFromFile", "cnitool/cnitool.go:main"]}
{"id": "C88", "title": "The document of a cache entry", "statement": "After a successful ADD the file of the attachment is a JSON object with the members kind (\"cniCacheV1\"), containerId, config (the configuration bytes in the base64 of RFC 4648, padded, left-over bits zero), ifName, networkName, and, unless they are empty, netns, cniArgs (a list of name-value pairs), capabilityArgs and result (the result's document as an object), in this order; bytes in texts that are not UTF-8 are replaced by the replacement character. A file whose document has no two members for one field is taken for an entry exactly if its fields have values of these kinds (names in any letter case, base64 with line breaks or a list of byte values for config, lists of any length for the pairs, nothing or null for empty) and the kind is cniCacheV1; the cached configuration and arguments, the listed attachment and the cached result are what these fields say, the result in the version it names itself, converted to that of the list; a document that is no entry gives an error for the configuration, no attachment, and is read as a result itself.", "quantifier": "all configurations, networks, containers, arguments, capability arguments, results, file contents and histories", "why_tests_cant": "The reader and the writer of the tests agree with each other even if both change; the format must be the same for every content, because other programs and older versions read and write these files.", "anchors": ["libcni/api.go:cachedInfo", "libcni/api.go:cacheAdd", "libcni/api.go:getCachedConfig", "libcni/api.go:getCachedResult", "libcni/api.go:GetCachedAttachments", "libcni/api.go:getLegacyCachedResult"]}
{"id": "C89", "title": "Numbers are the nearest doubles, the rest of a document is kept, and a number too large is refused", "statement": "Whatever libcni decodes without a schema and writes again (configurations, what plugins get on their standard input, previous results, capability arguments, also those given to cnitool, and cached results) says the same afterwards: every number has become a text of the one double (IEEE-754 binary64) nearest to the decimal written, a tie going to the even significand; arrays keep their elements and order; objects keep exactly their keys, in byte order and once, with the value of the last member of that name; strings, booleans and null are unchanged. Documents that say the same become the same text, and repeating it changes nothing. A document with a number whose nearest double would be 2^1024 or more is refused, even when that number stands in a member hidden by a later one of the same name; nothing else is refused for its numbers.", "quantifier": "every number text of any length and exponent, every JSON document, every set of stored keys and values", "why_tests_cant": "The nearest double is a claim against all other doubles, for decimals of any number of digits; ties and the boundaries between binades, subnormals and overflow are points no sample meets, and documents nest without bound.", "anchors": ["libcni/conf.go:InjectConf", "libcni/conf.go:NetworkConfFromBytes", "libcni/api.go:cacheAdd", "pkg/types/100/types.go:MarshalJSON"]}
{"id": "C90", "title": "GC with a nil list of valid attachments deletes as with the empty list but tells plugins null", "statement": "GCNetworkList with GCArgs whose ValidAttachments is nil behaves, step for step, like GCNetworkList with the empty list: every execution of the one is matched by an execution of the other with the same listing, the same DELs, the same plugins found and executed, the same answers, outcome and files. The only difference is in the documents of the GC requests: under both keys of the valid attachments they hold null where the others hold [], and nothing else differs. A plugin that decodes its configuration with types.PluginConf reads the same from both; any other plugin can see the difference, although the specification asks for a list.", "quantifier": "all lists whose plugins are plugin configurations, cache contents, plugin answers and failures", "why_tests_cant": "a relation between all pairs of executions, over all configurations and failure patterns", "anchors": ["libcni/api.go:GCNetworkList", "pkg/types/types.go:PluginConf"]}
