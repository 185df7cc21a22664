/- libcni/api.go: the attachment cache. -/
import Verif.Libcni.Build
import Verif.Libcni.Prog
import Verif.Invoke.Fixup
import Verif.Base.Sort

namespace Verif

/-- libcni/api.go:127-131 `CNIConfig`. -/
structure CNIConfig where
  path : List Bytes := []
  cacheDir : Bytes := []
  deriving DecidableEq, Inhabited

/-- libcni/api.go:40-44 `CacheDir`. -/
def defaultCacheDir : Bytes := b!"/var/lib/cni"

/-- libcni/api.go:46-48 `CNICacheV1`. -/
def cacheKind : Bytes := b!"cniCacheV1"

/-- libcni/api.go:225-236 `cachedInfo` without the unused `Result`. `cniArgs = none` is a nil slice, `rawResult = none` a
nil map; nil and empty are not distinguished for the other fields. -/
structure CachedInfo where
  kind : Bytes := []
  containerID : Bytes := []
  config : Bytes := []
  ifName : Bytes := []
  networkName : Bytes := []
  netNS : Bytes := []
  cniArgs : Option (List (Bytes × Bytes)) := none
  capArgs : GoMap Json := []
  rawResult : Option (GoMap Json) := none
  deriving DecidableEq, Inhabited

/-- The JSON names of libcni/api.go:225-236 `cachedInfo`. -/
def cachedFields : List Bytes :=
  [b!"kind", b!"containerId", b!"config", b!"ifName", b!"networkName", b!"netns", b!"cniArgs", b!"capabilityArgs", b!"result"]

/-- A `[2]string`. Element of `CniArgs` in libcni/api.go:225-236 `cachedInfo`. -/
def jPair (p : Bytes × Bytes) : Json := .arr [.str p.1, .str p.2]

/-- `json.Marshal` of a libcni/api.go:225-236 `cachedInfo`. -/
def CachedInfo.json (c : CachedInfo) : Json :=
  .obj ([(b!"kind", .str c.kind), (b!"containerId", .str c.containerID), (b!"config", jBytes c.config),
      (b!"ifName", .str c.ifName), (b!"networkName", .str c.networkName)]
    ++ jopt (c.netNS ≠ []) b!"netns" (.str c.netNS)
    ++ jopt (c.cniArgs.getD [] ≠ []) b!"cniArgs" (.arr ((c.cniArgs.getD []).map jPair))
    ++ jopt (c.capArgs ≠ []) b!"capabilityArgs" (.obj c.capArgs)
    ++ jopt (c.rawResult.getD [] ≠ []) b!"result" (.obj (c.rawResult.getD [])))

/-- Into a `[2]string`: missing elements are empty, superfluous ones ignored. Element of `CniArgs`
in libcni/api.go:225-236 `cachedInfo`. -/
def decPair : Json → Option (Bytes × Bytes)
  | .null => some ([], [])
  | .arr [] => some ([], [])
  | .arr [a] => (decStr [] a).map fun x => (x, [])
  | .arr (a :: b :: _) => (decStr [] a).bind fun x => (decStr [] b).map fun y => (x, y)
  | _ => none

/-- Into a `[][2]string`; the elements are decoded afresh. `CniArgs` of
libcni/api.go:225-236 `cachedInfo`. -/
def decPairs (_cur : Option (List (Bytes × Bytes))) : Json → Option (Option (List (Bytes × Bytes)))
  | .null => some none
  | .arr l => (l.mapM decPair).map some
  | _ => none

/-- `json.Unmarshal` into an empty libcni/api.go:225-236 `cachedInfo`. -/
def decCachedInfo (j : Json) : Option CachedInfo := do
  let ms ← structMembers j
  let kind ← decAll decStr [] (getField cachedFields b!"kind" ms)
  let cid ← decAll decStr [] (getField cachedFields b!"containerId" ms)
  let conf ← decAll decBytes [] (getField cachedFields b!"config" ms)
  let ifn ← decAll decStr [] (getField cachedFields b!"ifName" ms)
  let net ← decAll decStr [] (getField cachedFields b!"networkName" ms)
  let ns ← decAll decStr [] (getField cachedFields b!"netns" ms)
  let args ← decAll decPairs none (getField cachedFields b!"cniArgs" ms)
  let caps ← decAll decAnyMap none (getField cachedFields b!"capabilityArgs" ms)
  let res ← decAll decAnyMap none (getField cachedFields b!"result" ms)
  some { kind := kind, containerID := cid, config := conf, ifName := ifn, networkName := net, netNS := ns, cniArgs := args,
         capArgs := caps.getD [], rawResult := res }

/-- `json.Unmarshal(bytes, &cachedInfo)`. In libcni/api.go:308-336 `CNIConfig.getCachedConfig`,
libcni/api.go:366-402 `CNIConfig.getCachedResult` and libcni/api.go:430-488 `CNIConfig.GetCachedAttachments`. -/
def readCachedInfo (b : Bytes) : Option CachedInfo := (Json.parse b).bind decCachedInfo

/-- libcni/api.go:242-250 `CNIConfig.getCacheDir`. -/
def CNIConfig.getCacheDir (c : CNIConfig) (rt : RuntimeConf) : Bytes :=
  if c.cacheDir ≠ [] then c.cacheDir else if rt.cacheDir ≠ [] then rt.cacheDir else defaultCacheDir

/-- The file name in libcni/api.go:252-257 `CNIConfig.getCacheFilePath`. -/
def cacheFileName (netName cid ifName : Bytes) : Bytes := netName ++ b!"-" ++ cid ++ b!"-" ++ ifName

/-- libcni/api.go:252-257 `CNIConfig.getCacheFilePath`; `filepath.Join` of three non-empty elements. -/
def CNIConfig.cachePath (c : CNIConfig) (netName : Bytes) (rt : RuntimeConf) : Out Bytes :=
  if netName = [] ∨ rt.containerID = [] ∨ rt.ifName = [] then
    .err (.text b!"cache file path requires network name, container ID, and interface name")
  else .ok (cleanPath (c.getCacheDir rt ++ b!"/results/" ++ cacheFileName netName rt.containerID rt.ifName))

/-- What libcni/api.go:259-297 `CNIConfig.cacheAdd` marshals; `none` is an error (a result that cannot be marshalled, or whose
document cannot be read back into a map). A nil result marshals to `null`. -/
def cachedInfoOf (result : Option Result) (config netName : Bytes) (rt : RuntimeConf) : Option CachedInfo := do
  let doc ← prevJson result
  let j ← Json.parse (doc.getD .null).print
  let raw ← decAnyMap none j
  some { kind := cacheKind, containerID := rt.containerID, config := config, ifName := rt.ifName, networkName := netName,
         netNS := rt.netNS, cniArgs := some rt.args, capArgs := rt.capArgs, rawResult := raw }

/-- A file-system error. The errors of os.ReadFile, os.WriteFile and the like in
libcni/api.go:259-297 `CNIConfig.cacheAdd`. -/
def fsErr (op : Bytes) : GoErr := .text (op ++ b!" failed")

/-- libcni/api.go:259-297 `CNIConfig.cacheAdd`. -/
def CNIConfig.cacheAdd (c : CNIConfig) (result : Option Result) (config netName : Bytes) (rt : RuntimeConf) : Prog Unit :=
  match cachedInfoOf result config netName rt with
  | none => .done (.err (.text b!"cannot marshal result"))
  | some info =>
    match c.cachePath netName rt with
    | .ok fname =>
      .op (.mkdirAll (dirPath fname)) fun ok1 =>
        match (ok1 : Bool) with
        | false => .done (.err (fsErr b!"mkdir"))
        | true => .op (.writeFile fname info.json.print) fun ok2 =>
          match (ok2 : Bool) with
          | false => .done (.err (fsErr b!"write"))
          | true => .done (.ok ())
    | .err e => .done (.err e)
    | .panic => .done .panic

/-- libcni/api.go:299-306 `CNIConfig.cacheDel`. -/
def CNIConfig.cacheDel (c : CNIConfig) (netName : Bytes) (rt : RuntimeConf) : Prog Unit :=
  match c.cachePath netName rt with
  | .ok fname => .op (.remove fname) fun ok =>
    match (ok : Bool) with
    | true => .done (.ok ())
    | false => .done (.err (fsErr b!"remove"))
  | _ => .done (.ok ())

/-- libcni/api.go:308-336 `CNIConfig.getCachedConfig`, given what was read; `none` if there was nothing. -/
def cachedConfigOf (rt : RuntimeConf) : Option Bytes → Out (Option (Bytes × RuntimeConf))
  | none => .ok none
  | some b =>
    match readCachedInfo b with
    | none => .err (.text b!"failed to unmarshal cached network config")
    | some info =>
      if info.kind ≠ cacheKind then .err (.text b!"read cached network config has wrong kind")
      else .ok (some (info.config, { rt with args := info.cniArgs.getD rt.args, capArgs := info.capArgs }))

/-- libcni/api.go:308-336 `CNIConfig.getCachedConfig`; `none` is `nil, nil, nil`. -/
def CNIConfig.getCachedConfig (c : CNIConfig) (netName : Bytes) (rt : RuntimeConf) : Prog (Option (Bytes × RuntimeConf)) :=
  match c.cachePath netName rt with
  | .ok fname => .op (.readFile fname) fun r => .done (cachedConfigOf rt r)
  | .err e => .done (.err e)
  | .panic => .done .panic

/-- The end of libcni/api.go:366-402 `CNIConfig.getCachedResult` and libcni/api.go:338-364 `CNIConfig.getLegacyCachedResult`: create the result
and convert it. -/
def loadResult (data ver : Bytes) : Out (Option Result) := do
  let r ← createFromBytes data
  let r' ← (r.getAsVersion ver).wrapErr b!"failed to convert cached result to config version"
  .ok (some r')

/-- libcni/api.go:338-364 `CNIConfig.getLegacyCachedResult`, given what was read. -/
def legacyResultOf (ver : Bytes) : Option Bytes → Out (Option Result)
  | none => .ok none
  | some b => loadResult b ver

/-- The check in libcni/api.go:366-402 `CNIConfig.getCachedResult` that selects the current format. -/
def currentFormat (b : Bytes) : Option CachedInfo :=
  match readCachedInfo b with
  | some info => if info.kind = cacheKind then some info else none
  | none => none

/-- libcni/api.go:366-402 `CNIConfig.getCachedResult`; `none` is `nil, nil`. -/
def CNIConfig.getCachedResult (c : CNIConfig) (netName ver : Bytes) (rt : RuntimeConf) : Prog (Option Result) :=
  match c.cachePath netName rt with
  | .ok fname => .op (.readFile fname) fun r =>
    match (r : Option Bytes) with
    | none => .done (.ok none)
    | some b =>
      match currentFormat b with
      | none => .op (.readFile fname) fun r2 => .done (legacyResultOf ver r2)
      | some info => .done (loadResult (mapJson info.rawResult).print ver)
  | .err e => .done (.err e)
  | .panic => .done .panic

/-- libcni/api.go:89-97 `NetworkAttachment`. -/
structure Attachment where
  containerID : Bytes
  network : Bytes
  ifName : Bytes
  config : Bytes
  netNS : Bytes
  cniArgs : List (Bytes × Bytes)
  capArgs : GoMap Json
  deriving DecidableEq, Inhabited

/-- The file-name filter in libcni/api.go:430-488 `CNIConfig.GetCachedAttachments`. -/
def fileNameMatches (containerID fname : Bytes) : Bool :=
  let part := b!"-" ++ containerID ++ b!"-"
  match indexOf part fname with
  | none => false
  | some pos => decide (0 < pos) && decide (pos + part.length < fname.length)

/-- The rest of an iteration of the loop in libcni/api.go:430-488 `CNIConfig.GetCachedAttachments`, given what was read. -/
def attachmentOf (containerID : Bytes) : Option Bytes → Option Attachment
  | none => none
  | some b =>
    match readCachedInfo b with
    | none => none
    | some i =>
      if i.kind ≠ cacheKind then none
      else if containerID ≠ [] ∧ i.containerID ≠ containerID then none
      else if i.ifName = [] ∨ i.networkName = [] then none
      else some { containerID := i.containerID, network := i.networkName, ifName := i.ifName, config := i.config,
                  netNS := i.netNS, cniArgs := i.cniArgs.getD [], capArgs := i.capArgs }

/-- The loop in libcni/api.go:430-488 `CNIConfig.GetCachedAttachments`. -/
def attachmentLoop (dir containerID : Bytes) : List Bytes → Prog (List Attachment)
  | [] => .done (.ok [])
  | fname :: rest =>
    if containerID ≠ [] ∧ fileNameMatches containerID fname = false then attachmentLoop dir containerID rest
    else .op (.readFile (joinPath dir fname)) fun r =>
      (attachmentLoop dir containerID rest).bind fun l => .done (.ok ((attachmentOf containerID r).toList ++ l))

/-- libcni/api.go:430-488 `CNIConfig.GetCachedAttachments`. -/
def CNIConfig.getCachedAttachments (c : CNIConfig) (containerID : Bytes) : Prog (List Attachment) :=
  let dir := joinPath (c.getCacheDir {}) b!"results"
  .op (.readDir dir) fun r =>
    match (r : Except Bool (List Bytes)) with
    | .error true => .done (.ok [])
    | .error false => .done (.err (fsErr b!"readdir"))
    | .ok names => attachmentLoop dir containerID (sortStrings names)

end Verif
