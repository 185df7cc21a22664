/- libcni/conf.go: loading and rewriting network configurations. -/
import Verif.Types.PluginConf
import Verif.Base.Sort
import Verif.Base.Path

namespace Verif

/-- libcni/api.go:74-77 `PluginConfig`; `Network` is never nil here. -/
structure PluginConfig where
  network : PluginConf
  bytes : Bytes
  deriving DecidableEq, Inhabited

/-- libcni/api.go:79-87 `NetworkConfigList`. -/
structure NetConfList where
  name : Bytes
  cniVersion : Bytes := []
  disableCheck : Bool := false
  disableGC : Bool := false
  loadOnlyInlined : Bool := false
  plugins : List PluginConfig := []
  bytes : Bytes := []
  deriving DecidableEq, Inhabited

/-- libcni/conf.go:53-64 `NetworkPluginConfFromBytes`. -/
def pluginConfFromBytes (b : Bytes) : Out PluginConfig :=
  match Json.parse b with
  | none => .err (.text b!"error parsing configuration: invalid JSON")
  | some j =>
    match decPluginConf j with
    | none => .err (.text b!"error parsing configuration: bad field")
    | some c =>
      if c.type = [] then .err (.text b!"error parsing configuration: missing 'type'")
      else .ok { network := c, bytes := b }

/-- `json.Unmarshal` of a document into an existing `map[string]interface{}`: outer `none` is an
error, inner `none` a nil map (the document `null`). libcni/conf.go:392-417 `InjectConf` and
libcni/conf.go:92-245 `NetworkConfFromBytes`. -/
def rawMap (j : Json) : Option (Option (GoMap Json)) := decAnyMap (some []) j

/-- The loop of libcni/conf.go:392-417 `InjectConf` over the new values, in the order the map is enumerated; `none` stands
for a nil value. Storing into a nil map panics. -/
def injectLoop (m : Option (GoMap Json)) : List (Bytes × Option Json) → Out (Option (GoMap Json))
  | [] => .ok m
  | (k, v) :: r =>
    if k = [] then .err (.text b!"keys cannot be empty")
    else match v with
      | none => .err (.text (b!"key '" ++ k ++ b!"' value must not be nil"))
      | some v =>
        match m with
        | none => .panic
        | some m => injectLoop (some (GoMap.insert m k v)) r

/-- What `json.Marshal` prints for a `map[string]interface{}`. libcni/conf.go:392-417 `InjectConf`.
-/
def mapJson : Option (GoMap Json) → Json
  | none => .null
  | some m => .obj m

/-- libcni/conf.go:392-417 `InjectConf`. `kvs` is the enumeration of the map of new values, each value given as the JSON it
marshals to; values that cannot be marshalled are not modelled. -/
def injectConf (orig : PluginConfig) (kvs : List (Bytes × Option Json)) : Out PluginConfig :=
  match Json.parse orig.bytes with
  | none => .err (.text b!"unmarshal existing network bytes: invalid JSON")
  | some j =>
    match rawMap j with
    | none => .err (.text b!"unmarshal existing network bytes: not an object")
    | some m => do
      let m' ← injectLoop m kvs
      pluginConfFromBytes (mapJson m').print

/-! ### configuration lists -/

/-- The comparison given to `slices.SortFunc` in libcni/conf.go:92-245 `NetworkConfFromBytes` is negative: the strings differ
and the first is not greater. (It is negative both ways for different strings of equal value.) -/
def versionCmpNeg (a b : Bytes) : Bool :=
  a != b && match gt a b with
    | .ok true => false
    | _ => true

/-- `slices.SortFunc` of libcni/conf.go:92-245 `NetworkConfFromBytes` as Go runs it on up to 12 elements: insertion sort,
each element moved left while the comparison with its left neighbour is negative. For longer slices Go uses pattern
defeating quicksort; the theorems are about any sorter, see `networkConfFromBytesWith`. -/
def versionSort (l : List Bytes) : List Bytes := (sortBy (fun a b => !versionCmpNeg a b) l.reverse).reverse

/-- The entries of `cniVersions`, too new ones skipped (libcni/conf.go:92-245 `NetworkConfFromBytes`). -/
def readVersions : List Json → Out (List Bytes)
  | [] => .ok []
  | .str v :: l =>
    match gt v currentVersion with
    | .ok g => do
      let vs ← readVersions l
      .ok (if g then vs else v :: vs)
    | .err e => .err (.wrap b!"error parsing configuration list: invalid cniVersions entry" e)
    | .panic => .panic
  | _ :: _ => .err (.text b!"error parsing configuration list: invalid type for cniVersions index")

/-- The `cniVersion` of libcni/conf.go:92-245 `NetworkConfFromBytes`. -/
def declaredVersion (m : GoMap Json) : Out Bytes :=
  match GoMap.get? m b!"cniVersion" with
  | none => .ok []
  | some (.str v) => .ok v
  | some _ => .err (.text b!"error parsing configuration list: invalid cniVersion type")

/-- The versions that are sorted in libcni/conf.go:92-245 `NetworkConfFromBytes`: those of `cniVersions`, and `cniVersion`. -/
def versionPool (l : List Json) (cv : Bytes) : Out (List Bytes) := do
  let vs ← readVersions l
  if cv = [] then Out.ok vs
    else match gt cv currentVersion with
      | .ok g => .ok (if g then vs else vs ++ [cv])
      | .err e => .err (.wrap b!"error parsing configuration list: invalid cniVersion" e)
      | .panic => .panic

/-- The `cniVersion`/`cniVersions` part of libcni/conf.go:92-245 `NetworkConfFromBytes`. -/
def readVersion (sort : List Bytes → List Bytes) (m : GoMap Json) : Out Bytes := do
  let cv ← declaredVersion m
  match GoMap.get? m b!"cniVersions" with
  | none => .ok cv
  | some (.arr rvs) => do
    let vs ← versionPool rvs cv
    match (sort vs).getLast? with
    | none => .ok cv
    | some v => .ok v
  | some _ => .err (.text b!"error parsing configuration list: invalid type for cniVersions")

/-- The `name` of libcni/conf.go:92-245 `NetworkConfFromBytes`. -/
def readName (m : GoMap Json) : Out Bytes :=
  match GoMap.get? m b!"name" with
  | none => .err (.text b!"error parsing configuration list: no name")
  | some (.str n) => .ok n
  | some _ => .err (.text b!"error parsing configuration list: invalid name type")

/-- `readBool` in libcni/conf.go:92-245 `NetworkConfFromBytes`. -/
def readBool (m : GoMap Json) (key : Bytes) : Out Bool :=
  match GoMap.get? m key with
  | none => .ok false
  | some (.bool b) => .ok b
  | some (.str s) =>
    if toLower s = b!"false" then .ok false
    else if toLower s = b!"true" then .ok true
    else .err (.text (b!"error parsing configuration list: invalid value for " ++ key))
  | some _ => .err (.text (b!"error parsing configuration list: invalid type for " ++ key))

/-- The loop over the inlined plugins in libcni/conf.go:92-245 `NetworkConfFromBytes`. -/
def readPlugins : List Json → Out (List PluginConfig)
  | [] => .ok []
  | j :: l =>
    match pluginConfFromBytes j.print with
    | .err e => .err (.wrap b!"failed to parse plugin config" e)
    | .panic => .panic
    | .ok p => do
      let ps ← readPlugins l
      .ok (p :: ps)

/-- The `plugins` of libcni/conf.go:92-245 `NetworkConfFromBytes`, added to the list read so far. -/
def finishList (base : NetConfList) (m : GoMap Json) : Out NetConfList :=
  match GoMap.get? m b!"plugins" with
  | none =>
    if base.loadOnlyInlined then .err (.text b!"error parsing configuration list: `loadOnlyInlinedPlugins` is true, and no 'plugins' key")
    else .ok base
  | some (.arr l) =>
    if l = [] then .err (.text b!"error parsing configuration list: no plugins in list")
    else readPlugins l >>= fun ps => .ok { base with plugins := ps }
  | some _ => .err (.text b!"error parsing configuration list: invalid 'plugins' type")

/-- libcni/conf.go:92-245 `NetworkConfFromBytes` with the given sorting function for the versions. -/
def networkConfFromBytesWith (sort : List Bytes → List Bytes) (b : Bytes) : Out NetConfList :=
  match Json.parse b with
  | none => .err (.text b!"error parsing configuration list: invalid JSON")
  | some j =>
    match rawMap j with
    | none => .err (.text b!"error parsing configuration list: not an object")
    | some m0 => do
      let m := m0.getD []
      let name ← readName m
      let cv ← readVersion sort m
      let dc ← readBool m b!"disableCheck"
      let dg ← readBool m b!"disableGC"
      let lo ← readBool m b!"loadOnlyInlinedPlugins"
      let base : NetConfList := { name := name, cniVersion := cv, disableCheck := dc, disableGC := dg, loadOnlyInlined := lo, bytes := b }
      finishList base m

/-- libcni/conf.go:92-245 `NetworkConfFromBytes`. -/
def networkConfFromBytes (b : Bytes) : Out NetConfList := networkConfFromBytesWith versionSort b

/-- libcni/conf.go:423-445 `ConfListFromConf`. -/
def confListFromConf (orig : PluginConfig) : Out NetConfList :=
  match Json.parse orig.bytes with
  | none => .err (.text b!"invalid JSON")
  | some j =>
    match rawMap j with
    | none => .err (.text b!"not an object")
    | some m =>
      networkConfFromBytes (Json.obj (GoMap.ofList [(b!"name", .str orig.network.name),
        (b!"cniVersion", .str orig.network.cniVersion), (b!"plugins", .arr [mapJson m])])).print

/-! ### files -/

/-- What the operating system says: the entries of a directory in any order (name, is a directory),
or an error that is `true` for "does not exist"; the contents of a file, or an error. What
libcni/conf.go:298-324 `ConfFiles` and libcni/conf.go:247-272 `NetworkConfFromFile` see. -/
structure ConfFS where
  readDir : Bytes → Except Bool (List (Bytes × Bool))
  readFile : Bytes → Option Bytes

/-- `os.ReadDir`: the entries sorted by name. Used by libcni/conf.go:298-324 `ConfFiles`. -/
def ConfFS.osReadDir (fs : ConfFS) (dir : Bytes) : Except Bool (List (Bytes × Bool)) :=
  match fs.readDir dir with
  | .ok l => .ok (sortBy (fun a b => bytesLe a.1 b.1) l)
  | .error e => .error e

/-- libcni/conf.go:298-324 `ConfFiles`. -/
def confFiles (fs : ConfFS) (dir : Bytes) (exts : List Bytes) : Out (List Bytes) :=
  match fs.osReadDir dir with
  | .error true => .ok []
  | .error false => .err (.text (b!"cannot read directory " ++ dir))
  | .ok files => .ok (files.flatMap fun f =>
      if f.2 then [] else (exts.filter fun e => extPath f.1 = e).map fun _ => joinPath dir f.1)

/-- The loop of libcni/conf.go:68-90 `NetworkPluginConfsFromFiles`. -/
def readPluginFiles (fs : ConfFS) : List Bytes → Out (List PluginConfig)
  | [] => .ok []
  | f :: l =>
    match fs.readFile f with
    | none => .err (.text (b!"error reading " ++ f))
    | some b => do
      let p ← pluginConfFromBytes b
      let ps ← readPluginFiles fs l
      .ok (p :: ps)

/-- libcni/conf.go:68-90 `NetworkPluginConfsFromFiles`. -/
def pluginConfsFromFiles (fs : ConfFS) (dir name : Bytes) : Out (List PluginConfig) := do
  let files ← (confFiles fs (joinPath dir name) [b!".conf"]).wrapErr b!"failed to read plugin config files"
  readPluginFiles fs files

/-- The plugins from the network's folder, in libcni/conf.go:247-272 `NetworkConfFromFile`. -/
def addPluginFiles (fs : ConfFS) (file : Bytes) (conf : NetConfList) : Out NetConfList :=
  if conf.loadOnlyInlined then .ok conf
  else pluginConfsFromFiles fs (dirPath file) conf.name >>= fun ps => .ok { conf with plugins := conf.plugins ++ ps }

/-- libcni/conf.go:247-272 `NetworkConfFromFile`. -/
def networkConfFromFile (fs : ConfFS) (file : Bytes) : Out NetConfList :=
  match fs.readFile file with
  | none => .err (.text (b!"error reading " ++ file))
  | some b => do
    let conf ← networkConfFromBytes b
    let conf ← addPluginFiles fs file conf
    if conf.plugins = [] then .err (.text b!"no plugin configs found") else .ok conf

/-- libcni/conf.go:280-286 `ConfFromFile`. -/
def confFromFile (fs : ConfFS) (file : Bytes) : Out PluginConfig :=
  match fs.readFile file with
  | none => .err (.text (b!"error reading " ++ file))
  | some b => pluginConfFromBytes b

/-- Errors of the lookup functions that callers distinguish: libcni/conf.go:31-34 `NotFoundError`,
libcni/conf.go:40-42 `NoConfigsFoundError`. -/
def notFoundErr (dir name : Bytes) : GoErr := .text (b!"no net configuration with name \"" ++ name ++ b!"\" in " ++ dir)
/-- libcni/conf.go:40-42 `NoConfigsFoundError`. -/
def noConfigsErr (dir : Bytes) : GoErr := .text (b!"no net configurations found in " ++ dir)

/-- The loop of libcni/conf.go:327-347 `LoadConf`. -/
def loadConfLoop (fs : ConfFS) (dir name : Bytes) : List Bytes → Out PluginConfig
  | [] => .err (notFoundErr dir name)
  | f :: l => do
    let c ← confFromFile fs f
    if c.network.name = name then .ok c else loadConfLoop fs dir name l

/-- The loop of libcni/conf.go:356-389 `LoadNetworkConf`; `none`: no list matched. -/
def loadListLoop (fs : ConfFS) (name : Bytes) : List Bytes → Out (Option NetConfList)
  | [] => .ok none
  | f :: l => do
    let c ← networkConfFromFile fs f
    if c.name = name then .ok (some c) else loadListLoop fs name l

/-- libcni/conf.go:327-347 `LoadConf` (files given as listed), with the special error for "no files". -/
def loadConf (fs : ConfFS) (dir name : Bytes) : Out PluginConfig := do
  let files ← confFiles fs dir [b!".conf", b!".json"]
  if files = [] then .err (noConfigsErr dir) else loadConfLoop fs dir name (sortStrings files)

/-- libcni/conf.go:356-389 `LoadNetworkConf`. -/
def loadNetworkConf (fs : ConfFS) (dir name : Bytes) : Out NetConfList := do
  let files ← confFiles fs dir [b!".conflist"]
  match ← loadListLoop fs name (sortStrings files) with
  | some c => .ok c
  | none => do
    let single ← confFiles fs dir [b!".conf", b!".json"]
    if single = [] then .err (if files = [] then noConfigsErr dir else notFoundErr dir name)
    else do
      let c ← loadConfLoop fs dir name (sortStrings single)
      confListFromConf c

example : (networkConfFromBytes b!"{\"name\":\"n\",\"cniVersions\":[\"0.4.0\",\"9.0\",\"1.0.0\"],\"disableCheck\":\"TRUE\",\"plugins\":[{\"type\":\"bridge\",\"mtu\":1.50e3}]}").toOption
    = some { name := b!"n", cniVersion := b!"1.0.0", disableCheck := true,
             plugins := [{ network := { type := b!"bridge" }, bytes := b!"{\"mtu\":1500,\"type\":\"bridge\"}" }],
             bytes := b!"{\"name\":\"n\",\"cniVersions\":[\"0.4.0\",\"9.0\",\"1.0.0\"],\"disableCheck\":\"TRUE\",\"plugins\":[{\"type\":\"bridge\",\"mtu\":1.50e3}]}" } := by
  decide +kernel

end Verif
