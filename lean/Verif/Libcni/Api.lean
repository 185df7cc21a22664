/- libcni/api.go: the runtime operations. -/
import Verif.Libcni.Cache
import Verif.Utils.Validate

namespace Verif

/-- libcni/api.go:891-900 `CNIConfig.args`. -/
def CNIConfig.args (c : CNIConfig) (action : Bytes) (rt : RuntimeConf) : PArgs :=
  .args { command := action, containerID := rt.containerID, netNS := rt.netNS, pluginArgs := rt.args, ifName := rt.ifName,
          path := joinWith b!":" c.path }

/-- An `Exec.FindInPath` call whose error is returned. E.g. in libcni/api.go:490-512 `CNIConfig.addNetwork`.
-/
def findPlugin (type : Bytes) (paths : List Bytes) : Prog Bytes :=
  .op (.find type paths) fun r =>
    match (r : Except GoErr Bytes) with
    | .ok p => .done (.ok p)
    | .error e => .done (.err e)

/-- pkg/invoke/exec.go:121-137 `ExecPluginWithResult`. -/
def execWithResult (path netconf : Bytes) (args : PArgs) : Prog Result :=
  .op (.exec path netconf args) fun r =>
    match (r : Except GoErr Bytes) with
    | .ok out => .done (resultOfOutput netconf out)
    | .error e => .done (.err e)

/-- pkg/invoke/exec.go:139-145 `ExecPluginWithoutResult`. -/
def execWithoutResult (path netconf : Bytes) (args : PArgs) : Prog Unit :=
  .op (.exec path netconf args) fun r =>
    match (r : Except GoErr Bytes) with
    | .ok _ => .done (.ok ())
    | .error e => .done (.err e)

/-- The validations of libcni/api.go:490-512 `CNIConfig.addNetwork`, in order. -/
def validateAdd (name : Bytes) (rt : RuntimeConf) : Out Unit :=
  match validateContainerID rt.containerID with
  | some e => .err (.cni e)
  | none =>
    match validateNetworkName name with
    | some e => .err (.cni e)
    | none =>
      match validateInterfaceName rt.ifName with
      | some e => .err (.cni e)
      | none => .ok ()

/-- libcni/api.go:490-512 `CNIConfig.addNetwork`. -/
def CNIConfig.addNetwork1 (c : CNIConfig) (name ver : Bytes) (net : PluginConfig) (prev : Option Result) (rt : RuntimeConf) :
    Prog Result := do
  let path ← findPlugin net.network.type c.path
  let _ ← Prog.lift (validateAdd name rt)
  let conf ← Prog.lift (buildOneConfig name ver net prev rt)
  execWithResult path conf.bytes (c.args b!"ADD" rt)

/-- libcni/api.go:615-626 `pluginDescription`, without Go's quoting. -/
def pluginDescription (n : PluginConf) : Bytes :=
  b!"type=" ++ n.type ++ (if n.name = [] then [] else b!" name=" ++ n.name)

/-- The loop of libcni/api.go:515-530 `CNIConfig.AddNetworkList`. -/
def CNIConfig.addLoop (c : CNIConfig) (name ver : Bytes) (rt : RuntimeConf) : List PluginConfig → Option Result → Prog (Option Result)
  | [], prev => .done (.ok prev)
  | net :: rest, prev =>
    ((c.addNetwork1 name ver net prev rt).mapErr (.wrap (b!"plugin " ++ pluginDescription net.network ++ b!" failed (add)"))).bind
      fun r => c.addLoop name ver rt rest (some r)

/-- libcni/api.go:515-530 `CNIConfig.AddNetworkList`. -/
def CNIConfig.addNetworkList (c : CNIConfig) (list : NetConfList) (rt : RuntimeConf) : Prog (Option Result) := do
  let r ← c.addLoop list.name list.cniVersion rt list.plugins none
  let _ ← (c.cacheAdd r list.bytes list.name rt).mapErr (.wrap (b!"failed to set network cached result: " ++ list.name))
  Prog.done (.ok r)

/-- libcni/api.go:532-545 `CNIConfig.checkNetwork`, libcni/api.go:574-587 `CNIConfig.delNetwork`: the verb is the only difference. -/
def CNIConfig.runNetwork1 (c : CNIConfig) (verb name ver : Bytes) (net : PluginConfig) (prev : Option Result) (rt : RuntimeConf) :
    Prog Unit := do
  let path ← findPlugin net.network.type c.path
  let conf ← Prog.lift (buildOneConfig name ver net prev rt)
  execWithoutResult path conf.bytes (c.args verb rt)

/-- The loop of libcni/api.go:548-572 `CNIConfig.CheckNetworkList`. -/
def CNIConfig.checkLoop (c : CNIConfig) (name ver : Bytes) (prev : Option Result) (rt : RuntimeConf) : List PluginConfig → Prog Unit
  | [] => .done (.ok ())
  | net :: rest =>
    (c.runNetwork1 b!"CHECK" name ver net prev rt).bind fun _ => c.checkLoop name ver prev rt rest

/-- The error of CHECK for a version without it. libcni/api.go:532-545 `CNIConfig.checkNetwork` and
libcni/api.go:548-572 `CNIConfig.CheckNetworkList`. -/
def checkNotSupported (ver : Bytes) : GoErr := .wrap (b!"configuration version " ++ ver) (.text b!"does not support the CHECK command")

/-- libcni/api.go:548-572 `CNIConfig.CheckNetworkList`. -/
def CNIConfig.checkNetworkList (c : CNIConfig) (list : NetConfList) (rt : RuntimeConf) : Prog Unit :=
  match gte list.cniVersion b!"0.4.0" with
  | .err e => .done (.err e)
  | .panic => .done .panic
  | .ok false => .done (.err (checkNotSupported list.cniVersion))
  | .ok true =>
    if list.disableCheck then .done (.ok ())
    else ((c.getCachedResult list.name list.cniVersion rt).mapErr (.wrap (b!"failed to get network cached result: " ++ list.name))).bind
      fun prev => c.checkLoop list.name list.cniVersion prev rt list.plugins

/-- The loop of libcni/api.go:590-613 `CNIConfig.DelNetworkList`, over the plugins from last to first. -/
def CNIConfig.delLoop (c : CNIConfig) (name ver : Bytes) (prev : Option Result) (rt : RuntimeConf) : List PluginConfig → Prog Unit
  | [] => .done (.ok ())
  | net :: rest =>
    ((c.runNetwork1 b!"DEL" name ver net prev rt).mapErr
        (.wrap (b!"plugin " ++ pluginDescription net.network ++ b!" failed (delete)"))).bind
      fun _ => c.delLoop name ver prev rt rest

/-- The cached result in libcni/api.go:590-613 `CNIConfig.DelNetworkList`: a cache entry that cannot be used is removed and ignored. -/
def CNIConfig.delPrev (c : CNIConfig) (list : NetConfList) (rt : RuntimeConf) : Prog (Option Result) :=
  (c.getCachedResult list.name list.cniVersion rt).attempt.bind fun r =>
    match r with
    | .ok prev => .done (.ok prev)
    | .error _ => (c.cacheDel list.name rt).attempt.bind fun _ => .done (.ok none)

/-- libcni/api.go:590-613 `CNIConfig.DelNetworkList`. -/
def CNIConfig.delNetworkList (c : CNIConfig) (list : NetConfList) (rt : RuntimeConf) : Prog Unit :=
  let rest := fun prev => (c.delLoop list.name list.cniVersion prev rt list.plugins.reverse).bind
    fun _ => (c.cacheDel list.name rt).attempt.bind fun _ => .done (.ok ())
  match gte list.cniVersion b!"0.4.0" with
  | .err e => .done (.err e)
  | .panic => .done .panic
  | .ok false => rest none
  | .ok true => (c.delPrev list rt).bind rest

/-- libcni/api.go:629-640 `CNIConfig.AddNetwork`. -/
def CNIConfig.addNetwork (c : CNIConfig) (net : PluginConfig) (rt : RuntimeConf) : Prog Result := do
  let r ← c.addNetwork1 net.network.name net.network.cniVersion net none rt
  let _ ← (c.cacheAdd (some r) net.bytes net.network.name rt).mapErr
    (.wrap (b!"failed to set network cached result: " ++ net.network.name))
  Prog.done (.ok r)

/-- libcni/api.go:643-656 `CNIConfig.CheckNetwork`. -/
def CNIConfig.checkNetwork (c : CNIConfig) (net : PluginConfig) (rt : RuntimeConf) : Prog Unit :=
  match gte net.network.cniVersion b!"0.4.0" with
  | .err e => .done (.err e)
  | .panic => .done .panic
  | .ok false => .done (.err (checkNotSupported net.network.cniVersion))
  | .ok true =>
    ((c.getCachedResult net.network.name net.network.cniVersion rt).mapErr
        (.wrap (b!"failed to get network cached result: " ++ net.network.name))).bind
      fun prev => c.runNetwork1 b!"CHECK" net.network.name net.network.cniVersion net prev rt

/-- libcni/api.go:659-677 `CNIConfig.DelNetwork`. -/
def CNIConfig.delNetwork (c : CNIConfig) (net : PluginConfig) (rt : RuntimeConf) : Prog Unit :=
  let rest := fun prev => (c.runNetwork1 b!"DEL" net.network.name net.network.cniVersion net prev rt).bind
    fun _ => (c.cacheDel net.network.name rt).attempt.bind fun _ => .done (.ok ())
  match gte net.network.cniVersion b!"0.4.0" with
  | .err e => .done (.err e)
  | .panic => .done .panic
  | .ok false => rest none
  | .ok true =>
    ((c.getCachedResult net.network.name net.network.cniVersion rt).mapErr
        (.wrap (b!"failed to get network cached result: " ++ net.network.name))).bind rest

/-- libcni/api.go:406-408 `CNIConfig.GetNetworkListCachedResult`. -/
def CNIConfig.getNetworkListCachedResult (c : CNIConfig) (list : NetConfList) (rt : RuntimeConf) : Prog (Option Result) :=
  c.getCachedResult list.name list.cniVersion rt
/-- libcni/api.go:412-414 `CNIConfig.GetNetworkCachedResult`. -/
def CNIConfig.getNetworkCachedResult (c : CNIConfig) (net : PluginConfig) (rt : RuntimeConf) : Prog (Option Result) :=
  c.getCachedResult net.network.name net.network.cniVersion rt
/-- libcni/api.go:418-420 `CNIConfig.GetNetworkListCachedConfig`. -/
def CNIConfig.getNetworkListCachedConfig (c : CNIConfig) (list : NetConfList) (rt : RuntimeConf) :
    Prog (Option (Bytes × RuntimeConf)) := c.getCachedConfig list.name rt
/-- libcni/api.go:424-426 `CNIConfig.GetNetworkCachedConfig`. -/
def CNIConfig.getNetworkCachedConfig (c : CNIConfig) (net : PluginConfig) (rt : RuntimeConf) :
    Prog (Option (Bytes × RuntimeConf)) := c.getCachedConfig net.network.name rt

/-! ### validation -/

/-- The `Args` of pkg/invoke/exec.go:151-173 `GetVersionInfo`. -/
def versionArgs : PArgs := .args { command := b!"VERSION", netNS := b!"dummy", ifName := b!"dummy", path := b!"dummy" }
/-- The stdin of pkg/invoke/exec.go:151-173 `GetVersionInfo`. -/
def versionStdin : Bytes := b!"{\"cniVersion\":\"1.1.0\"}"

/-- What pkg/invoke/exec.go:151-173 `GetVersionInfo` makes of the answer. -/
def versionInfoOf : Except GoErr Bytes → Out PluginInfo
  | .ok out => decodePluginInfo out
  | .error e => if e.msg = b!"unknown CNI_COMMAND: VERSION" then pluginSupports [b!"0.1.0"] else .err e

/-- pkg/invoke/exec.go:151-173 `GetVersionInfo`; the `Decode` method of the `Exec` is that of `DefaultExec`. -/
def getVersionInfoAt (path : Bytes) : Prog PluginInfo :=
  .op (.exec path versionStdin versionArgs) fun r => .done (versionInfoOf r)

/-- libcni/api.go:757-765 `CNIConfig.GetVersionInfo`. -/
def CNIConfig.getVersionInfo (c : CNIConfig) (pluginType : Bytes) : Prog PluginInfo := do
  let path ← findPlugin pluginType c.path
  getVersionInfoAt path

/-- The end of libcni/api.go:733-753 `CNIConfig.validatePlugin`. -/
def supportsCheck (type ver : Bytes) (vi : PluginInfo) : Out Unit :=
  let expected := if ver = [] then b!"0.1.0" else ver
  if expected ∈ vi.supported then .ok ()
  else .err (.text (b!"plugin " ++ type ++ b!" does not support config version " ++ expected))

/-- libcni/api.go:733-753 `CNIConfig.validatePlugin`. -/
def CNIConfig.validatePlugin (c : CNIConfig) (type ver : Bytes) : Prog Unit := do
  let path ← findPlugin type c.path
  let vi ← getVersionInfoAt path
  Prog.lift (supportsCheck type ver vi)

/-- The names of the enabled capabilities: the `for c, enabled := range …` loop in
libcni/api.go:684-714 `CNIConfig.ValidateNetworkList`. -/
def enabledCaps (m : GoMap Bool) : List Bytes := (m.filter (·.2)).map Prod.fst

/-- The loop of libcni/api.go:684-714 `CNIConfig.ValidateNetworkList`: the errors and the map of capabilities. -/
def CNIConfig.validateLoop (c : CNIConfig) (ver : Bytes) : List PluginConfig → List GoErr → GoMap Unit → Prog (List GoErr × GoMap Unit)
  | [], errs, caps => .done (.ok (errs, caps))
  | net :: rest, errs, caps =>
    (c.validatePlugin net.network.type ver).attempt.bind fun r =>
      c.validateLoop ver rest (match r with | .ok _ => errs | .error e => errs ++ [e])
        (GoMap.insertAll caps ((enabledCaps net.network.capabilities).map fun k => (k, ())))

/-- libcni/api.go:684-714 `CNIConfig.ValidateNetworkList`; the returned names are in some order (Go's map iteration). -/
def CNIConfig.validateNetworkList (c : CNIConfig) (list : NetConfList) : Prog (List Bytes) :=
  (c.validateLoop list.cniVersion list.plugins [] []).bind fun st =>
    if st.1 ≠ [] then .done (.err (.text (b!"[" ++ joinWith b!" " (st.1.map GoErr.msg) ++ b!"]")))
    else .done (.ok (st.2.map Prod.fst))

/-- libcni/api.go:719-730 `CNIConfig.ValidateNetwork`. -/
def CNIConfig.validateNetwork (c : CNIConfig) (net : PluginConfig) : Prog (List Bytes) :=
  (c.validatePlugin net.network.type net.network.cniVersion).bind fun _ =>
    .done (.ok (enabledCaps net.network.capabilities))

/-! ### GC and STATUS -/

/-- libcni/api.go:844-853 `CNIConfig.gcNetwork`, libcni/api.go:879-888 `CNIConfig.getStatusNetwork`: the verb is the only difference. -/
def CNIConfig.bareNetwork1 (c : CNIConfig) (verb : Bytes) (net : PluginConfig) : Prog Unit := do
  let path ← findPlugin net.network.type c.path
  execWithoutResult path net.bytes (c.args verb {})

/-- The runtime configuration of a stale attachment in libcni/api.go:770-842 `CNIConfig.GCNetworkList`. -/
def Attachment.rt (a : Attachment) : RuntimeConf :=
  { containerID := a.containerID, netNS := a.netNS, ifName := a.ifName, args := a.cniArgs, capArgs := a.capArgs }

/-- The condition on an attachment in libcni/api.go:770-842 `CNIConfig.GCNetworkList`; `valid = none` is a nil `*GCArgs`. -/
def isStale (name : Bytes) (valid : Option (List GCAttachment)) (a : Attachment) : Bool :=
  decide (a.network = name) && !(valid.getD []).contains { containerID := a.containerID, ifName := a.ifName }

/-- The first loop of libcni/api.go:770-842 `CNIConfig.GCNetworkList`; the errors collected. -/
def CNIConfig.gcDelLoop (c : CNIConfig) (list : NetConfList) (valid : Option (List GCAttachment)) :
    List Attachment → List GoErr → Prog (List GoErr)
  | [], errs => .done (.ok errs)
  | a :: rest, errs =>
    if isStale list.name valid a then
      (c.delNetworkList list a.rt).attempt.bind fun r =>
        c.gcDelLoop list valid rest (match r with
          | .ok _ => errs
          | .error e => errs ++ [.wrap (b!"failed to delete stale attachment " ++ a.containerID ++ b!" " ++ a.ifName) e])
    else c.gcDelLoop list valid rest errs

/-- A pkg/types/types.go:83-86 `GCAttachment` as JSON. -/
def jAttachment (a : GCAttachment) : Json := .obj [(b!"containerID", .str a.containerID), (b!"ifname", .str a.ifName)]

/-- `[]types.GCAttachment` as JSON; nil prints as `null`: see `gcValuesNil`; this is the non-nil
list's. The value of `cni.dev/valid-attachments` injected in libcni/api.go:770-842 `CNIConfig.GCNetworkList`;
the struct is pkg/types/types.go:83-86 `GCAttachment`. -/
def jAttachments (l : List GCAttachment) : Json := .arr (l.map jAttachment)

/-- The values injected by libcni/api.go:770-842 `CNIConfig.GCNetworkList` and libcni/api.go:855-877 `CNIConfig.GetStatusNetworkList`. -/
def gcValues (name ver : Bytes) (valid : Option (List GCAttachment)) : List (Bytes × Option Json) :=
  [(b!"name", some (.str name)), (b!"cniVersion", some (.str ver))] ++
    match valid with
    | none => []
    | some l => [(b!"cni.dev/valid-attachments", some (jAttachments l)), (b!"cni.dev/attachments", some (jAttachments l))]

/-- The second loop of libcni/api.go:770-842 `CNIConfig.GCNetworkList`. When the configuration cannot be generated the error is
recorded and the nil configuration is then dereferenced. -/
def CNIConfig.gcLoop (c : CNIConfig) (name ver : Bytes) (valid : Option (List GCAttachment)) :
    List PluginConfig → List GoErr → Prog (List GoErr)
  | [], errs => .done (.ok errs)
  | p :: rest, errs =>
    match injectConf p (gcValues name ver valid) with
    | .ok conf =>
      (c.bareNetwork1 b!"GC" conf).attempt.bind fun r =>
        c.gcLoop name ver valid rest (match r with
          | .ok _ => errs
          | .error e => errs ++ [.wrap (b!"failed to GC plugin " ++ p.network.type) e])
    | .err _ => .done .panic
    | .panic => .done .panic

/-- `if gt, _ := GreaterThanOrEqualTo(v, "1.1.0"); gt`. libcni/api.go:770-842 `CNIConfig.GCNetworkList` and
libcni/api.go:855-877 `CNIConfig.GetStatusNetworkList`. -/
def atLeast110 (v : Bytes) : Bool :=
  match gte v b!"1.1.0" with
  | .ok b => b
  | _ => false

/-- `errors.Join`. libcni/api.go:770-842 `CNIConfig.GCNetworkList`. -/
def joinErrs (errs : List GoErr) : Out Unit := if errs = [] then .ok () else .err (.joined errs)

/-- libcni/api.go:770-842 `CNIConfig.GCNetworkList`; `valid = none` is a nil `*GCArgs`. -/
def CNIConfig.gcNetworkList (c : CNIConfig) (list : NetConfList) (valid : Option (List GCAttachment)) : Prog Unit :=
  if list.disableGC then .done (.ok ())
  else (c.getCachedAttachments []).attempt.bind fun r =>
    match r with
    | .error _ => .done (.ok ())
    | .ok atts => (c.gcDelLoop list valid atts []).bind fun errs =>
      if atLeast110 list.cniVersion then
        (c.gcLoop list.name list.cniVersion valid list.plugins errs).bind fun errs => Prog.lift (joinErrs errs)
      else Prog.lift (joinErrs errs)

/-- The loop of libcni/api.go:855-877 `CNIConfig.GetStatusNetworkList`. -/
def CNIConfig.statusLoop (c : CNIConfig) (name ver : Bytes) : List PluginConfig → Prog Unit
  | [] => .done (.ok ())
  | p :: rest =>
    (Prog.lift ((injectConf p (gcValues name ver none)).wrapErr
        (b!"failed to generate configuration to get plugin STATUS " ++ p.network.type))).bind fun conf =>
      (c.bareNetwork1 b!"STATUS" conf).bind fun _ => c.statusLoop name ver rest

/-- libcni/api.go:855-877 `CNIConfig.GetStatusNetworkList`. -/
def CNIConfig.getStatusNetworkList (c : CNIConfig) (list : NetConfList) : Prog Unit :=
  if atLeast110 list.cniVersion then c.statusLoop list.name list.cniVersion list.plugins else .done (.ok ())

/-! ### delegation -/

/-- `os.Getenv`: the first entry for the name, empty if there is none. Go standard library, used by
pkg/invoke/delegate.go:25-37 `delegateCommon` and, as `t.Getenv`, by
pkg/skel/skel.go:59-188 `dispatcher.getCmdArgsFromEnv`. -/
def getenv (environ : List Bytes) (k : Bytes) : Bytes :=
  match environ.find? (fun e => hasPrefix e (k ++ b!"=")) with
  | some e => e.drop (k.length + 1)
  | none => []

/-- pkg/invoke/delegate.go:25-37 `delegateCommon`. -/
def delegateCommon (environ : List Bytes) (plugin : Bytes) : Prog Bytes :=
  findPlugin plugin (splitList (getenv environ b!"CNI_PATH"))

/-- pkg/invoke/delegate.go:41-49 `DelegateAdd`. -/
def delegateAdd (environ : List Bytes) (plugin netconf : Bytes) : Prog Result := do
  let path ← delegateCommon environ plugin
  execWithResult path netconf (.delegate b!"ADD")

/-- pkg/invoke/delegate.go:57-64 `delegateNoResult`. -/
def delegateNoResult (environ : List Bytes) (plugin netconf verb : Bytes) : Prog Unit := do
  let path ← delegateCommon environ plugin
  execWithoutResult path netconf (.delegate verb)

/-- pkg/invoke/delegate.go:53-55 `DelegateCheck`. -/
def delegateCheck (environ : List Bytes) (plugin netconf : Bytes) : Prog Unit := delegateNoResult environ plugin netconf b!"CHECK"
/-- pkg/invoke/delegate.go:68-70 `DelegateDel`. -/
def delegateDel (environ : List Bytes) (plugin netconf : Bytes) : Prog Unit := delegateNoResult environ plugin netconf b!"DEL"
/-- pkg/invoke/delegate.go:74-76 `DelegateStatus`. -/
def delegateStatus (environ : List Bytes) (plugin netconf : Bytes) : Prog Unit := delegateNoResult environ plugin netconf b!"STATUS"
/-- pkg/invoke/delegate.go:80-82 `DelegateGC`. -/
def delegateGC (environ : List Bytes) (plugin netconf : Bytes) : Prog Unit := delegateNoResult environ plugin netconf b!"GC"

end Verif
