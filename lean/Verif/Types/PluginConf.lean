/- types.PluginConf: decoding from JSON, and version.ParsePrevResult. -/
import Verif.Types.ResultJson
import Verif.Version.Version
import Verif.Json.DecEq

namespace Verif

/-- pkg/types/types.go:83-86 `GCAttachment`. -/
structure GCAttachment where
  containerID : Bytes := []
  ifName : Bytes := []
  deriving DecidableEq, Repr, Inhabited

/-- pkg/types/types.go:64-78 `PluginConf`. `rawPrev = none` is a nil map; `IPAM` has the single field `Type`. -/
structure PluginConf where
  cniVersion : Bytes := []
  name : Bytes := []
  type : Bytes := []
  capabilities : GoMap Bool := []
  ipamType : Bytes := []
  dns : Dns := {}
  rawPrev : Option (GoMap Json) := none
  prevResult : Option Result := none
  validAttachments : List GCAttachment := []
  deriving DecidableEq, Inhabited

/-- The JSON names of pkg/types/types.go:64-78 `PluginConf`. -/
def pluginConfFields : List Bytes :=
  [b!"cniVersion", b!"name", b!"type", b!"capabilities", b!"ipam", b!"dns", b!"prevResult", b!"cni.dev/valid-attachments"]

/-- Into a `map[string]bool`: `null` gives nil, an object adds to what is there; a `null` value is
false. Field of pkg/types/types.go:64-78 `PluginConf`. -/
def decBoolMap (cur : GoMap Bool) : Json → Option (GoMap Bool)
  | .null => some []
  | .obj ms => (ms.mapM fun m => (decBool false m.2).map fun b => (m.1, b)).map (GoMap.insertAll cur)
  | _ => none

/-- Into a `map[string]interface{}`. Field of pkg/types/types.go:64-78 `PluginConf`. -/
def decAnyMap (cur : Option (GoMap Json)) : Json → Option (Option (GoMap Json))
  | .null => some none
  | .obj ms => (Json.toAnyMembers ms).map fun l => some (GoMap.insertAll (cur.getD []) l)
  | _ => none

/-- Into an `IPAM` struct (pkg/types/types.go:108-110 `IPAM`). -/
def decIpam (cur : Bytes) (j : Json) : Option Bytes := do
  let ms ← structMembers j
  decAll decStr cur (getField [b!"type"] b!"type" ms)

/-- Into a pkg/types/types.go:83-86 `GCAttachment`. -/
def decAttachment (j : Json) : Option GCAttachment := do
  let ms ← structMembers j
  let c ← decAll decStr [] (getField [b!"containerID", b!"ifname"] b!"containerID" ms)
  let i ← decAll decStr [] (getField [b!"containerID", b!"ifname"] b!"ifname" ms)
  some { containerID := c, ifName := i }

/-- `json.Unmarshal` into an empty pkg/types/types.go:64-78 `PluginConf`. -/
def decPluginConf (j : Json) : Option PluginConf := do
  let ms ← structMembers j
  let v ← decAll decStr [] (getField pluginConfFields b!"cniVersion" ms)
  let n ← decAll decStr [] (getField pluginConfFields b!"name" ms)
  let t ← decAll decStr [] (getField pluginConfFields b!"type" ms)
  let c ← decAll decBoolMap [] (getField pluginConfFields b!"capabilities" ms)
  let i ← decAll decIpam [] (getField pluginConfFields b!"ipam" ms)
  let d ← decAll decDns {} (getField pluginConfFields b!"dns" ms)
  let p ← decAll decAnyMap none (getField pluginConfFields b!"prevResult" ms)
  let a ← decAll (decList decAttachment) [] (getField pluginConfFields b!"cni.dev/valid-attachments" ms)
  some { cniVersion := v, name := n, type := t, capabilities := c, ipamType := i, dns := d, rawPrev := p,
         validAttachments := a }

/-- pkg/version/version.go:66-90 `ParsePrevResult`: the configuration afterwards and the error, if any. -/
def parsePrevResult (c : PluginConf) : PluginConf × Option GoErr :=
  match c.rawPrev with
  | none => (c, none)
  | some m =>
    let ver := GoMap.get? m b!"CNIVersion"
    let m' := if ver = none ∨ ver = some (.str []) then GoMap.insert m b!"CNIVersion" (.str c.cniVersion) else m
    match create c.cniVersion (Json.obj m').print with
    | .ok r => ({ c with rawPrev := none, prevResult := some r }, none)
    | .err e => ({ c with rawPrev := none, prevResult := none }, some (.wrap b!"could not parse prevResult" e))
    | .panic => ({ c with rawPrev := none, prevResult := none }, some (.text b!"unreachable: create does not panic"))

end Verif
