/- types.PluginConf: printing as JSON. -/
import Verif.Types.PluginConf
import Verif.Libcni.Api

namespace Verif

/-- pkg/types/types.go:113-115 `IPAM.IsEmpty`. -/
def ipamIsEmpty (type : Bytes) : Bool := type = []

/-- `json.Marshal` of the struct pkg/types/types.go:64-78 `PluginConf`. Neither `ipam` nor `dns` is omitted when empty (`omitempty` does
not apply to structs), and `PrevResult` is not printed. -/
def PluginConf.members (c : PluginConf) : List (Bytes × Json) :=
  jopt (c.cniVersion ≠ []) b!"cniVersion" (.str c.cniVersion) ++
  jopt (c.name ≠ []) b!"name" (.str c.name) ++
  jopt (c.type ≠ []) b!"type" (.str c.type) ++
  jopt (c.capabilities ≠ []) b!"capabilities" (.obj (c.capabilities.map fun p => (p.1, .bool p.2))) ++
  [(b!"ipam", .obj (jopt (c.ipamType ≠ []) b!"type" (.str c.ipamType)))] ++
  [(b!"dns", jDns c.dns)] ++
  jopt (c.rawPrev.getD [] ≠ []) b!"prevResult" (.obj (c.rawPrev.getD [])) ++
  jopt (c.validAttachments ≠ []) b!"cni.dev/valid-attachments" (jAttachments c.validAttachments)

/-- pkg/types/types.go:90-106 `PluginConf.MarshalJSON`: through a map, dropping an empty `dns`. The intermediate print and parse is
collapsed: strings are UTF-8-sanitised when finally printed. -/
def PluginConf.json (c : PluginConf) : Option Json :=
  match (Json.obj c.members).toAny with
  | some (.obj ms) => some (.obj (if c.dns.isEmpty then GoMap.erase ms b!"dns" else ms))
  | _ => none

/-- pkg/types/types.go:90-106 `PluginConf.MarshalJSON`: the bytes. -/
def PluginConf.marshal (c : PluginConf) : Out Bytes :=
  match c.json with
  | some j => .ok j.print
  | none => .err (.text b!"json: unsupported value")

end Verif
