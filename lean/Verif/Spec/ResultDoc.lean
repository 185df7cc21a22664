/- What a result document says. -/
import Verif.Spec.Fields
import Verif.Types.Results

namespace Verif.Spec

/-- DNS settings. -/
structure IsDns (ms : List (Bytes × Json)) (d : Dns) : Prop where
  nameservers : Field ms b!"nameservers" (ListVal TextElem) d.nameservers
  domain : Field ms b!"domain" TextVal d.domain
  search : Field ms b!"search" (ListVal TextElem) d.search
  options : Field ms b!"options" (ListVal TextElem) d.options

/-- A route. -/
structure IsRoute (ms : List (Bytes × Json)) (r : Route) : Prop where
  dst : Field ms b!"dst" NetVal r.dst
  gw : Field ms b!"gw" AddrVal r.gw
  mtu : Field ms b!"mtu" IntVal r.mtu
  advmss : Field ms b!"advmss" IntVal r.advmss
  priority : Field ms b!"priority" IntVal r.priority
  table : Field ms b!"table" OptIntVal r.table
  scope : Field ms b!"scope" OptIntVal r.scope

/-- The settings of one address family, up to 0.2.0. -/
structure IsIp020 (ms : List (Bytes × Json)) (i : Ip020) : Prop where
  ip : Field ms b!"ip" NetVal i.ip
  gateway : Field ms b!"gateway" AddrVal i.gateway
  routes : Field ms b!"routes" (ListVal (Record IsRoute)) i.routes

/-- A result up to 0.2.0 (`cniVersion` as it is written). -/
structure IsResult020 (ms : List (Bytes × Json)) (r : R020) : Prop where
  cniVersion : Field ms b!"cniVersion" TextVal r.cniVersion
  ip4 : Field ms b!"ip4" (OptRecordVal IsIp020) r.ip4
  ip6 : Field ms b!"ip6" (OptRecordVal IsIp020) r.ip6
  dns : Field ms b!"dns" (RecordVal IsDns) r.dns

/-- An interface, 0.3.0 to 0.4.0. -/
structure IsIntf040 (ms : List (Bytes × Json)) (i : Intf040) : Prop where
  name : Field ms b!"name" TextVal i.name
  mac : Field ms b!"mac" TextVal i.mac
  sandbox : Field ms b!"sandbox" TextVal i.sandbox

/-- An address, 0.3.0 to 0.4.0. -/
structure IsIp040 (ms : List (Bytes × Json)) (i : Ip040) : Prop where
  version : Field ms b!"version" TextVal i.version
  interface : Field ms b!"interface" OptIntVal i.interface
  address : Field ms b!"address" NetVal i.address
  gateway : Field ms b!"gateway" AddrVal i.gateway

/-- A result, 0.3.0 to 0.4.0. -/
structure IsResult040 (ms : List (Bytes × Json)) (r : R040) : Prop where
  cniVersion : Field ms b!"cniVersion" TextVal r.cniVersion
  interfaces : Field ms b!"interfaces" (ListVal (OptRecord IsIntf040)) r.interfaces
  ips : Field ms b!"ips" (ListVal (OptRecord IsIp040)) r.ips
  routes : Field ms b!"routes" (ListVal (OptRecord IsRoute)) r.routes
  dns : Field ms b!"dns" (RecordVal IsDns) r.dns

/-- An interface, from 1.0.0. -/
structure IsIntf100 (ms : List (Bytes × Json)) (i : Intf100) : Prop where
  name : Field ms b!"name" TextVal i.name
  mac : Field ms b!"mac" TextVal i.mac
  mtu : Field ms b!"mtu" IntVal i.mtu
  sandbox : Field ms b!"sandbox" TextVal i.sandbox
  socketPath : Field ms b!"socketPath" TextVal i.socketPath
  pciID : Field ms b!"pciID" TextVal i.pciID

/-- An address, from 1.0.0. -/
structure IsIp100 (ms : List (Bytes × Json)) (i : Ip100) : Prop where
  interface : Field ms b!"interface" OptIntVal i.interface
  address : Field ms b!"address" NetVal i.address
  gateway : Field ms b!"gateway" AddrVal i.gateway

/-- A result, from 1.0.0. -/
structure IsResult100 (ms : List (Bytes × Json)) (r : R100) : Prop where
  cniVersion : Field ms b!"cniVersion" TextVal r.cniVersion
  interfaces : Field ms b!"interfaces" (ListVal (OptRecord IsIntf100)) r.interfaces
  ips : Field ms b!"ips" (ListVal (OptRecord IsIp100)) r.ips
  routes : Field ms b!"routes" (ListVal (OptRecord IsRoute)) r.routes
  dns : Field ms b!"dns" (RecordVal IsDns) r.dns

/-- A document is a result of the form of a version: the document names a version of the same form (none counts as 0.1.0, for the oldest form only). -/
def SaysResult (version : Bytes) (j : Json) : Result → Prop
  | .v020 r => version ∈ [b!"", b!"0.1.0", b!"0.2.0"] ∧ ∃ v, v ∈ [b!"", b!"0.1.0", b!"0.2.0"] ∧ Record IsResult020 j { r with cniVersion := v } ∧
      r.cniVersion = if v = [] then b!"0.1.0" else v
  | .v040 r => version ∈ [b!"0.3.0", b!"0.3.1", b!"0.4.0"] ∧ r.cniVersion ∈ [b!"0.3.0", b!"0.3.1", b!"0.4.0"] ∧ Record IsResult040 j r
  | .v100 r => version ∈ [b!"1.0.0", b!"1.1.0"] ∧ r.cniVersion ∈ [b!"1.0.0", b!"1.1.0"] ∧ Record IsResult100 j r

end Verif.Spec
