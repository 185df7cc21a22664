/-
JSON forms of results: `json.Marshal` of each result type, `json.Unmarshal` into it, NewResult and
create.Create. The decoders treat a repeated list field as a fresh list (Go would decode the second
occurrence over the elements of the first).
-/
import Verif.Types.Results
import Verif.Json.Alike

namespace Verif

/-- Into a pointer: `null` gives nil. E.g. the pointer fields of
pkg/types/020/types.go:103-108 `Result`. -/
def decPtr {α : Type} (dec : Json → Option α) (j : Json) : Option (Option α) :=
  match j with
  | .null => some none
  | _ => (dec j).map some

/-- Into a slice: `null` gives nil (not distinguished from empty). E.g. the slices of
pkg/types/100/types.go:90-96 `Result`. -/
def decList {α : Type} (dec : Json → Option α) (_cur : List α) (j : Json) : Option (List α) :=
  match j with
  | .null => some []
  | .arr l => l.mapM dec
  | _ => none

/-- A pointer that is not nil, or `null`: e.g. the elements of the slices of
pkg/types/100/types.go:90-96 `Result`. -/
def jPtr {α : Type} (enc : α → Json) : Option α → Json
  | none => .null
  | some a => enc a

/-! ### DNS -/

/-- The JSON fields of pkg/types/types.go:153-158 `DNS`. -/
def dnsFields : List Bytes := [b!"nameservers", b!"domain", b!"search", b!"options"]

/-- Encoding of pkg/types/types.go:153-158 `DNS`. -/
def Dns.members (d : Dns) : List (Bytes × Json) :=
  jopt (d.nameservers ≠ []) b!"nameservers" (jStrList d.nameservers) ++
  jopt (d.domain ≠ []) b!"domain" (.str d.domain) ++
  jopt (d.search ≠ []) b!"search" (jStrList d.search) ++
  jopt (d.options ≠ []) b!"options" (jStrList d.options)
/-- The document of a pkg/types/types.go:153-158 `DNS`. -/
def jDns (d : Dns) : Json := .obj d.members

/-- Decoding into an existing pkg/types/types.go:153-158 `DNS` value. -/
def decDns (cur : Dns) (j : Json) : Option Dns := do
  let ms ← structMembers j
  let ns ← decAll decStrList cur.nameservers (getField dnsFields b!"nameservers" ms)
  let dm ← decAll decStr cur.domain (getField dnsFields b!"domain" ms)
  let se ← decAll decStrList cur.search (getField dnsFields b!"search" ms)
  let op ← decAll decStrList cur.options (getField dnsFields b!"options" ms)
  some { nameservers := ns, domain := dm, search := se, options := op }

/-! ### Route -/

/-- The JSON fields of pkg/types/types.go:180-188 `Route`, encoded as
pkg/types/types.go:277-285 `route`. -/
def routeFields : List Bytes := [b!"dst", b!"gw", b!"mtu", b!"advmss", b!"priority", b!"table", b!"scope"]

/-- pkg/types/types.go:304-316 `Route.MarshalJSON`. -/
def Route.members (r : Route) : List (Bytes × Json) :=
  [(b!"dst", jIPNet r.dst)] ++
  jopt (r.gw ≠ []) b!"gw" (jIP r.gw) ++
  jopt (r.mtu ≠ 0) b!"mtu" (jInt r.mtu) ++
  jopt (r.advmss ≠ 0) b!"advmss" (jInt r.advmss) ++
  jopt (r.priority ≠ 0) b!"priority" (jInt r.priority) ++
  jopt (r.table.isSome) b!"table" (jPtr jInt r.table) ++
  jopt (r.scope.isSome) b!"scope" (jPtr jInt r.scope)
/-- The document of a pkg/types/types.go:180-188 `Route`, encoded as
pkg/types/types.go:277-285 `route`. -/
def jRoute (r : Route) : Json := .obj r.members

/-- pkg/types/types.go:287-302 `Route.UnmarshalJSON`. -/
def decRoute (j : Json) : Option Route := do
  let ms ← structMembers j
  let dst ← decAll decIPNet {} (getField routeFields b!"dst" ms)
  let gw ← decAll decIP [] (getField routeFields b!"gw" ms)
  let mtu ← decAll decInt 0 (getField routeFields b!"mtu" ms)
  let adv ← decAll decInt 0 (getField routeFields b!"advmss" ms)
  let pri ← decAll decInt 0 (getField routeFields b!"priority" ms)
  let tab ← decAll decOptInt none (getField routeFields b!"table" ms)
  let sco ← decAll decOptInt none (getField routeFields b!"scope" ms)
  some { dst := dst, gw := gw, mtu := mtu, advmss := adv, priority := pri, table := tab, scope := sco }

/-! ### 0.2.0 -/

/-- The JSON fields of pkg/types/020/types.go:137-141 `IPConfig`. -/
def ip020Fields : List Bytes := [b!"ip", b!"gateway", b!"routes"]

/-- pkg/types/020/types.go:169-177 `IPConfig.MarshalJSON`. -/
def Ip020.members (i : Ip020) : List (Bytes × Json) :=
  [(b!"ip", jIPNet i.ip)] ++
  jopt (i.gateway ≠ []) b!"gateway" (jIP i.gateway) ++
  jopt (i.routes ≠ []) b!"routes" (.arr (i.routes.map jRoute))
/-- The document of a pkg/types/020/types.go:137-141 `IPConfig`. -/
def jIp020 (i : Ip020) : Json := .obj i.members

/-- pkg/types/020/types.go:179-189 `IPConfig.UnmarshalJSON`. -/
def decIp020 (j : Json) : Option Ip020 := do
  let ms ← structMembers j
  let ip ← decAll decIPNet {} (getField ip020Fields b!"ip" ms)
  let gw ← decAll decIP [] (getField ip020Fields b!"gateway" ms)
  let rs ← decAll (decList decRoute) [] (getField ip020Fields b!"routes" ms)
  some { ip := ip, gateway := gw, routes := rs }

/-- The JSON fields of pkg/types/020/types.go:103-108 `Result`. -/
def r020Fields : List Bytes := [b!"cniVersion", b!"ip4", b!"ip6", b!"dns"]

/-- Encoding of pkg/types/020/types.go:103-108 `Result` (the DNS struct is never omitted). -/
def R020.members (r : R020) : List (Bytes × Json) :=
  jopt (r.cniVersion ≠ []) b!"cniVersion" (.str r.cniVersion) ++
  jopt r.ip4.isSome b!"ip4" (jPtr jIp020 r.ip4) ++
  jopt r.ip6.isSome b!"ip6" (jPtr jIp020 r.ip6) ++
  [(b!"dns", jDns r.dns)]

/-- `json.Unmarshal` into pkg/types/020/types.go:103-108 `Result`. -/
def decR020 (j : Json) : Option R020 := do
  let ms ← structMembers j
  let v ← decAll decStr [] (getField r020Fields b!"cniVersion" ms)
  let i4 ← decAll (fun _ => decPtr decIp020) none (getField r020Fields b!"ip4" ms)
  let i6 ← decAll (fun _ => decPtr decIp020) none (getField r020Fields b!"ip6" ms)
  let d ← decAll decDns {} (getField r020Fields b!"dns" ms)
  some { cniVersion := v, ip4 := i4, ip6 := i6, dns := d }

/-! ### 0.3.x / 0.4.0 -/

/-- The JSON fields of pkg/types/040/types.go:221-225 `Interface`. -/
def intf040Fields : List Bytes := [b!"name", b!"mac", b!"sandbox"]

/-- Encoding of pkg/types/040/types.go:221-225 `Interface`. -/
def Intf040.members (i : Intf040) : List (Bytes × Json) :=
  [(b!"name", .str i.name)] ++ jopt (i.mac ≠ []) b!"mac" (.str i.mac) ++
  jopt (i.sandbox ≠ []) b!"sandbox" (.str i.sandbox)
/-- The document of a pkg/types/040/types.go:221-225 `Interface`. -/
def jIntf040 (i : Intf040) : Json := .obj i.members

/-- Decoding of pkg/types/040/types.go:221-225 `Interface`. -/
def decIntf040 (j : Json) : Option Intf040 := do
  let ms ← structMembers j
  let n ← decAll decStr [] (getField intf040Fields b!"name" ms)
  let m ← decAll decStr [] (getField intf040Fields b!"mac" ms)
  let s ← decAll decStr [] (getField intf040Fields b!"sandbox" ms)
  some { name := n, mac := m, sandbox := s }

/-- The JSON fields of pkg/types/040/types.go:246-253 `IPConfig`. -/
def ip040Fields : List Bytes := [b!"version", b!"interface", b!"address", b!"gateway"]

/-- pkg/types/040/types.go:284-293 `IPConfig.MarshalJSON`. -/
def Ip040.members (i : Ip040) : List (Bytes × Json) :=
  [(b!"version", .str i.version)] ++ jopt i.interface.isSome b!"interface" (jPtr jInt i.interface) ++
  [(b!"address", jIPNet i.address)] ++ jopt (i.gateway ≠ []) b!"gateway" (jIP i.gateway)
/-- The document of a pkg/types/040/types.go:246-253 `IPConfig`. -/
def jIp040 (i : Ip040) : Json := .obj i.members

/-- pkg/types/040/types.go:295-306 `IPConfig.UnmarshalJSON`. -/
def decIp040 (j : Json) : Option Ip040 := do
  let ms ← structMembers j
  let v ← decAll decStr [] (getField ip040Fields b!"version" ms)
  let i ← decAll decOptInt none (getField ip040Fields b!"interface" ms)
  let a ← decAll decIPNet {} (getField ip040Fields b!"address" ms)
  let g ← decAll decIP [] (getField ip040Fields b!"gateway" ms)
  some { version := v, interface := i, address := a, gateway := g }

/-- The JSON fields of pkg/types/040/types.go:86-92 `Result` and
pkg/types/100/types.go:90-96 `Result`. -/
def resFields : List Bytes := [b!"cniVersion", b!"interfaces", b!"ips", b!"routes", b!"dns"]

/-- Encoding of pkg/types/040/types.go:86-92 `Result` (the DNS struct is never omitted). -/
def R040.members (r : R040) : List (Bytes × Json) :=
  jopt (r.cniVersion ≠ []) b!"cniVersion" (.str r.cniVersion) ++
  jopt (r.interfaces ≠ []) b!"interfaces" (.arr (r.interfaces.map (jPtr jIntf040))) ++
  jopt (r.ips ≠ []) b!"ips" (.arr (r.ips.map (jPtr jIp040))) ++
  jopt (r.routes ≠ []) b!"routes" (.arr (r.routes.map (jPtr jRoute))) ++
  [(b!"dns", jDns r.dns)]

/-- `json.Unmarshal` into pkg/types/040/types.go:86-92 `Result`. -/
def decR040 (j : Json) : Option R040 := do
  let ms ← structMembers j
  let v ← decAll decStr [] (getField resFields b!"cniVersion" ms)
  let ifs ← decAll (decList (decPtr decIntf040)) [] (getField resFields b!"interfaces" ms)
  let ips ← decAll (decList (decPtr decIp040)) [] (getField resFields b!"ips" ms)
  let rs ← decAll (decList (decPtr decRoute)) [] (getField resFields b!"routes" ms)
  let d ← decAll decDns {} (getField resFields b!"dns" ms)
  some { cniVersion := v, interfaces := ifs, ips := ips, routes := rs, dns := d }

/-! ### 1.x -/

/-- The JSON fields of pkg/types/100/types.go:270-277 `Interface`. -/
def intf100Fields : List Bytes := [b!"name", b!"mac", b!"mtu", b!"sandbox", b!"socketPath", b!"pciID"]

/-- Encoding of pkg/types/100/types.go:270-277 `Interface`. -/
def Intf100.members (i : Intf100) : List (Bytes × Json) :=
  [(b!"name", .str i.name)] ++ jopt (i.mac ≠ []) b!"mac" (.str i.mac) ++
  jopt (i.mtu ≠ 0) b!"mtu" (jInt i.mtu) ++
  jopt (i.sandbox ≠ []) b!"sandbox" (.str i.sandbox) ++
  jopt (i.socketPath ≠ []) b!"socketPath" (.str i.socketPath) ++
  jopt (i.pciID ≠ []) b!"pciID" (.str i.pciID)
/-- The document of a pkg/types/100/types.go:270-277 `Interface`. -/
def jIntf100 (i : Intf100) : Json := .obj i.members

/-- Decoding of pkg/types/100/types.go:270-277 `Interface`. -/
def decIntf100 (j : Json) : Option Intf100 := do
  let ms ← structMembers j
  let n ← decAll decStr [] (getField intf100Fields b!"name" ms)
  let m ← decAll decStr [] (getField intf100Fields b!"mac" ms)
  let u ← decAll decInt 0 (getField intf100Fields b!"mtu" ms)
  let s ← decAll decStr [] (getField intf100Fields b!"sandbox" ms)
  let p ← decAll decStr [] (getField intf100Fields b!"socketPath" ms)
  let c ← decAll decStr [] (getField intf100Fields b!"pciID" ms)
  some { name := n, mac := m, mtu := u, sandbox := s, socketPath := p, pciID := c }

/-- The JSON fields of pkg/types/100/types.go:298-303 `IPConfig`. -/
def ip100Fields : List Bytes := [b!"interface", b!"address", b!"gateway"]

/-- pkg/types/100/types.go:332-340 `IPConfig.MarshalJSON`. -/
def Ip100.members (i : Ip100) : List (Bytes × Json) :=
  jopt i.interface.isSome b!"interface" (jPtr jInt i.interface) ++
  [(b!"address", jIPNet i.address)] ++ jopt (i.gateway ≠ []) b!"gateway" (jIP i.gateway)
/-- The document of a pkg/types/100/types.go:298-303 `IPConfig`. -/
def jIp100 (i : Ip100) : Json := .obj i.members

/-- pkg/types/100/types.go:342-352 `IPConfig.UnmarshalJSON`. -/
def decIp100 (j : Json) : Option Ip100 := do
  let ms ← structMembers j
  let i ← decAll decOptInt none (getField ip100Fields b!"interface" ms)
  let a ← decAll decIPNet {} (getField ip100Fields b!"address" ms)
  let g ← decAll decIP [] (getField ip100Fields b!"gateway" ms)
  some { interface := i, address := a, gateway := g }

/-- The struct encoding inside pkg/types/100/types.go:100-119 `Result.MarshalJSON`. -/
def R100.members (r : R100) : List (Bytes × Json) :=
  jopt (r.cniVersion ≠ []) b!"cniVersion" (.str r.cniVersion) ++
  jopt (r.interfaces ≠ []) b!"interfaces" (.arr (r.interfaces.map (jPtr jIntf100))) ++
  jopt (r.ips ≠ []) b!"ips" (.arr (r.ips.map (jPtr jIp100))) ++
  jopt (r.routes ≠ []) b!"routes" (.arr (r.routes.map (jPtr jRoute))) ++
  [(b!"dns", jDns r.dns)]

/-- `json.Unmarshal` into pkg/types/100/types.go:90-96 `Result`. -/
def decR100 (j : Json) : Option R100 := do
  let ms ← structMembers j
  let v ← decAll decStr [] (getField resFields b!"cniVersion" ms)
  let ifs ← decAll (decList (decPtr decIntf100)) [] (getField resFields b!"interfaces" ms)
  let ips ← decAll (decList (decPtr decIp100)) [] (getField resFields b!"ips" ms)
  let rs ← decAll (decList (decPtr decRoute)) [] (getField resFields b!"routes" ms)
  let d ← decAll decDns {} (getField resFields b!"dns" ms)
  some { cniVersion := v, interfaces := ifs, ips := ips, routes := rs, dns := d }

/-- pkg/types/100/types.go:100-119 `Result.MarshalJSON`: through a map, dropping an empty `dns`. The
intermediate print/parse is collapsed: strings are UTF-8-sanitised when finally printed. -/
def R100.json (r : R100) : Option Json :=
  match (Json.obj r.members).toAny with
  | some (.obj ms) => some (.obj (if r.dns.isEmpty then GoMap.erase ms b!"dns" else ms))
  | _ => none

/-! ### results of any version -/

/-- `net.IP.MarshalText` accepts absent, 4-byte and 16-byte addresses only. For the address fields
of e.g. pkg/types/020/types.go:137-141 `IPConfig`. -/
def ipOk (ip : IP) : Bool := ip = [] || ip.length = 4 || ip.length = 16

/-- The addresses of a pkg/types/types.go:180-188 `Route` can be marshalled. -/
def Route.ipsOk (r : Route) : Bool := ipOk r.gw
/-- The addresses of a pkg/types/020/types.go:137-141 `IPConfig` can be marshalled. -/
def Ip020.ipsOk (i : Ip020) : Bool := ipOk i.gateway && i.routes.all Route.ipsOk

/-- Every address field can be marshalled. I.e. marshalling in
pkg/types/100/types.go:260-267 `Result.PrintTo` succeeds. -/
def Result.ipsOk : Result → Bool
  | .v020 r => r.ip4.all Ip020.ipsOk && r.ip6.all Ip020.ipsOk
  | .v040 r => r.ips.all (fun x => x.all fun i => ipOk i.gateway) && r.routes.all (fun x => x.all Route.ipsOk)
  | .v100 r => r.ips.all (fun x => x.all fun i => ipOk i.gateway) && r.routes.all (fun x => x.all Route.ipsOk)

/-- `json.Marshal(result)` as a document; `none` is an error. As in
pkg/types/100/types.go:260-267 `Result.PrintTo` and libcni/api.go:259-297 `CNIConfig.cacheAdd`; pkg/types/100/types.go:100-119 `Result.MarshalJSON`. -/
def Result.json (r : Result) : Option Json :=
  if r.ipsOk then
    match r with
    | .v020 r => some (.obj r.members)
    | .v040 r => some (.obj r.members)
    | .v100 r => r.json
  else none

/-- The creator registered for a version (pkg/types/internal/create.go:33-42 `findCreator`; the three
RegisterCreator calls in the init functions of pkg/types/020/types.go:33-39, pkg/types/040/types.go:34-49,
pkg/types/100/types.go:35-53) followed by its NewResult (pkg/types/020/types.go:45-60 `NewResult`,
pkg/types/040/types.go:51-63 `NewResult`, pkg/types/100/types.go:55-67 `NewResult`), on a parsed document. -/
def createJson (version : Bytes) (j : Json) : Out Result :=
  if version ∈ supported020 then
    match decR020 j with
    | none => .err (.text b!"cannot decode result")
    | some r =>
      if r.cniVersion ∈ supported020 then
        .ok (.v020 (if r.cniVersion = [] then { r with cniVersion := b!"0.1.0" } else r))
      else .err (.text b!"result type does not support unmarshalled CNIVersion")
  else if version ∈ supported040 then
    match decR040 j with
    | none => .err (.text b!"cannot decode result")
    | some r =>
      if r.cniVersion ∈ supported040 then .ok (.v040 r)
      else .err (.text b!"result type does not support unmarshalled CNIVersion")
  else if version ∈ supported100 then
    match decR100 j with
    | none => .err (.text b!"cannot decode result")
    | some r =>
      if r.cniVersion ∈ supported100 then .ok (.v100 r)
      else .err (.text b!"result type does not support unmarshalled CNIVersion")
  else .err (.text (b!"unsupported CNI result version " ++ version))

/-- pkg/types/create/create.go:46-48 `Create`, pkg/version/version.go:60-62 `NewResult`,
pkg/types/internal/create.go:46-51 `Create`. (An unknown version is reported before the document is read; here an unreadable
document is reported first, both being errors.) -/
def create (version : Bytes) (b : Bytes) : Out Result :=
  match Json.parse b with
  | none => .err (.text b!"cannot decode result")
  | some j => createJson version j

end Verif
