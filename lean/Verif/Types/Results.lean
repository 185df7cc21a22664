/-
The result types of pkg/types/020, 040 and 100 and their conversions (pkg/types/internal/convert.go).
Pointers in lists are `Option`s: a nil entry is representable (the JSON decoder accepts `null`
entries) and the converters that dereference it panic. Slices are values: aliasing between a result
and its `convertFrom100` copy (pkg/types/100/types.go:118-129 shares the slices) is not visible here.
-/
import Verif.Base.Err
import Verif.Net.IP

namespace Verif

/-- pkg/types/types.go:153-158 `DNS`. -/
structure Dns where
  nameservers : List Bytes := []
  domain : Bytes := []
  search : List Bytes := []
  options : List Bytes := []
  deriving DecidableEq, Repr, Inhabited

/-- pkg/types/types.go:161-166 `DNS.IsEmpty`. -/
def Dns.isEmpty (d : Dns) : Bool :=
  d.nameservers = [] && d.domain = [] && d.search = [] && d.options = []

/-- pkg/types/types.go:180-188 `Route`. -/
structure Route where
  dst : IPNet := {}
  gw : IP := []
  mtu : Int := 0
  advmss : Int := 0
  priority : Int := 0
  table : Option Int := none
  scope : Option Int := none
  deriving DecidableEq, Repr, Inhabited

/-- pkg/types/types.go:204-229 `Route.Copy`. -/
def Route.copy (r : Route) : Route :=
  { dst := r.dst, gw := r.gw, mtu := r.mtu, advmss := r.advmss, priority := r.priority,
    table := r.table, scope := r.scope }

/-- pkg/types/020/types.go:137-141 `IPConfig`. -/
structure Ip020 where
  ip : IPNet := {}
  gateway : IP := []
  routes : List Route := []
  deriving DecidableEq, Repr, Inhabited

/-- pkg/types/020/types.go:143-157 `IPConfig.Copy`. -/
def Ip020.copy (i : Ip020) : Ip020 :=
  { ip := i.ip, gateway := i.gateway, routes := i.routes.map Route.copy }

/-- pkg/types/020/types.go:103-108 `Result`. -/
structure R020 where
  cniVersion : Bytes := []
  ip4 : Option Ip020 := none
  ip6 : Option Ip020 := none
  dns : Dns := {}
  deriving DecidableEq, Repr, Inhabited

/-- pkg/types/040/types.go:221-225 `Interface`. -/
structure Intf040 where
  name : Bytes := []
  mac : Bytes := []
  sandbox : Bytes := []
  deriving DecidableEq, Repr, Inhabited

/-- pkg/types/040/types.go:246-253 `IPConfig`. -/
structure Ip040 where
  version : Bytes := []
  interface : Option Int := none
  address : IPNet := {}
  gateway : IP := []
  deriving DecidableEq, Repr, Inhabited

/-- pkg/types/040/types.go:86-92 `Result`. -/
structure R040 where
  cniVersion : Bytes := []
  interfaces : List (Option Intf040) := []
  ips : List (Option Ip040) := []
  routes : List (Option Route) := []
  dns : Dns := {}
  deriving DecidableEq, Repr, Inhabited

/-- pkg/types/100/types.go:270-277 `Interface`. -/
structure Intf100 where
  name : Bytes := []
  mac : Bytes := []
  mtu : Int := 0
  sandbox : Bytes := []
  socketPath : Bytes := []
  pciID : Bytes := []
  deriving DecidableEq, Repr, Inhabited

/-- pkg/types/100/types.go:298-303 `IPConfig`. -/
structure Ip100 where
  interface : Option Int := none
  address : IPNet := {}
  gateway : IP := []
  deriving DecidableEq, Repr, Inhabited

/-- pkg/types/100/types.go:90-96 `Result`. -/
structure R100 where
  cniVersion : Bytes := []
  interfaces : List (Option Intf100) := []
  ips : List (Option Ip100) := []
  routes : List (Option Route) := []
  dns : Dns := {}
  deriving DecidableEq, Repr, Inhabited

/-- A `types.Result`: one of the three concrete types. pkg/types/types.go:128-142 `Result`. -/
inductive Result where
  | v020 (r : R020)
  | v040 (r : R040)
  | v100 (r : R100)
  deriving DecidableEq, Repr, Inhabited

/-- `Result.Version()` (pkg/types/020/types.go:110-112, pkg/types/040/types.go:194-196, pkg/types/100/types.go:243-245). -/
def Result.version : Result → Bytes
  | .v020 r => r.cniVersion
  | .v040 r => r.cniVersion
  | .v100 r => r.cniVersion

/-- Apply a converter to every entry; a nil entry is dereferenced, which panics. The loops of e.g.
pkg/types/100/types.go:135-145 `convertFrom02x`. -/
def mapDeref {α β : Type} (f : α → β) : List (Option α) → Out (List (Option β))
  | [] => .ok []
  | none :: _ => .panic
  | some a :: l => match mapDeref f l with
    | .ok l' => .ok (some (f a) :: l')
    | .err e => .err e
    | .panic => .panic

/-! ### 0.2.0 -/

/-- pkg/types/020/types.go:76-87 `convertFrom010`. -/
def convertFrom010 (from_ : Result) (to : Bytes) : Out Result :=
  if to ≠ b!"0.2.0" then .panic
  else match from_ with
    | .v020 r => .ok (.v020 { cniVersion := b!"0.2.0", ip4 := r.ip4.map Ip020.copy,
                              ip6 := r.ip6.map Ip020.copy, dns := r.dns })
    | _ => .panic

/-- pkg/types/020/types.go:89-100 `convertTo010`. -/
def convertTo010 (from_ : Result) (to : Bytes) : Out Result :=
  if to ≠ b!"0.1.0" then .panic
  else match from_ with
    | .v020 r => .ok (.v020 { cniVersion := b!"0.1.0", ip4 := r.ip4.map Ip020.copy,
                              ip6 := r.ip6.map Ip020.copy, dns := r.dns })
    | _ => .panic

/-! ### 0.3.x / 0.4.0 -/

/-- pkg/types/040/types.go:94-100 `convert020IPConfig`. -/
def convert020IPConfig (i : Ip020) (v : Bytes) : Ip040 :=
  { version := v, address := i.ip, gateway := i.gateway }

/-- pkg/types/040/types.go:102-124 `convertFrom02x`. -/
def convert040From02x (from_ : Result) (to : Bytes) : Out Result :=
  match from_ with
  | .v020 r =>
    .ok (.v040 {
      cniVersion := to
      dns := r.dns
      ips := (match r.ip4 with | some i => [some (convert020IPConfig i b!"4")] | none => [])
          ++ (match r.ip6 with | some i => [some (convert020IPConfig i b!"6")] | none => [])
      routes := (match r.ip4 with | some i => i.routes.map (fun x => some x.copy) | none => [])
          ++ (match r.ip6 with | some i => i.routes.map (fun x => some x.copy) | none => []) })
  | _ => .panic

/-- pkg/types/040/types.go:126-143 `convertInternal` (nil entries are copied as nil). -/
def convertInternal (from_ : Result) (to : Bytes) : Out Result :=
  match from_ with
  | .v040 r => .ok (.v040 { r with cniVersion := to, routes := r.routes.map (fun x => x.map Route.copy) })
  | _ => .panic

/-- The address loop of pkg/types/040/types.go:152-169: first address of each family, stopping as
soon as both are found. -/
def pickIPs : List (Option Ip040) → Option Ip020 → Option Ip020 → Out (Option Ip020 × Option Ip020)
  | [], i4, i6 => .ok (i4, i6)
  | none :: _, _, _ => .panic
  | some x :: l, i4, i6 =>
    let c : Ip020 := { ip := x.address, gateway := x.gateway }
    let (i4', i6') :=
      if x.version = b!"4" ∧ i4 = none then (some c, i6)
      else if x.version = b!"6" ∧ i6 = none then (i4, some c)
      else (i4, i6)
    if i4'.isSome ∧ i6'.isSome then .ok (i4', i6') else pickIPs l i4' i6'

/-- The route loop of pkg/types/040/types.go:171-184. -/
def pickRoutes : List (Option Route) → Option Ip020 → Option Ip020 → Out (Option Ip020 × Option Ip020)
  | [], i4, i6 => .ok (i4, i6)
  | none :: _, _, _ => .panic
  | some r :: l, i4, i6 =>
    let c : Route := { dst := r.dst, gw := r.gw }
    let is4 := (IP.to4 r.dst.ip).isSome
    if is4 && i4.isSome then pickRoutes l (i4.map fun x => { x with routes := x.routes ++ [c] }) i6
    else if !is4 && i6.isSome then pickRoutes l i4 (i6.map fun x => { x with routes := x.routes ++ [c] })
    else pickRoutes l i4 i6

/-- pkg/types/040/types.go:145-192 `convertTo02x`. -/
def convert040To02x (from_ : Result) (to : Bytes) : Out Result :=
  match from_ with
  | .v040 r =>
    match pickIPs r.ips none none with
    | .ok (i4, i6) =>
      match pickRoutes r.routes i4 i6 with
      | .ok (i4', i6') =>
        if i4' = none ∧ i6' = none then .err (.text b!"cannot convert: no valid IP addresses")
        else .ok (.v020 { cniVersion := to, ip4 := i4', ip6 := i6', dns := r.dns })
      | .err e => .err e
      | .panic => .panic
    | .err e => .err e
    | .panic => .panic
  | _ => .panic

/-! ### 1.x -/

/-- pkg/types/100/types.go:122-133 `convertFrom100`. -/
def convertFrom100 (from_ : Result) (to : Bytes) : Out Result :=
  match from_ with
  | .v100 r => .ok (.v100 { cniVersion := to, interfaces := r.interfaces, ips := r.ips,
                            routes := r.routes, dns := r.dns })
  | _ => .panic

/-- pkg/types/100/types.go:147-157 `convertIPConfigFrom040`. -/
def convertIPConfigFrom040 (i : Ip040) : Ip100 :=
  { address := i.address, gateway := i.gateway, interface := i.interface }

/-- pkg/types/100/types.go:159-165 `convertInterfaceFrom040`. -/
def convertInterfaceFrom040 (i : Intf040) : Intf100 :=
  { name := i.name, mac := i.mac, sandbox := i.sandbox }

/-- pkg/types/100/types.go:167-184 `convertFrom04x`. -/
def convertFrom04x (from_ : Result) (to : Bytes) : Out Result :=
  match from_ with
  | .v040 r =>
    match mapDeref convertInterfaceFrom040 r.interfaces with
    | .ok ifs =>
      match mapDeref convertIPConfigFrom040 r.ips with
      | .ok ips => .ok (.v100 { cniVersion := to, interfaces := ifs, ips := ips, dns := r.dns,
                                routes := r.routes.map (fun x => x.map Route.copy) })
      | .err e => .err e
      | .panic => .panic
    | .err e => .err e
    | .panic => .panic
  | _ => .panic

/-- pkg/types/100/types.go:186-201 `convertIPConfigTo040`. -/
def convertIPConfigTo040 (i : Ip100) : Ip040 :=
  { version := if (IP.to4 i.address.ip).isSome then b!"4" else b!"6"
    address := i.address, gateway := i.gateway, interface := i.interface }

/-- pkg/types/100/types.go:203-209 `convertInterfaceTo040`. -/
def convertInterfaceTo040 (i : Intf100) : Intf040 :=
  { name := i.name, mac := i.mac, sandbox := i.sandbox }

/-- pkg/types/100/types.go:211-228 `convertTo04x`. -/
def convertTo04x (from_ : Result) (to : Bytes) : Out Result :=
  match from_ with
  | .v100 r =>
    match mapDeref convertInterfaceTo040 r.interfaces with
    | .ok ifs =>
      match mapDeref convertIPConfigTo040 r.ips with
      | .ok ips => .ok (.v040 { cniVersion := to, interfaces := ifs, ips := ips, dns := r.dns,
                                routes := r.routes.map (fun x => x.map Route.copy) })
      | .err e => .err e
      | .panic => .panic
    | .err e => .err e
    | .panic => .panic
  | _ => .panic

/-! ### the registry -/

/-- Names of the registered conversion functions. Those registered in the `init` functions, e.g.
pkg/types/100/types.go:35-53 `init`. -/
inductive Conv where
  | c020From010 | c020To010
  | c040From02x | c040Internal | c040To02x
  | c100From02x | c100From04x | c100From100 | c100To04x | c100To02x
  deriving DecidableEq, Repr

/-- pkg/types/040/types.go:31 `supportedVersions`; pkg/types/100/types.go:32 `supportedVersions`. -/
def supported040 : List Bytes := [b!"0.3.0", b!"0.3.1", b!"0.4.0"]
/-- pkg/types/100/types.go:32 `supportedVersions`. -/
def supported100 : List Bytes := [b!"1.0.0", b!"1.1.0"]
/-- pkg/types/020/types.go:30 `supportedVersions`. -/
def supported020 : List Bytes := [[], b!"0.1.0", b!"0.2.0"]

/-- The converters in registration order: init of pkg/types/020/types.go:33-39,
pkg/types/040/types.go:34-49, pkg/types/100/types.go:35-53; package initialisation follows the import order. -/
def converters : List (Bytes × List Bytes × Conv) := [
  (b!"0.1.0", [b!"0.2.0"], .c020From010),
  (b!"0.2.0", [b!"0.1.0"], .c020To010),
  (b!"0.1.0", supported040, .c040From02x),
  (b!"0.2.0", supported040, .c040From02x),
  (b!"0.3.0", supported040, .c040Internal),
  (b!"0.3.1", supported040, .c040Internal),
  (b!"0.4.0", [b!"0.3.0", b!"0.3.1"], .c040Internal),
  (b!"0.4.0", [b!"0.1.0", b!"0.2.0"], .c040To02x),
  (b!"0.3.1", [b!"0.1.0", b!"0.2.0"], .c040To02x),
  (b!"0.3.0", [b!"0.1.0", b!"0.2.0"], .c040To02x),
  (b!"0.1.0", supported100, .c100From02x),
  (b!"0.2.0", supported100, .c100From02x),
  (b!"0.3.0", supported100, .c100From04x),
  (b!"0.3.1", supported100, .c100From04x),
  (b!"0.4.0", supported100, .c100From04x),
  (b!"1.0.0", [b!"1.1.0"], .c100From100),
  (b!"1.0.0", [b!"0.3.0", b!"0.3.1", b!"0.4.0"], .c100To04x),
  (b!"1.0.0", [b!"0.1.0", b!"0.2.0"], .c100To02x),
  (b!"1.1.0", [b!"0.3.0", b!"0.3.1", b!"0.4.0"], .c100To04x),
  (b!"1.1.0", [b!"0.1.0", b!"0.2.0"], .c100To02x),
  (b!"1.1.0", [b!"1.0.0"], .c100From100)]

/-- pkg/types/internal/convert.go:40-51 `findConverter`. -/
def findConverter (fromV toV : Bytes) : Option Conv :=
  (converters.find? fun c => c.1 = fromV ∧ toV ∈ c.2.1).map fun c => c.2.2

/-- One converter call; `again` is the recursive `convert.Convert`. The call of the converter in
pkg/types/internal/convert.go:55-74 `Convert`. -/
def applyConv (again : Result → Bytes → Out Result) : Conv → Result → Bytes → Out Result
  | .c020From010, r, v => convertFrom010 r v
  | .c020To010, r, v => convertTo010 r v
  | .c040From02x, r, v => convert040From02x r v
  | .c040Internal, r, v => convertInternal r v
  | .c040To02x, r, v => convert040To02x r v
  | .c100From02x, r, v =>      -- pkg/types/100/types.go:135-145
    match again r b!"0.4.0" with
    | .ok r' => convertFrom04x r' v
    | .err e => .err e
    | .panic => .panic
  | .c100From04x, r, v => convertFrom04x r v
  | .c100From100, r, v => convertFrom100 r v
  | .c100To04x, r, v => convertTo04x r v
  | .c100To02x, r, v =>        -- pkg/types/100/types.go:230-241
    match convertTo04x r b!"0.4.0" with
    | .ok r' => again r' v
    | .err e => .err e
    | .panic => .panic

/-- pkg/types/internal/convert.go:55-74 `Convert`, `again` standing for its recursive use. -/
def convertStep (again : Result → Bytes → Out Result) (from_ : Result) (to0 : Bytes) : Out Result :=
  let to := if to0 = [] then b!"0.1.0" else to0
  if from_.version = to then .ok from_
  else match findConverter from_.version to with
    | none => .err (.text (b!"no converter for CNI result version " ++ from_.version ++ b!" to " ++ to))
    | some c => applyConv again c from_ to

/-- `Convert` unrolled to depth `n`. pkg/types/internal/convert.go:55-74 `Convert`. -/
def convertN : Nat → Result → Bytes → Out Result
  | 0 => fun _ _ => .panic
  | n + 1 => convertStep (convertN n)

/-- `Convert`: the recursion never goes deeper than two calls (`convertN_stable` in
Types/ConvertLemmas proves that unrolling further changes nothing).
pkg/types/internal/convert.go:55-74 `Convert`. -/
def convert (from_ : Result) (to : Bytes) : Out Result := convertN 2 from_ to

/-- `Result.GetAsVersion` (pkg/types/020/types.go:114-121, pkg/types/040/types.go:198-205, pkg/types/100/types.go:247-254): an
unset version means the type's implemented one. (The receiver's field is updated too.) -/
def Result.getAsVersion (r : Result) (v : Bytes) : Out Result :=
  match r with
  | .v020 x => convert (.v020 (if x.cniVersion = [] then { x with cniVersion := b!"0.2.0" } else x)) v
  | .v040 x => convert (.v040 (if x.cniVersion = [] then { x with cniVersion := b!"0.4.0" } else x)) v
  | .v100 x => convert (.v100 (if x.cniVersion = [] then { x with cniVersion := b!"1.1.0" } else x)) v

end Verif
