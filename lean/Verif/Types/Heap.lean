/-
Result conversion with pointers. In Types/Results results are values; here they live in a heap, so that it is visible which structs,
slices and integers a converted result shares with the original. A cell is a struct, an integer or the backing array of a slice. A nil
slice is a cell with no elements. Structs are allocated when they are complete (the code fills them in after allocation). Spare capacity of
slices is not modelled.
-/
import Verif.Types.Results

namespace Verif

/-- The addresses of cells. -/
local notation "Addr" => Nat

/-- pkg/types/types.go:153-158 `DNS`: the slices by the cells of their backing arrays. -/
structure HDns where
  nameservers : Addr
  domain : Bytes
  search : Addr
  options : Addr
  deriving Inhabited

/-- pkg/types/types.go:180-188 `Route`; `net.IP` and `net.IPMask` are slices of bytes. -/
structure HRoute where
  dstIp : Addr
  dstMask : Addr
  gw : Addr
  mtu : Int
  advmss : Int
  priority : Int
  table : Option Addr
  scope : Option Addr
  deriving Inhabited

/-- pkg/types/020/types.go:137-141 `IPConfig`; `routes` is a slice of structs. -/
structure HIp020 where
  ip : Addr
  mask : Addr
  gateway : Addr
  routes : Addr
  deriving Inhabited

/-- pkg/types/040/types.go:246-253 `IPConfig`. -/
structure HIp040 where
  version : Bytes
  interface : Option Addr
  ip : Addr
  mask : Addr
  gateway : Addr
  deriving Inhabited

/-- pkg/types/100/types.go:298-303 `IPConfig`. -/
structure HIp100 where
  interface : Option Addr
  ip : Addr
  mask : Addr
  gateway : Addr
  deriving Inhabited

/-- pkg/types/020/types.go:103-108 `Result`. -/
structure H020 where
  cniVersion : Bytes
  ip4 : Option Addr
  ip6 : Option Addr
  dns : HDns
  deriving Inhabited

/-- pkg/types/040/types.go:86-92 `Result` and pkg/types/100/types.go:90-96 `Result`: the slices of pointers by the cells of their
backing arrays. -/
structure HNew where
  cniVersion : Bytes
  interfaces : Addr
  ips : Addr
  routes : Addr
  dns : HDns
  deriving Inhabited

/-- The contents of a cell: an array of bytes, of strings, of route structs or of pointers, an integer, or one of the structs of
pkg/types/types.go:180-188 `Route`, pkg/types/040/types.go:221-225 `Interface`, pkg/types/100/types.go:270-277 `Interface` and so on. -/
inductive Cell where
  | bytes (b : Bytes)
  | strs (l : List Bytes)
  | int (i : Int)
  | routes (l : List HRoute)
  | ptrs (l : List (Option Addr))
  | route (r : HRoute)
  | intf040 (i : Intf040)
  | intf100 (i : Intf100)
  | ip020 (i : HIp020)
  | ip040 (i : HIp040)
  | ip100 (i : HIp100)
  | r020 (r : H020)
  | r040 (r : HNew)
  | r100 (r : HNew)
  deriving Inhabited

/-- Go's memory: the cells below `next` are in use. Proof device: models no code by itself. -/
structure Heap where
  next : Addr
  cell : Addr → Cell

/-! The contents of a cell seen as what Go's types say it is. Proof device: models no code. -/

namespace Heap
/-- Proof device: models no code. -/
def bytes (h : Heap) (a : Addr) : Bytes := match h.cell a with | .bytes b => b | _ => []
/-- Proof device: models no code. -/
def strs (h : Heap) (a : Addr) : List Bytes := match h.cell a with | .strs b => b | _ => []
/-- Proof device: models no code. -/
def int (h : Heap) (a : Addr) : Int := match h.cell a with | .int b => b | _ => 0
/-- Proof device: models no code. -/
def routeArr (h : Heap) (a : Addr) : List HRoute := match h.cell a with | .routes b => b | _ => []
/-- Proof device: models no code. -/
def ptrs (h : Heap) (a : Addr) : List (Option Addr) := match h.cell a with | .ptrs b => b | _ => []
/-- Proof device: models no code. -/
def route (h : Heap) (a : Addr) : HRoute := match h.cell a with | .route b => b | _ => default
/-- Proof device: models no code. -/
def intf040 (h : Heap) (a : Addr) : Intf040 := match h.cell a with | .intf040 b => b | _ => default
/-- Proof device: models no code. -/
def intf100 (h : Heap) (a : Addr) : Intf100 := match h.cell a with | .intf100 b => b | _ => default
/-- Proof device: models no code. -/
def ip020 (h : Heap) (a : Addr) : HIp020 := match h.cell a with | .ip020 b => b | _ => default
/-- Proof device: models no code. -/
def ip040 (h : Heap) (a : Addr) : HIp040 := match h.cell a with | .ip040 b => b | _ => default
/-- Proof device: models no code. -/
def ip100 (h : Heap) (a : Addr) : HIp100 := match h.cell a with | .ip100 b => b | _ => default
/-- Proof device: models no code. -/
def r020 (h : Heap) (a : Addr) : H020 := match h.cell a with | .r020 b => b | _ => default
/-- Proof device: models no code. -/
def r040 (h : Heap) (a : Addr) : HNew := match h.cell a with | .r040 b => b | _ => default
/-- Proof device: models no code. -/
def r100 (h : Heap) (a : Addr) : HNew := match h.cell a with | .r100 b => b | _ => default
end Heap

/-- A `types.Result` (pkg/types/types.go:128-142 `Result`): a pointer to a struct of one of the three types. -/
inductive HResult where
  | v020 (a : Addr)
  | v040 (a : Addr)
  | v100 (a : Addr)
  deriving DecidableEq

/-- Code that allocates; it stops at errors and panics. Proof device: models no code by itself. -/
abbrev HM (α : Type) := StateT Heap Out α

/-- Proof device: models no code by itself. -/
def look (f : Heap → α) : HM α := fun h => .ok (f h, h)

/-- `&T{…}`, or the backing array of a new slice. Used by e.g. pkg/types/types.go:168-178 `DNS.Copy`. -/
def alloc (c : Cell) : HM Addr := fun h => .ok (h.next, { next := h.next + 1, cell := fun a => if a = h.next then c else h.cell a })

/-- A `for` loop that appends one element per round, e.g. in pkg/types/040/types.go:126-143 `convertInternal`. -/
def each (f : α → HM β) : List α → HM (List β)
  | [] => pure []
  | a :: l => do
    let b ← f a
    let bs ← each f l
    pure (b :: bs)

/-- The same for a slice of pointers: what `f` does with a struct, at the end of a new pointer; a nil pointer is dereferenced, which panics.
The loops of e.g. pkg/types/100/types.go:167-184 `convertFrom04x`. -/
def eachDeref (f : Addr → HM Addr) : List (Option Addr) → HM (List (Option Addr)) :=
  each fun
    | none => fun _ => .panic
    | some a => do
      let b ← f a
      pure (some b)

/-- The same, with nil pointers copied as nil pointers, e.g. pkg/types/types.go:204-229 `Route.Copy`. -/
def eachCopy (f : Addr → HM Addr) : List (Option Addr) → HM (List (Option Addr)) :=
  each fun
    | none => pure none
    | some a => do
      let b ← f a
      pure (some b)

/-! ### copying -/

/-- `table := *r.Table; route.Table = &table` in pkg/types/types.go:204-229 `Route.Copy`, and the same in e.g.
pkg/types/040/types.go:259-274 `IPConfig.Copy`. -/
def copyInt : Option Addr → HM (Option Addr)
  | none => pure none
  | some a => do
    let i ← look fun h => h.int a
    let b ← alloc (.int i)
    pure (some b)

/-- The fields in pkg/types/types.go:204-229 `Route.Copy`. -/
def HRoute.copy (r : HRoute) : HM HRoute := do
  let table ← copyInt r.table
  let scope ← copyInt r.scope
  pure { dstIp := r.dstIp, dstMask := r.dstMask, gw := r.gw, mtu := r.mtu, advmss := r.advmss, priority := r.priority, table := table, scope := scope }

/-- pkg/types/types.go:204-229 `Route.Copy`. -/
def copyRoute (a : Addr) : HM Addr := do
  let r ← look fun h => h.route a
  let r' ← r.copy
  alloc (.route r')

/-- pkg/types/types.go:168-178 `DNS.Copy`. -/
def HDns.copy (d : HDns) : HM HDns := do
  let ns ← look fun h => h.strs d.nameservers
  let a ← alloc (.strs ns)
  let se ← look fun h => h.strs d.search
  let b ← alloc (.strs se)
  let os ← look fun h => h.strs d.options
  let c ← alloc (.strs os)
  pure { nameservers := a, domain := d.domain, search := b, options := c }

/-- pkg/types/020/types.go:143-157 `IPConfig.Copy`. -/
def copyIp020 : Option Addr → HM (Option Addr)
  | none => pure none
  | some a => do
    let i ← look fun h => h.ip020 a
    let rs ← look fun h => h.routeArr i.routes
    let rs' ← each HRoute.copy rs
    let ra ← alloc (.routes rs')
    let b ← alloc (.ip020 { ip := i.ip, mask := i.mask, gateway := i.gateway, routes := ra })
    pure (some b)

/-! ### the converters -/

/-- pkg/types/020/types.go:76-87 `convertFrom010` and pkg/types/020/types.go:89-100 `convertTo010`, which differ in the version. -/
def hConvert010 (only : Bytes) (from_ : HResult) (to : Bytes) : HM HResult :=
  if to ≠ only then fun _ => .panic
  else match from_ with
    | .v020 p => do
      let r ← look fun h => h.r020 p
      let i4 ← copyIp020 r.ip4
      let i6 ← copyIp020 r.ip6
      let d ← r.dns.copy
      let q ← alloc (.r020 { cniVersion := only, ip4 := i4, ip6 := i6, dns := d })
      pure (.v020 q)
    | _ => fun _ => .panic

/-- The part of pkg/types/040/types.go:102-124 `convertFrom02x` for one family: the addresses and routes it appends. -/
def hFrom020 (v : Bytes) : Option Addr → HM (List (Option Addr) × List (Option Addr))
  | none => pure ([], [])
  | some a => do
    let i ← look fun h => h.ip020 a
    let b ← alloc (.ip040 { version := v, interface := none, ip := i.ip, mask := i.mask, gateway := i.gateway })
    let rs ← look fun h => h.routeArr i.routes
    let ps ← each (fun r => do
      let r' ← HRoute.copy r
      let p ← alloc (.route r')
      pure (some p)) rs
    pure ([some b], ps)

/-- pkg/types/040/types.go:102-124 `convertFrom02x`. -/
def hConvert040From02x (from_ : HResult) (to : Bytes) : HM HResult :=
  match from_ with
  | .v020 p => do
    let r ← look fun h => h.r020 p
    let d ← r.dns.copy
    let x4 ← hFrom020 b!"4" r.ip4
    let x6 ← hFrom020 b!"6" r.ip6
    let ifs ← alloc (.ptrs [])
    let ips ← alloc (.ptrs (x4.1 ++ x6.1))
    let rs ← alloc (.ptrs (x4.2 ++ x6.2))
    let q ← alloc (.r040 { cniVersion := to, interfaces := ifs, ips := ips, routes := rs, dns := d })
    pure (.v040 q)
  | _ => fun _ => .panic

/-- The body of pkg/types/040/types.go:126-143 `convertInternal`, pkg/types/100/types.go:167-184 `convertFrom04x` and
pkg/types/100/types.go:211-228 `convertTo04x`: the DNS is copied, and every interface, address and route is treated in turn. -/
def hConvertLists (ifF ipF : List (Option Addr) → HM (List (Option Addr))) (r : HNew) (to : Bytes) : HM HNew := do
  let d ← r.dns.copy
  let l1 ← look fun h => h.ptrs r.interfaces
  let m1 ← ifF l1
  let a1 ← alloc (.ptrs m1)
  let l2 ← look fun h => h.ptrs r.ips
  let m2 ← ipF l2
  let a2 ← alloc (.ptrs m2)
  let l3 ← look fun h => h.ptrs r.routes
  let m3 ← eachCopy copyRoute l3
  let a3 ← alloc (.ptrs m3)
  pure { cniVersion := to, interfaces := a1, ips := a2, routes := a3, dns := d }

/-- pkg/types/040/types.go:231-237 `Interface.Copy`. -/
def copyIntf040 (a : Addr) : HM Addr := do
  let i ← look fun h => h.intf040 a
  alloc (.intf040 i)

/-- pkg/types/040/types.go:259-274 `IPConfig.Copy`. -/
def copyIp040 (a : Addr) : HM Addr := do
  let i ← look fun h => h.ip040 a
  let x ← copyInt i.interface
  alloc (.ip040 { version := i.version, interface := x, ip := i.ip, mask := i.mask, gateway := i.gateway })

/-- pkg/types/040/types.go:126-143 `convertInternal`. -/
def hConvertInternal (from_ : HResult) (to : Bytes) : HM HResult :=
  match from_ with
  | .v040 p => do
    let r ← look fun h => h.r040 p
    let x ← hConvertLists (eachCopy copyIntf040) (eachCopy copyIp040) r to
    let q ← alloc (.r040 x)
    pure (.v040 q)
  | _ => fun _ => .panic

/-- pkg/types/100/types.go:159-165 `convertInterfaceFrom040`. -/
def hInterfaceFrom040 (a : Addr) : HM Addr := do
  let i ← look fun h => h.intf040 a
  alloc (.intf100 (convertInterfaceFrom040 i))

/-- pkg/types/100/types.go:147-157 `convertIPConfigFrom040`. -/
def hIPConfigFrom040 (a : Addr) : HM Addr := do
  let i ← look fun h => h.ip040 a
  let x ← copyInt i.interface
  alloc (.ip100 { interface := x, ip := i.ip, mask := i.mask, gateway := i.gateway })

/-- pkg/types/100/types.go:167-184 `convertFrom04x`. -/
def hConvertFrom04x (from_ : HResult) (to : Bytes) : HM HResult :=
  match from_ with
  | .v040 p => do
    let r ← look fun h => h.r040 p
    let x ← hConvertLists (eachDeref hInterfaceFrom040) (eachDeref hIPConfigFrom040) r to
    let q ← alloc (.r100 x)
    pure (.v100 q)
  | _ => fun _ => .panic

/-- pkg/types/100/types.go:203-209 `convertInterfaceTo040`. -/
def hInterfaceTo040 (a : Addr) : HM Addr := do
  let i ← look fun h => h.intf100 a
  alloc (.intf040 (convertInterfaceTo040 i))

/-- pkg/types/100/types.go:186-201 `convertIPConfigTo040`. -/
def hIPConfigTo040 (a : Addr) : HM Addr := do
  let i ← look fun h => h.ip100 a
  let b ← look fun h => h.bytes i.ip
  let x ← copyInt i.interface
  alloc (.ip040 { version := if (IP.to4 b).isSome then b!"4" else b!"6", interface := x, ip := i.ip, mask := i.mask, gateway := i.gateway })

/-- pkg/types/100/types.go:211-228 `convertTo04x`. -/
def hConvertTo04x (from_ : HResult) (to : Bytes) : HM HResult :=
  match from_ with
  | .v100 p => do
    let r ← look fun h => h.r100 p
    let x ← hConvertLists (eachDeref hInterfaceTo040) (eachDeref hIPConfigTo040) r to
    let q ← alloc (.r040 x)
    pure (.v040 q)
  | _ => fun _ => .panic

/-- pkg/types/100/types.go:122-133 `convertFrom100`: a new struct with the same slices. -/
def hConvertFrom100 (from_ : HResult) (to : Bytes) : HM HResult :=
  match from_ with
  | .v100 p => do
    let r ← look fun h => h.r100 p
    let q ← alloc (.r100 { cniVersion := to, interfaces := r.interfaces, ips := r.ips, routes := r.routes, dns := r.dns })
    pure (.v100 q)
  | _ => fun _ => .panic

/-- A 0.2.0 address under construction: address, mask and gateway of the struct it is taken from, and its routes so far.
pkg/types/020/types.go:137-141 `IPConfig`. -/
structure HPick where
  ip : Addr
  mask : Addr
  gateway : Addr
  routes : List HRoute

/-- The address loop of pkg/types/040/types.go:145-192 `convertTo02x`. -/
def hPickIPs : List (Option Addr) → Option HPick → Option HPick → HM (Option HPick × Option HPick)
  | [], i4, i6 => pure (i4, i6)
  | none :: _, _, _ => fun _ => .panic
  | some a :: l, i4, i6 => do
    let x ← look fun h => h.ip040 a
    let c : HPick := { ip := x.ip, mask := x.mask, gateway := x.gateway, routes := [] }
    let p := if x.version = b!"4" ∧ i4.isNone then (some c, i6)
      else if x.version = b!"6" ∧ i6.isNone then (i4, some c)
      else (i4, i6)
    if p.1.isSome ∧ p.2.isSome then pure p else hPickIPs l p.1 p.2

/-- The route loop of pkg/types/040/types.go:145-192 `convertTo02x`. -/
def hPickRoutes : List (Option Addr) → Option HPick → Option HPick → HM (Option HPick × Option HPick)
  | [], i4, i6 => pure (i4, i6)
  | none :: _, _, _ => fun _ => .panic
  | some a :: l, i4, i6 => do
    let r ← look fun h => h.route a
    let b ← look fun h => h.bytes r.dstIp
    let c : HRoute := { dstIp := r.dstIp, dstMask := r.dstMask, gw := r.gw, mtu := 0, advmss := 0, priority := 0, table := none, scope := none }
    let is4 := (IP.to4 b).isSome
    if is4 && i4.isSome then hPickRoutes l (i4.map fun x => { x with routes := x.routes ++ [c] }) i6
    else if !is4 && i6.isSome then hPickRoutes l i4 (i6.map fun x => { x with routes := x.routes ++ [c] })
    else hPickRoutes l i4 i6

/-- The 0.2.0 address of pkg/types/040/types.go:145-192 `convertTo02x`, complete. -/
def hPicked : Option HPick → HM (Option Addr)
  | none => pure none
  | some x => do
    let ra ← alloc (.routes x.routes)
    let b ← alloc (.ip020 { ip := x.ip, mask := x.mask, gateway := x.gateway, routes := ra })
    pure (some b)

/-- pkg/types/040/types.go:145-192 `convertTo02x`. -/
def hConvert040To02x (from_ : HResult) (to : Bytes) : HM HResult :=
  match from_ with
  | .v040 p => do
    let r ← look fun h => h.r040 p
    let d ← r.dns.copy
    let l ← look fun h => h.ptrs r.ips
    let x ← hPickIPs l none none
    let l ← look fun h => h.ptrs r.routes
    let x ← hPickRoutes l x.1 x.2
    if x.1.isNone ∧ x.2.isNone then fun _ => .err (.text b!"cannot convert: no valid IP addresses")
    else do
      let i4 ← hPicked x.1
      let i6 ← hPicked x.2
      let q ← alloc (.r020 { cniVersion := to, ip4 := i4, ip6 := i6, dns := d })
      pure (.v020 q)
  | _ => fun _ => .panic

/-- The call of the converter in pkg/types/internal/convert.go:55-74 `Convert`. -/
def hApplyConv (again : HResult → Bytes → HM HResult) : Conv → HResult → Bytes → HM HResult
  | .c020From010, r, v => hConvert010 b!"0.2.0" r v
  | .c020To010, r, v => hConvert010 b!"0.1.0" r v
  | .c040From02x, r, v => hConvert040From02x r v
  | .c040Internal, r, v => hConvertInternal r v
  | .c040To02x, r, v => hConvert040To02x r v
  | .c100From02x, r, v => do      -- pkg/types/100/types.go:135-145
    let r' ← again r b!"0.4.0"
    hConvertFrom04x r' v
  | .c100From04x, r, v => hConvertFrom04x r v
  | .c100From100, r, v => hConvertFrom100 r v
  | .c100To04x, r, v => hConvertTo04x r v
  | .c100To02x, r, v => do        -- pkg/types/100/types.go:230-241
    let r' ← hConvertTo04x r b!"0.4.0"
    again r' v

/-- `Version()`: pkg/types/020/types.go:110-112, pkg/types/040/types.go:194-196, pkg/types/100/types.go:243-245. -/
def HResult.version (h : Heap) : HResult → Bytes
  | .v020 a => (h.r020 a).cniVersion
  | .v040 a => (h.r040 a).cniVersion
  | .v100 a => (h.r100 a).cniVersion

/-- pkg/types/internal/convert.go:55-74 `Convert`, `again` standing for its recursive use. -/
def hConvertStep (again : HResult → Bytes → HM HResult) (from_ : HResult) (to0 : Bytes) : HM HResult := do
  let to := if to0 = [] then b!"0.1.0" else to0
  let v ← look fun h => from_.version h
  if v = to then pure from_
  else match findConverter v to with
    | none => fun _ => .err (.text (b!"no converter for CNI result version " ++ v ++ b!" to " ++ to))
    | some c => hApplyConv again c from_ to

/-- `Convert` unrolled to depth `n`. pkg/types/internal/convert.go:55-74 `Convert`. -/
def hConvertN : Nat → HResult → Bytes → HM HResult
  | 0 => fun _ _ _ => .panic
  | n + 1 => hConvertStep (hConvertN n)

/-- pkg/types/internal/convert.go:55-74 `Convert`. As in `convert`, the recursion never goes deeper than two calls. -/
def hConvert (from_ : HResult) (to : Bytes) : HM HResult := hConvertN 2 from_ to

/-- The first part of `GetAsVersion` (pkg/types/020/types.go:114-121, pkg/types/040/types.go:198-205, pkg/types/100/types.go:247-254): sets
the receiver's version if it is unset. -/
def HResult.setVersion : HResult → HM Unit
  | .v020 a => fun h => .ok ((), if (h.r020 a).cniVersion = [] then
      { h with cell := fun b => if b = a then .r020 { h.r020 a with cniVersion := b!"0.2.0" } else h.cell b } else h)
  | .v040 a => fun h => .ok ((), if (h.r040 a).cniVersion = [] then
      { h with cell := fun b => if b = a then .r040 { h.r040 a with cniVersion := b!"0.4.0" } else h.cell b } else h)
  | .v100 a => fun h => .ok ((), if (h.r100 a).cniVersion = [] then
      { h with cell := fun b => if b = a then .r100 { h.r100 a with cniVersion := b!"1.1.0" } else h.cell b } else h)

/-- `GetAsVersion` (pkg/types/020/types.go:114-121, pkg/types/040/types.go:198-205, pkg/types/100/types.go:247-254). -/
def HResult.getAsVersion (r : HResult) (v : Bytes) : HM HResult := do
  r.setVersion
  hConvert r v

end Verif
