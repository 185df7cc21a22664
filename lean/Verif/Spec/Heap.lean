/-
What results in a heap look like: their value (`load`), the cells one can write to through them (`cells`: structs, integers, arrays of
pointers, routes and strings), and the arrays of address bytes (`arrays`).
-/
import Verif.Types.Heap

/-- The addresses of cells. -/
local notation "Addr" => Nat

namespace Verif.Spec

/-- How something of Go type `α` in a heap is seen: as a value, as cells, and as arrays of address bytes. -/
structure View (α β : Type) where
  load : Heap → α → β
  cells : Heap → α → List Addr
  arrays : Heap → α → List Addr

/-- A struct without pointers, or an integer, or strings, at the end of a pointer. -/
def leaf (read : Heap → Addr → α) : View Addr α := ⟨read, fun _ a => [a], fun _ _ => []⟩

/-- The bytes of an address. -/
def addressBytes : View Addr Bytes := ⟨Heap.bytes, fun _ _ => [], fun _ a => [a]⟩

/-- A pointer that may be nil. -/
def View.opt (v : View α β) : View (Option α) (Option β) :=
  ⟨fun h x => x.map (v.load h), fun h x => x.toList.flatMap (v.cells h), fun h x => x.toList.flatMap (v.arrays h)⟩

/-- A list. -/
def View.list (v : View α β) : View (List α) (List β) :=
  ⟨fun h x => x.map (v.load h), fun h x => x.flatMap (v.cells h), fun h x => x.flatMap (v.arrays h)⟩

/-- A pointer to a struct, or a slice. -/
def View.ptr (read : Heap → Addr → α) (v : View α β) : View Addr β :=
  ⟨fun h a => v.load h (read h a), fun h a => a :: v.cells h (read h a), fun h a => v.arrays h (read h a)⟩

def viewRoute : View HRoute Route where
  load h r := { dst := ⟨h.bytes r.dstIp, h.bytes r.dstMask⟩, gw := h.bytes r.gw, mtu := r.mtu, advmss := r.advmss, priority := r.priority,
                table := r.table.map h.int, scope := r.scope.map h.int }
  cells _ r := r.table.toList ++ r.scope.toList
  arrays _ r := [r.dstIp, r.dstMask, r.gw]

def viewDns : View HDns Dns where
  load h d := { nameservers := h.strs d.nameservers, domain := d.domain, search := h.strs d.search, options := h.strs d.options }
  cells _ d := [d.nameservers, d.search, d.options]
  arrays _ _ := []

def viewIp020 : View HIp020 Ip020 where
  load h i := { ip := ⟨h.bytes i.ip, h.bytes i.mask⟩, gateway := h.bytes i.gateway, routes := (View.ptr Heap.routeArr viewRoute.list).load h i.routes }
  cells h i := (View.ptr Heap.routeArr viewRoute.list).cells h i.routes
  arrays h i := [i.ip, i.mask, i.gateway] ++ (View.ptr Heap.routeArr viewRoute.list).arrays h i.routes

def view020 : View H020 R020 where
  load h r := { cniVersion := r.cniVersion, ip4 := (View.ptr Heap.ip020 viewIp020).opt.load h r.ip4,
                ip6 := (View.ptr Heap.ip020 viewIp020).opt.load h r.ip6, dns := viewDns.load h r.dns }
  cells h r := (View.ptr Heap.ip020 viewIp020).opt.cells h r.ip4 ++ (View.ptr Heap.ip020 viewIp020).opt.cells h r.ip6 ++ viewDns.cells h r.dns
  arrays h r := (View.ptr Heap.ip020 viewIp020).opt.arrays h r.ip4 ++ (View.ptr Heap.ip020 viewIp020).opt.arrays h r.ip6

def viewIp040 : View HIp040 Ip040 where
  load h i := { version := i.version, interface := i.interface.map h.int, address := ⟨h.bytes i.ip, h.bytes i.mask⟩, gateway := h.bytes i.gateway }
  cells _ i := i.interface.toList
  arrays _ i := [i.ip, i.mask, i.gateway]

def viewIp100 : View HIp100 Ip100 where
  load h i := { interface := i.interface.map h.int, address := ⟨h.bytes i.ip, h.bytes i.mask⟩, gateway := h.bytes i.gateway }
  cells _ i := i.interface.toList
  arrays _ i := [i.ip, i.mask, i.gateway]

/-- A slice of pointers. -/
def View.slice (v : View Addr β) : View Addr (List (Option β)) := View.ptr Heap.ptrs v.opt.list

def view040 : View HNew R040 where
  load h r := { cniVersion := r.cniVersion, interfaces := (leaf Heap.intf040).slice.load h r.interfaces,
                ips := (View.ptr Heap.ip040 viewIp040).slice.load h r.ips, routes := (View.ptr Heap.route viewRoute).slice.load h r.routes,
                dns := viewDns.load h r.dns }
  cells h r := (leaf Heap.intf040).slice.cells h r.interfaces ++ (View.ptr Heap.ip040 viewIp040).slice.cells h r.ips ++
                (View.ptr Heap.route viewRoute).slice.cells h r.routes ++ viewDns.cells h r.dns
  arrays h r := (View.ptr Heap.ip040 viewIp040).slice.arrays h r.ips ++ (View.ptr Heap.route viewRoute).slice.arrays h r.routes

def view100 : View HNew R100 where
  load h r := { cniVersion := r.cniVersion, interfaces := (leaf Heap.intf100).slice.load h r.interfaces,
                ips := (View.ptr Heap.ip100 viewIp100).slice.load h r.ips, routes := (View.ptr Heap.route viewRoute).slice.load h r.routes,
                dns := viewDns.load h r.dns }
  cells h r := (leaf Heap.intf100).slice.cells h r.interfaces ++ (View.ptr Heap.ip100 viewIp100).slice.cells h r.ips ++
                (View.ptr Heap.route viewRoute).slice.cells h r.routes ++ viewDns.cells h r.dns
  arrays h r := (View.ptr Heap.ip100 viewIp100).slice.arrays h r.ips ++ (View.ptr Heap.route viewRoute).slice.arrays h r.routes

/-- A result. -/
def view : View HResult Result where
  load h
    | .v020 a => .v020 ((View.ptr Heap.r020 view020).load h a)
    | .v040 a => .v040 ((View.ptr Heap.r040 view040).load h a)
    | .v100 a => .v100 ((View.ptr Heap.r100 view100).load h a)
  cells h
    | .v020 a => (View.ptr Heap.r020 view020).cells h a
    | .v040 a => (View.ptr Heap.r040 view040).cells h a
    | .v100 a => (View.ptr Heap.r100 view100).cells h a
  arrays h
    | .v020 a => (View.ptr Heap.r020 view020).arrays h a
    | .v040 a => (View.ptr Heap.r040 view040).arrays h a
    | .v100 a => (View.ptr Heap.r100 view100).arrays h a

/-- Everything the result consists of is in use in the heap, and address bytes are not something else at the same time. -/
structure InHeap (h : Heap) (r : HResult) : Prop where
  cells : ∀ a ∈ view.cells h r, a < h.next
  arrays : ∀ a ∈ view.arrays h r, a < h.next
  apart : ∀ a ∈ view.arrays h r, a ∉ view.cells h r

/-- A program that holds the result `r` of heap `h` has made `h2` out of `h1`: it may have changed anything about the result except the bytes
of addresses, and used new cells. -/
def WrittenThrough (h : Heap) (r : HResult) (h1 h2 : Heap) : Prop := ∀ a, a < h1.next → a ∉ view.cells h r → h2.cell a = h1.cell a

/-- The version meant by the argument of `Convert`: none means 0.1.0. -/
def target (w : Bytes) : Bytes := if w = [] then b!"0.1.0" else w

/-- The versions of the newest result type. -/
def Is1x (v : Bytes) : Prop := v = b!"1.0.0" ∨ v = b!"1.1.0"

/-- The result with another version. -/
def withVersion (v : Bytes) : Result → Result
  | .v020 r => .v020 { r with cniVersion := v }
  | .v040 r => .v040 { r with cniVersion := v }
  | .v100 r => .v100 { r with cniVersion := v }

/-- The version a result has if none is set: the newest of its type. -/
def newestOf : HResult → Bytes
  | .v020 _ => b!"0.2.0"
  | .v040 _ => b!"0.4.0"
  | .v100 _ => b!"1.1.0"

/-- The struct a result points to. -/
def top : HResult → Addr
  | .v020 a => a
  | .v040 a => a
  | .v100 a => a

/-- The result points to a struct of its type. -/
def TopTyped (h : Heap) : HResult → Prop
  | .v020 a => ∃ x, h.cell a = .r020 x
  | .v040 a => ∃ x, h.cell a = .r040 x
  | .v100 a => ∃ x, h.cell a = .r100 x

end Verif.Spec
