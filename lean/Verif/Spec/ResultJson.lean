/-
Which results can be written as JSON and read back: strings are UTF-8, addresses are in the form the
parsers produce, integers fit. Nothing here refers to the encoders or decoders.
-/
import Verif.Types.Results
import Verif.Json.Decode

namespace Verif.Spec

/-- A 64-bit `int`; with `exact`, one that float64 represents exactly (below 2^53 in magnitude). -/
def Fits (exact : Bool) (n : Int) : Prop :=
  if exact then n.natAbs < 2 ^ 53 else isInt64 n

def OptFits (exact : Bool) (o : Option Int) : Prop := ∀ n, o = some n → Fits exact n

/-- Absent, or a 16-byte address. -/
def AddrOk (ip : IP) : Prop := ip = [] ∨ ip.length = 16

def TextOk (s : Bytes) : Prop := isUtf8 s = true
def TextsOk (l : List Bytes) : Prop := ∀ s ∈ l, TextOk s

def DnsOk (d : Dns) : Prop := TextsOk d.nameservers ∧ TextOk d.domain ∧ TextsOk d.search ∧ TextsOk d.options

def RouteOk (e : Bool) (r : Route) : Prop :=
  r.dst.Canon ∧ AddrOk r.gw ∧ Fits e r.mtu ∧ Fits e r.advmss ∧ Fits e r.priority ∧ OptFits e r.table ∧ OptFits e r.scope

def Ip020Ok (e : Bool) (i : Ip020) : Prop := i.ip.Canon ∧ AddrOk i.gateway ∧ ∀ r ∈ i.routes, RouteOk e r

def Intf040Ok (i : Intf040) : Prop := TextOk i.name ∧ TextOk i.mac ∧ TextOk i.sandbox
def Ip040Ok (e : Bool) (i : Ip040) : Prop :=
  TextOk i.version ∧ OptFits e i.interface ∧ i.address.Canon ∧ AddrOk i.gateway
def Intf100Ok (e : Bool) (i : Intf100) : Prop :=
  TextOk i.name ∧ TextOk i.mac ∧ Fits e i.mtu ∧ TextOk i.sandbox ∧ TextOk i.socketPath ∧ TextOk i.pciID
def Ip100Ok (e : Bool) (i : Ip100) : Prop := OptFits e i.interface ∧ i.address.Canon ∧ AddrOk i.gateway

/-- Null entries are allowed; the others must be representable. -/
def EachOk {α : Type} (p : α → Prop) (l : List (Option α)) : Prop := ∀ x ∈ l, ∀ a, x = some a → p a

/-- A representable result. -/
def Representable (e : Bool) : Result → Prop
  | .v020 r => (∀ i, r.ip4 = some i → Ip020Ok e i) ∧ (∀ i, r.ip6 = some i → Ip020Ok e i) ∧ DnsOk r.dns
  | .v040 r => EachOk Intf040Ok r.interfaces ∧ EachOk (Ip040Ok e) r.ips ∧ EachOk (RouteOk e) r.routes ∧ DnsOk r.dns
  | .v100 r => EachOk (Intf100Ok e) r.interfaces ∧ EachOk (Ip100Ok e) r.ips ∧ EachOk (RouteOk e) r.routes ∧ DnsOk r.dns

/-! ### standard form of addresses

A 4-byte address and its 16-byte v4-mapped form denote the same IPv4 address; the parsers always
produce the 16-byte form, with a 4-byte mask. -/

def std16 (ip : IP) : IP := if ip.length = 4 then [0,0,0,0, 0,0,0,0, 0,0,0xff,0xff] ++ ip else ip
def stdNet (n : IPNet) : IPNet :=
  { ip := std16 n.ip, mask := if (IP.to4 n.ip).isSome ∧ n.mask.length = 16 then n.mask.drop 12 else n.mask }
def stdRoute (r : Route) : Route := { r with dst := stdNet r.dst, gw := std16 r.gw }
def stdIp020 (i : Ip020) : Ip020 := { ip := stdNet i.ip, gateway := std16 i.gateway, routes := i.routes.map stdRoute }
def stdIp040 (i : Ip040) : Ip040 := { i with address := stdNet i.address, gateway := std16 i.gateway }
def stdIp100 (i : Ip100) : Ip100 := { i with address := stdNet i.address, gateway := std16 i.gateway }
/-- The same result with all addresses in standard form. -/
def std : Result → Result
  | .v020 r => .v020 { r with ip4 := r.ip4.map stdIp020, ip6 := r.ip6.map stdIp020 }
  | .v040 r => .v040 { r with ips := r.ips.map (Option.map stdIp040), routes := r.routes.map (Option.map stdRoute) }
  | .v100 r => .v100 { r with ips := r.ips.map (Option.map stdIp100), routes := r.routes.map (Option.map stdRoute) }

/-! Everything is decidable, so that examples can be checked by evaluation. -/

theorem forallSome_iff {α : Type} (p : α → Prop) [DecidablePred p] (o : Option α) :
    (o.all (fun a => decide (p a)) = true) ↔ ∀ a, o = some a → p a := by
  cases o <;> simp
instance {α : Type} (p : α → Prop) [DecidablePred p] (o : Option α) : Decidable (∀ a, o = some a → p a) :=
  decidable_of_iff _ (forallSome_iff p o)
instance (e : Bool) (n : Int) : Decidable (Fits e n) := by unfold Fits isInt64; infer_instance
instance (e : Bool) : DecidablePred (Fits e) := fun _ => inferInstance
instance (e : Bool) (o : Option Int) : Decidable (OptFits e o) := by unfold OptFits; infer_instance
instance (ip : IP) : Decidable (AddrOk ip) := by unfold AddrOk; infer_instance
instance (s : Bytes) : Decidable (TextOk s) := by unfold TextOk; infer_instance
instance (l : List Bytes) : Decidable (TextsOk l) := by unfold TextsOk; infer_instance
instance (d : Dns) : Decidable (DnsOk d) := by unfold DnsOk; infer_instance
theorem canon_iff (n : IPNet) : (n.ip.length = 16 ∧ ((List.range 129).any fun p =>
      if (IP.to4 n.ip).isSome then decide (p ≤ 32) && decide (n.mask = cidrMask 4 p)
      else decide (p ≤ 128) && decide (n.mask = cidrMask 16 p)) = true) ↔ n.Canon := by
  simp only [IPNet.Canon, List.any_eq_true, List.mem_range]
  constructor
  · rintro ⟨h, p, _, hp⟩
    refine ⟨h, p, ?_⟩
    split at hp <;> simp_all
  · rintro ⟨h, p, hp⟩
    refine ⟨h, p, ?_, ?_⟩
    · split at hp <;> omega
    · split at hp <;> simp_all
instance (n : IPNet) : Decidable n.Canon := decidable_of_iff _ (canon_iff n)
instance (e : Bool) (r : Route) : Decidable (RouteOk e r) := by unfold RouteOk; infer_instance
instance (e : Bool) : DecidablePred (RouteOk e) := fun _ => inferInstance
instance (e : Bool) (i : Ip020) : Decidable (Ip020Ok e i) := by unfold Ip020Ok; infer_instance
instance (e : Bool) : DecidablePred (Ip020Ok e) := fun _ => inferInstance
instance : DecidablePred Intf040Ok := fun i => by unfold Intf040Ok; infer_instance
instance (e : Bool) : DecidablePred (Ip040Ok e) := fun i => by unfold Ip040Ok; infer_instance
instance (e : Bool) : DecidablePred (Intf100Ok e) := fun i => by unfold Intf100Ok; infer_instance
instance (e : Bool) : DecidablePred (Ip100Ok e) := fun i => by unfold Ip100Ok; infer_instance
instance {α : Type} (p : α → Prop) [DecidablePred p] (l : List (Option α)) : Decidable (EachOk p l) := by
  unfold EachOk; infer_instance
instance (e : Bool) (r : Result) : Decidable (Representable e r) := by
  cases r <;> unfold Representable <;> infer_instance

end Verif.Spec
