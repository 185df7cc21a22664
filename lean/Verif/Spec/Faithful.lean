/- Which results read from a document survive being written and read again, in terms of what they hold. -/
import Verif.Spec.ResultJson

namespace Verif.Spec

/-- The networks in a result: addresses with their prefixes, and destinations of routes. -/
def networksIn : Result → List IPNet
  | .v020 r => (r.ip4.toList ++ r.ip6.toList).flatMap fun i => i.ip :: i.routes.map fun t => t.dst
  | .v040 r => (r.ips.filterMap id).map (fun i => i.address) ++ (r.routes.filterMap id).map fun t => t.dst
  | .v100 r => (r.ips.filterMap id).map (fun i => i.address) ++ (r.routes.filterMap id).map fun t => t.dst

/-- The integers of a route. -/
def routeIntegers (t : Route) : List Int := [t.mtu, t.advmss, t.priority] ++ t.table.toList ++ t.scope.toList

/-- The integers in a result. -/
def integersIn : Result → List Int
  | .v020 r => (r.ip4.toList ++ r.ip6.toList).flatMap fun i => i.routes.flatMap routeIntegers
  | .v040 r => (r.ips.filterMap id).flatMap (fun i => i.interface.toList) ++ (r.routes.filterMap id).flatMap routeIntegers
  | .v100 r => (r.interfaces.filterMap id).map (fun i => i.mtu) ++ (r.ips.filterMap id).flatMap (fun i => i.interface.toList) ++
      (r.routes.filterMap id).flatMap routeIntegers

/-- The network is given, and it is not an IPv4 address written in IPv6 form with an IPv6 prefix (`::ffff:10.0.0.1/120`). -/
def NetFaithful (n : IPNet) : Prop :=
  n.ip ≠ [] ∧ ¬ (n.ip.take 12 = [0, 0, 0, 0, 0, 0, 0, 0, 0, 0, 0xff, 0xff] ∧ n.mask.length = 16)

/-- Every network is given in a form that can be written back, and every integer is below 2^53. -/
def Faithful (r : Result) : Prop :=
  (∀ n ∈ networksIn r, NetFaithful n) ∧ ∀ i ∈ integersIn r, i.natAbs < 2 ^ 53

instance (r : Result) : Decidable (Faithful r) := by unfold Faithful NetFaithful; infer_instance

end Verif.Spec
