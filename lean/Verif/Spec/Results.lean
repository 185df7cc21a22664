/-
Specification vocabulary for results: the versions of the CNI spec, which result format each
uses, and when a result has no null list entries. Nothing here refers to the converters.
-/
import Verif.Types.Results

namespace Verif.Spec

/-- The published spec versions a result can be in. -/
def specVersions : List Bytes :=
  [b!"0.1.0", b!"0.2.0", b!"0.3.0", b!"0.3.1", b!"0.4.0", b!"1.0.0", b!"1.1.0"]

/-- Versions with the `ip4`/`ip6` format. -/
def old020 : List Bytes := [b!"0.1.0", b!"0.2.0"]
/-- Versions with the `ips` format where every address declares its family. -/
def mid040 : List Bytes := [b!"0.3.0", b!"0.3.1", b!"0.4.0"]
/-- Versions with the current format. -/
def new100 : List Bytes := [b!"1.0.0", b!"1.1.0"]

/-- The Go type of a result fits the version it reports. -/
def WellTyped : Result → Prop
  | .v020 r => r.cniVersion ∈ old020
  | .v040 r => r.cniVersion ∈ mid040
  | .v100 r => r.cniVersion ∈ new100

/-- The two versions use the same result format; an empty version counts as 0.1.0. -/
def SameFormat (v w : Bytes) : Prop :=
  ((v = [] ∨ v ∈ old020) ∧ w ∈ old020) ∨ (v ∈ mid040 ∧ w ∈ mid040) ∨ (v ∈ new100 ∧ w ∈ new100)

/-- No list of the result has a null entry. -/
def NoNull : Result → Prop
  | .v020 _ => True
  | .v040 r => none ∉ r.interfaces ∧ none ∉ r.ips ∧ none ∉ r.routes
  | .v100 r => none ∉ r.interfaces ∧ none ∉ r.ips ∧ none ∉ r.routes

/-- The address is an IPv4 one (4 bytes, or 16 bytes with the v4-mapped prefix). -/
def Is4 (ip : IP) : Prop :=
  ip.length = 4 ∨ (ip.length = 16 ∧ ip.take 12 = [0,0,0,0, 0,0,0,0, 0,0,0xff,0xff])

instance (ip : IP) : Decidable (Is4 ip) := by unfold Is4; infer_instance

/-- The declared family (`"4"` or `"6"`) is that of the address. -/
def FamilyOk (x : Ip040) : Prop := x.version = if Is4 x.address.ip then b!"4" else b!"6"

instance (x : Ip040) : Decidable (FamilyOk x) := by unfold FamilyOk; infer_instance

end Verif.Spec
