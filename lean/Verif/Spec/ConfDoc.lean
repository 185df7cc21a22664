/- What a plugin configuration document says. -/
import Verif.Spec.ResultDoc
import Verif.Spec.Doc
import Verif.Types.PluginConf

namespace Verif.Spec

/-- A truth value; `null` is false. -/
inductive TruthElem : Json → Bool → Prop
  | null : TruthElem .null false
  | bool (b : Bool) : TruthElem (.bool b) b

/-- Truth values by name (a sorted list stands for the map); nothing and `null` are the empty map, the last of several members of one name counts. -/
inductive TruthsVal : Option Json → GoMap Bool → Prop
  | absent : TruthsVal none []
  | null : TruthsVal (some .null) []
  | map {l : List (Bytes × Json)} {m : GoMap Bool} (hl : ∀ p ∈ l, ∃ b, TruthElem p.2 b) (hs : GoMap.Sorted m)
      (h : ∀ k b, GoMap.get? m k = some b ↔ ∃ j, LastMember l k j ∧ TruthElem j b) : TruthsVal (some (.obj l)) m

/-- A map of arbitrary values, kept as Go keeps them (numbers as float64, C08), or none. -/
inductive AnyVal : Option Json → Option (GoMap Json) → Prop
  | absent : AnyVal none none
  | null : AnyVal (some .null) none
  | map {l : List (Bytes × Json)} {m : GoMap Json} (hl : ∀ p ∈ l, ∃ v, Json.toAny p.2 = some v) (hs : GoMap.Sorted m)
      (h : ∀ k v, GoMap.get? m k = some v ↔ ∃ j, LastMember l k j ∧ Json.toAny j = some v) : AnyVal (some (.obj l)) (some m)

/-- The settings of address management: its type. -/
def IsIpam (ms : List (Bytes × Json)) (t : Bytes) : Prop := Field ms b!"type" TextVal t

/-- An attachment. -/
structure IsAttachment (ms : List (Bytes × Json)) (a : GCAttachment) : Prop where
  containerID : Field ms b!"containerID" TextVal a.containerID
  ifName : Field ms b!"ifname" TextVal a.ifName

/-- A plugin configuration. -/
structure IsConf (ms : List (Bytes × Json)) (c : PluginConf) : Prop where
  cniVersion : Field ms b!"cniVersion" TextVal c.cniVersion
  name : Field ms b!"name" TextVal c.name
  type : Field ms b!"type" TextVal c.type
  capabilities : Field ms b!"capabilities" TruthsVal c.capabilities
  ipam : Field ms b!"ipam" (RecordVal IsIpam) c.ipamType
  dns : Field ms b!"dns" (RecordVal IsDns) c.dns
  rawPrev : Field ms b!"prevResult" AnyVal c.rawPrev
  attachments : Field ms b!"cni.dev/valid-attachments" (ListVal (Record IsAttachment)) c.validAttachments
  prevResult : c.prevResult = none

end Verif.Spec
