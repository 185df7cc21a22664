/- What a garbage collection and a listing do while other clients use the same cache. -/
import Verif.Spec.Provenance

namespace Verif.Spec

/-- `a` describes the attachment and the configuration of the ADD `op`, as JSON keeps texts: what is not UTF-8 is replaced. -/
structure Describes (op : ApiOp) (a : Attachment) : Prop where
  network : a.network = sanitize op.name
  container : a.containerID = sanitize op.rt.containerID
  ifName : a.ifName = sanitize op.rt.ifName
  netNS : a.netNS = sanitize op.rt.netNS
  args : a.cniArgs = op.rt.args.map fun kv => (sanitize kv.1, sanitize kv.2)
  config : op.added = some a.config

/-- Among the steps of the clients there are all those of an ADD of this attachment up to the point where it stores its entry. -/
def AddedAttachment (clients : List Client) (l : List (Nat × Move)) (a : Attachment) : Prop :=
  ∃ op r left, Describes op a ∧ AddedAs clients l op r left

/-- `e` is a DEL of one of the plugins of the list for the stale attachment `a`, with the previous result `prev`. -/
structure CollectedDel (c : CNIConfig) (list : NetConfList) (valid : Option (List GCAttachment)) (tr : Trace) (a : Attachment)
    (prev : Option Result) (e : ExecEv) : Prop where
  stale : Stale list.name valid a
  invoked : ∃ p ∈ list.plugins, Invoked c b!"DEL" list.name list.cniVersion (rtOf a) p prev tr e

end Verif.Spec
