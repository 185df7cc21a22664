/- Clients using the API concurrently. -/
import Verif.Spec.Cache
import Verif.Spec.Gc

namespace Verif.Spec

/-- A client that makes the calls of these operations one after the other, whether they succeed or not. -/
def session : List ApiOp → Prog (List (Except GoErr Reply))
  | [] => .done (.ok [])
  | op :: ops => op.call.attempt.bind fun r => (session ops).bind fun rs => .done (.ok (r :: rs))

/-- Something that runs concurrently: a session, a garbage collection of a network, or a listing of the attachments. -/
inductive Client where
  | session (ops : List ApiOp)
  | gc (c : CNIConfig) (list : NetConfList) (valid : Option (List GCAttachment))
  | listing (c : CNIConfig) (cid : Bytes)

/-- What a client executes; of a garbage collection or listing the outcome is left out. -/
def Client.prog : Client → Prog (List (Except GoErr Reply))
  | .session ops => Spec.session ops
  | .gc c list valid => (c.gcNetworkList list valid).attempt.bind fun _ => .done (.ok [])
  | .listing c cid => (c.getCachedAttachments cid).attempt.bind fun _ => .done (.ok [])

/-- The client works on the entry in file `q` only. -/
def Client.Owns (q : Bytes) : Client → Prop
  | .session ops => ∀ op ∈ ops, op.key = q
  | _ => False

/-- The client does not concern the entry in file `q`: its operations are on other entries; no attachment that its garbage
collection may count as stale has its entry in this file. -/
def Client.Avoids (q : Bytes) : Client → Prop
  | .session ops => ∀ op ∈ ops, op.key ≠ q
  | .gc c list valid => ∀ a : Attachment, Stale list.name valid a → c.cachePath list.name (rtOf a) ≠ .ok q
  | .listing .. => True

/-- The operations of the client have ordinary names. -/
def Client.Plain : Client → Prop
  | .session ops => ∀ op ∈ ops, PlainNames op.name op.rt
  | _ => True

/-- The steps of the programs with the property. -/
def stepsOf (own : Nat → Bool) (l : List (Nat × Move)) : List (Nat × Move) := l.filter fun x => own x.1

/-- The calls made by one program. -/
def callsBy (i : Nat) (l : List (Nat × Move)) : Trace := (l.filter fun x => x.1 = i).filterMap fun x => x.2.event?

end Verif.Spec
