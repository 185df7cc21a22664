/- What concurrent clients end with, and the moments of a concurrent run. -/
import Verif.Spec.Inter

namespace Verif.Spec

/-- How a client ends. -/
inductive Ended where
  | session (rs : List (Except GoErr Reply))
  | gc (r : Except GoErr Unit)
  | listing (r : Except GoErr (List Attachment))

/-- What a client executes, with its outcome. -/
def Client.run : Client → Prog Ended
  | .session ops => (Spec.session ops).bind fun rs => .done (.ok (.session rs))
  | .gc c list valid => (c.gcNetworkList list valid).attempt.bind fun r => .done (.ok (.gc r))
  | .listing c cid => (c.getCachedAttachments cid).attempt.bind fun r => .done (.ok (.listing r))

/-- The client stores nothing in file `q`: none of its operations on this entry is an ADD. (It may remove the file.) -/
def Client.StoresNot (q : Bytes) : Client → Prop
  | .session ops => ∀ op ∈ ops, op.key = q → op.added = none
  | _ => True

/-- At some moment of the concurrent run, after program `i` has begun and before its last step, the files were `now`. -/
def During {α : Type} (flt : Bool) (ps : List (Prog α)) (fs : FS) (l : List (Nat × Move)) (ps' : List (Prog α)) (fs' : FS) (i : Nat)
    (now : FS) : Prop :=
  ∃ l1 l2 mid, l = l1 ++ l2 ∧ Inter flt ps fs l1 mid now ∧ Inter flt mid now l2 ps' fs' ∧ (∃ x ∈ l1, x.1 = i) ∧ ∃ x ∈ l2, x.1 = i

/-- The names of the file of the entry of an attachment: its network, container and interface. -/
structure OwnFile (n : Bytes) (a : Attachment) : Prop where
  own : n = a.network ++ b!"-" ++ a.containerID ++ b!"-" ++ a.ifName
  container : a.containerID ≠ []
  network : a.network.head? ≠ some 45

end Verif.Spec
