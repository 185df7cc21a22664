/- What can be said about clients whose readings of files, too, are made in pieces. -/
import Verif.Libcni.Reads
import Verif.Spec.Posix

namespace Verif.Spec

/-- The answered calls and the parts of writes among the steps. -/
def coarse (l : List (Nat × RMove)) : List (Nat × Move) :=
  l.filterMap fun x => match x.2 with
    | .call e => some (x.1, .call e)
    | .opened => some (x.1, .part 0)
    | .wrote n => some (x.1, .part n)
    | _ => none

/-- Nothing is open and no directory is being listed yet. -/
def start (clients : List Client) (d : Disk) : Sys Ended := ⟨clients.map Client.run, fun _ => none, d, fun _ => []⟩

/-- No attachment is added twice. -/
def AddedOnce (clients : List Client) : Prop :=
  ∀ (i j m n : Nat) (ops ops' : List ApiOp) (op op' : ApiOp), clients[i]? = some (.session ops) → clients[j]? = some (.session ops') →
    ops[m]? = some op → ops'[n]? = some op' → op.added ≠ none → op'.added ≠ none → op.key = op'.key → i = j ∧ m = n

end Verif.Spec
