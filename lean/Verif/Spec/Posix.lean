/- What can be said about clients whose writes consist of opening, writing and closing a file. -/
import Verif.Libcni.Posix
import Verif.Spec.Settled

namespace Verif.Spec

/-- The calls of one client that have been answered. -/
def answeredTo (i : Nat) (l : List (Nat × FMove)) : Trace :=
  (l.filter fun x => x.1 = i).filterMap fun x => match x.2 with
    | .call e => some e
    | _ => none

/-- The coarse steps `l'` are those of the same clients: each has made the same calls with the same answers, except that a write
which has not been answered yet may be counted as done. -/
def SameCalls (l : List (Nat × FMove)) (l' : List (Nat × Move)) : Prop :=
  ∀ i, callsBy i l' = answeredTo i l ∨ ∃ p c, callsBy i l' = answeredTo i l ++ [⟨.writeFile p c, true⟩]

/-- No two of the clients store the same attachment. -/
def Apart (clients : List Client) : Prop :=
  ∀ (i j : Nat) (ops ops' : List ApiOp), clients[i]? = some (.session ops) → clients[j]? = some (.session ops') → i ≠ j →
    ∀ op ∈ ops, ∀ op' ∈ ops', op.added ≠ none → op'.added ≠ none → op.key ≠ op'.key

end Verif.Spec
