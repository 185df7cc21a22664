/- What is in the cache after clients have used the same attachments concurrently. -/
import Verif.Spec.Provenance

namespace Verif.Spec

/-- What a call leaves in file `q`, if it changes it. -/
def leaves (q : Bytes) : Event → Option (Option Bytes)
  | ⟨.writeFile p c, (r : Bool)⟩ => if p = q ∧ r = true then some (some c) else none
  | ⟨.remove p, (r : Bool)⟩ => if p = q ∧ r = true then some none else none
  | _ => none

/-- No call among the steps has changed file `q`. -/
def Untouched (q : Bytes) (l : List (Nat × Move)) : Prop := ∀ (i : Nat) e, (i, .call e) ∈ l → leaves q e = none

/-- The last call that changed file `q` was made by client `j` after the steps `l1`, and left `v` there. -/
def LastChange (q : Bytes) (l l1 : List (Nat × Move)) (j : Nat) (v : Option Bytes) : Prop :=
  ∃ e l2, l = l1 ++ (j, .call e) :: l2 ∧ leaves q e = some v ∧ Untouched q l2

/-- All clients have ended, with these outcomes. -/
def AllEnded {α : Type} (ps : List (Prog α)) : Prop := ∀ (i : Nat) (p : Prog α), ps[i]? = some p → ∃ x, p = .done (.ok x)

/-- The `n`-th operation of client `j` is `op` and it has replied `r`. -/
def Replied (clients : List Client) (ps' : List (Prog Ended)) (j n : Nat) (op : ApiOp) (r : Except GoErr Reply) : Prop :=
  ∃ ops rs, clients[j]? = some (.session ops) ∧ ops[n]? = some op ∧ ps'[j]? = some (.done (.ok (.session rs))) ∧ rs[n]? = some r

/-- Client `j` may remove file `q`: it makes a DEL of that attachment, or it is a garbage collection for which an attachment with that file is stale. -/
def MayRemove (q : Bytes) : Client → Prop
  | .session ops => ∃ op ∈ ops, op.isDel = true ∧ op.key = q
  | .gc c list valid => ∃ a, Stale list.name valid a ∧ c.cachePath list.name (rtOf a) = .ok q
  | .listing .. => False

end Verif.Spec
