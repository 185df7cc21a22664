/- One operation has replied before another one begins. -/
import Verif.Spec.Reads
import Verif.Spec.Settled
import Verif.Spec.Attach

namespace Verif.Spec

/-- With the answers `tr`, in this order, the program ends, with outcome `o`. -/
inductive EndsBy : Prog α → Trace → Out α → Prop
  | done (o : Out α) : EndsBy (.done o) [] o
  | step {a : Act} {k : a.Resp → Prog α} {r : a.Resp} {tr : Trace} {o : Out α} (h : EndsBy (k r) tr o) : EndsBy (.op a k) (⟨a, r⟩ :: tr) o

/-- In the steps `l` operation `n` of client `j`, which is `op`, has replied `r`: with the answers the client got first, its operations up to and
including that one have ended, with that reply. -/
def RepliedIn (clients : List Client) (l : List (Nat × RMove)) (j n : Nat) (op : ApiOp) (r : Except GoErr Reply) : Prop :=
  ∃ ops tr rs, clients[j]? = some (.session ops) ∧ ops[n]? = some op ∧ tr <+: callsBy j (coarse l) ∧
    EndsBy (session (ops.take (n + 1))) tr (.ok rs) ∧ rs[n]? = some r

/-- After the steps `l`, in the state `s`, client `i` is about to begin with its operation `m` (or, if it is a garbage collection or a listing, has
not begun): all it has been answered are the calls of the operations before, and it neither has a file open nor a listing in progress. -/
structure Begins (clients : List Client) (l : List (Nat × RMove)) (s : Sys Ended) (i m : Nat) : Prop where
  files : s.hs i = none
  lists : s.ls i = []
  session : ∀ ops, clients[i]? = some (.session ops) → ∃ rs, EndsBy (Spec.session (ops.take m)) (callsBy i (coarse l)) (.ok rs)
  other : (∀ ops, clients[i]? ≠ some (.session ops)) → callsBy i (coarse l) = []

/-- After the steps `l`, none of which empties a file that another has open, operation `n` of client `j`, the ADD `op`, has succeeded and returned
`x`; client `i` is about to begin with its operation `m`. -/
structure Before (clients : List Client) (d : Disk) (l : List (Nat × RMove)) (s1 : Sys Ended) (j n : Nat) (op : ApiOp) (x : Reply) (i m : Nat) :
    Prop where
  steps : Ticks true (start clients d) l s1
  added : op.added ≠ none
  replied : RepliedIn clients l j n op (.ok x)
  begins : Begins clients l s1 i m

/-- In the steps `l` client `k` has not got beyond its first `m` operations: all it has been answered are calls of these. -/
def NotBegun (clients : List Client) (l : List (Nat × RMove)) (k m : Nat) : Prop :=
  ∃ ops tr o, clients[k]? = some (.session ops) ∧ callsBy k (coarse l) <+: tr ∧ EndsBy (session (ops.take m)) tr o

/-- Of the ADDs of the attachment `q`, operation `n` of client `j` is the latest in the steps `l`, and none overlaps with it: it begins after the steps
`l0`, and any other one has replied by then, or does not begin in `l`. -/
structure Latest (clients : List Client) (l0 l : List (Nat × RMove)) (j n : Nat) (q : Bytes) : Prop where
  begins : NotBegun clients l0 j n
  others : ∀ (k m : Nat) (ops : List ApiOp) (op : ApiOp), clients[k]? = some (.session ops) → ops[m]? = some op → op.added ≠ none → op.key = q →
    ¬ (k = j ∧ m = n) → (∃ r, RepliedIn clients l0 k m op r) ∨ NotBegun clients l k m

/-- In the steps `l` nobody has removed the file `q`. -/
def Unremoved (l : List (Nat × RMove)) (q : Bytes) : Prop := ∀ k, (k, RMove.call ⟨.remove q, true⟩) ∉ l

/-- Nobody may have removed the file `q` in those of the steps `l` that come after `l0`: a client does not make DELs of that attachment, and is not a
garbage collection for which it is stale; or it is a session, and each of these DELs has replied by `l0` or does not begin in `l`. -/
def NoneRemoves (clients : List Client) (l0 l : List (Nat × RMove)) (q : Bytes) : Prop :=
  ∀ (k : Nat) (cl : Client), clients[k]? = some cl → ¬ MayRemove q cl ∨ ∃ ops, cl = .session ops ∧ ∀ (m : Nat) (op : ApiOp), ops[m]? = some op →
    op.isDel = true → op.key = q → (∃ r, RepliedIn clients l0 k m op r) ∨ NotBegun clients l k m

/-- The entry of the attachment of `op` is in the directory that is listed. -/
def InDir (c : CNIConfig) (op : ApiOp) : Prop := cleanPath (cacheRoot op.cfg op.rt ++ b!"/results") = resultsDir c

/-- The operation asks for the entry of an attachment; it neither stores nor removes it. -/
def ApiOp.Asks (op : ApiOp) : Prop := op.added = none ∧ op.isDel = false

end Verif.Spec
