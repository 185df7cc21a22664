/- Clients that crash together, at any moment, and others that start with what they left in the cache, any number of times. -/
import Verif.Spec.Collected
import Verif.Spec.Posix

namespace Verif.Spec

/-- The clients running at the same time until they end or everything crashes, and their steps. -/
structure Epoch where
  clients : List Client
  steps : List (Nat × Move)

/-- One epoch after the other; the files are all that is left of an epoch. -/
inductive Epochs (flt : Bool) : List Epoch → FS → FS → Prop
  | nil (fs : FS) : Epochs flt [] fs fs
  | cons {e : Epoch} {es : List Epoch} {fs fs1 fs' : FS} {ps' : List (Prog Ended)}
      (h : Inter flt (e.clients.map Client.run) fs e.steps ps' fs1) (hs : Epochs flt es fs1 fs') : Epochs flt (e :: es) fs fs'

/-- What an operation may find in the cache after these epochs, the last of which is its own: nothing, or exactly what one ADD stored in
one of them. Only if a write has been seen unfinished, or left unfinished by a crash, it may also find the blank result. -/
inductive FoundAfter (flt : Bool) (es : List Epoch) (op : ApiOp) : Option Result → Prop
  | nothing : FoundAfter flt es op none
  | stored {e : Epoch} {r : Option Result} {left : FS} {x : Result} {tr : Trace} (he : e ∈ es) (ha : AddedIn e.clients e.steps op.key r left)
      (hr : Runs false op.reading left tr left (.ok (some x))) : FoundAfter flt es op (some x)
  | blank {x : Result} (hu : flt = true ∨ ∃ e ∈ es, Unfinished flt e.steps) (hb : blankResult.getAsVersion op.version = .ok x) :
      FoundAfter flt es op (some x)

/-- The same with files that are opened, written and closed: an epoch ends with files still open, which are then closed as they are. -/
structure FineEpoch where
  clients : List Client
  steps : List (Nat × FMove)

/-- One such epoch after the other. -/
inductive FineEpochs : List FineEpoch → Disk → Disk → Prop
  | nil (d : Disk) : FineEpochs [] d d
  | cons {e : FineEpoch} {es : List FineEpoch} {d d1 d' : Disk} {ps' : List (Prog Ended)} {fds' : Nat → Option Fd}
      (h : Fine true (e.clients.map Client.run) (fun _ => none) d e.steps ps' fds' d1) (hs : FineEpochs es d1 d') : FineEpochs (e :: es) d d'

end Verif.Spec
