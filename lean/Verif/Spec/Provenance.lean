/- Where the previous results come from that CHECK and DEL hand to plugins when clients use the same attachments concurrently. -/
import Verif.Spec.Amid

namespace Verif.Spec

/-- The version of the configuration of an operation. -/
def ApiOp.version : ApiOp → Bytes
  | .add _ l _ | .del _ l _ | .check _ l _ | .cachedResult _ l _ | .cachedConfig _ l _ => l.cniVersion
  | .addNetwork _ n _ | .delNetwork _ n _ | .checkNetwork _ n _ => n.network.cniVersion

/-- The plugins of an operation. -/
def ApiOp.plugins : ApiOp → List PluginConfig
  | .add _ l _ | .del _ l _ | .check _ l _ | .cachedResult _ l _ | .cachedConfig _ l _ => l.plugins
  | .addNetwork _ n _ | .delNetwork _ n _ | .checkNetwork _ n _ => [n]

/-- The command an operation executes its plugins with. -/
def ApiOp.verb : ApiOp → Option Bytes
  | .add .. | .addNetwork .. => some b!"ADD"
  | .del .. | .delNetwork .. => some b!"DEL"
  | .check .. | .checkNetwork .. => some b!"CHECK"
  | .cachedResult .. | .cachedConfig .. => none

/-- Reading the cached result for the attachment and configuration of an operation. -/
def ApiOp.reading : ApiOp → Prog (Option Result)
  | .add c l rt | .del c l rt | .check c l rt | .cachedResult c l rt | .cachedConfig c l rt => c.getNetworkListCachedResult l rt
  | .addNetwork c n rt | .delNetwork c n rt | .checkNetwork c n rt => c.getNetworkCachedResult n rt

/-- Among the steps `l` of the clients there are all the calls `tr` of the ADD `op` up to the point where it stores its result:
run alone, with the same answers of the plugins, it goes on to store it, returns `r` and leaves the files `left`. -/
def AddedAs (clients : List Client) (l : List (Nat × Move)) (op : ApiOp) (r : Option Result) (left : FS) : Prop :=
  ∃ (j : Nat) (ops : List ApiOp) (before tr after : Trace) (content : Bytes) (fs : FS),
    clients[j]? = some (.session ops) ∧ op ∈ ops ∧ op.added ≠ none ∧ callsBy j l = before ++ tr ++ after ∧
    Runs false op.call fs (tr ++ [⟨.writeFile op.key content, true⟩]) left (.ok (.result r)) ∧ left op.key = some content

/-- The same for some ADD on file `q`. -/
def AddedIn (clients : List Client) (l : List (Nat × Move)) (q : Bytes) (r : Option Result) (left : FS) : Prop :=
  ∃ op : ApiOp, op.key = q ∧ AddedAs clients l op r left

/-- The result without addresses, of the oldest version. -/
def blankResult : Result := .v020 { cniVersion := b!"0.1.0" }

/-- Some write has been seen before it was finished, or files may fail. -/
def Unfinished (flt : Bool) (l : List (Nat × Move)) : Prop := flt = true ∨ ∃ x ∈ l, ∃ n, x.2 = .part n

/-- What an operation may find in the cache after the steps `l` of the clients: nothing, or exactly what one ADD stored. Only if a write
has been seen unfinished it may also find the blank result, in the version of its configuration. -/
inductive Found (flt : Bool) (clients : List Client) (l : List (Nat × Move)) (op : ApiOp) : Option Result → Prop
  | nothing : Found flt clients l op none
  | stored {r : Option Result} {left : FS} {x : Result} {tr : Trace} (ha : AddedIn clients l op.key r left)
      (hr : Runs false op.reading left tr left (.ok (some x))) : Found flt clients l op (some x)
  | blank {x : Result} (hu : Unfinished flt l) (hb : blankResult.getAsVersion op.version = .ok x) : Found flt clients l op (some x)

end Verif.Spec
