/- What it takes for an operation to succeed. -/
import Verif.Spec.Api

namespace Verif.Spec

/-- Every search for a plugin binary found one. -/
def AllFound (tr : Trace) : Prop := ∀ f ∈ tr.finds, ∃ path, f.resp = .ok path

/-- Every plugin that was executed exited successfully. -/
def AllExited (tr : Trace) : Prop := ∀ e ∈ tr.execs, Succeeded e

/-- Every plugin that was executed exited successfully and printed a result that can be read. -/
def AllReturned (tr : Trace) : Prop := ∀ e ∈ tr.execs, ∃ r, Returned e r

end Verif.Spec
