/- What earlier releases of the library stored for an attachment. -/
import Verif.Spec.ResultJson
import Verif.Spec.Results
import Verif.Types.ResultJson

namespace Verif.Spec

/-- `b` is the marshalled result `r`, and nothing else: what earlier releases wrote into the file of an attachment (no container, no
network, no configuration). `r` is a result whose fields survive being stored at all (C32). -/
def ResultFile (b : Bytes) (r : Result) : Prop :=
  WellTyped r ∧ (∃ e, Representable e r ∧ ∀ x, r = .v100 x → e = true) ∧ ∃ j, r.json = some j ∧ b = j.print

end Verif.Spec
