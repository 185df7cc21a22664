/- When the runtime may crash. -/
import Verif.Libcni.Cache
import Verif.Spec.Results

namespace Verif.Spec

/-- The cache file is an entry in the current format. -/
def IsEntry (b : Bytes) (info : CachedInfo) : Prop := readCachedInfo b = some info ∧ info.kind = b!"cniCacheV1"

/-- The cache file holds the result: as the result of an entry, or else as the whole file (the legacy format). -/
def HoldsResult (b : Bytes) (r : Result) : Prop :=
  (∃ info, IsEntry b info ∧ createFromBytes (mapJson info.rawResult).print = .ok r) ∨
    ((¬ ∃ info, IsEntry b info) ∧ createFromBytes b = .ok r)

/-- The cache file holds a result with a null list entry. -/
def HoldsNull (b : Bytes) : Prop := ∃ r, HoldsResult b r ∧ ¬ NoNull r

/-- The configuration of the plugin is a JSON object, as in everything the loaders return. -/
def IsObject (p : PluginConfig) : Prop := ∃ ms, Json.parse p.bytes = some (.obj ms)

end Verif.Spec
