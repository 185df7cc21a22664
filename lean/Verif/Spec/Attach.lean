/- The cached attachments, as the contents of the results directory. -/
import Verif.Libcni.Cache
import Verif.Spec.Api

namespace Verif.Spec

/-- The directory of the cache entries of a runtime. -/
def resultsDir (c : CNIConfig) : Bytes := cleanPath (cacheRoot c {} ++ b!"/results")

/-- The attachment a cache file describes: its contents are a document of kind `cniCacheV1` that names a network and an
interface. Any other contents describe none. -/
def entryOf (b : Bytes) : Option Attachment :=
  (readCachedInfo b).bind fun i =>
    if i.kind = b!"cniCacheV1" ∧ i.ifName ≠ [] ∧ i.networkName ≠ [] then
      some { containerID := i.containerID, network := i.networkName, ifName := i.ifName, config := i.config, netNS := i.netNS,
             cniArgs := i.cniArgs.getD [], capArgs := i.capArgs }
    else none

/-- The attachment described by file `n` of the results directory. -/
def attachmentIn (c : CNIConfig) (fs : FS) (n : Bytes) : Option Attachment := (fs (childPath (resultsDir c) n)).bind entryOf

/-- `l` are the attachments with the property `keep` in the results directory, in the order of their file names. -/
structure Listed (c : CNIConfig) (fs : FS) (keep : Attachment → Prop) (names : List Bytes) (l : List Attachment) : Prop where
  sorted : names.Pairwise fun a b => Bytes.lt a b = true
  mem : ∀ n, n ∈ names ↔ IsComp n ∧ ∃ a, attachmentIn c fs n = some a ∧ keep a
  same : names.map (attachmentIn c fs) = l.map some

/-- Every cache entry is in a file whose name is that of a network, its container and an interface. -/
def WellNamed (c : CNIConfig) (fs : FS) : Prop :=
  ∀ n a, IsComp n → attachmentIn c fs n = some a →
    ∃ net ifn, n = net ++ b!"-" ++ a.containerID ++ b!"-" ++ ifn ∧ net ≠ [] ∧ net.head? ≠ some 45 ∧ ifn ≠ []

end Verif.Spec
