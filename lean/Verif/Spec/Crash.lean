/- What a crash may leave behind in the cache. -/
import Verif.Libcni.Api
import Verif.Spec.Api
import Verif.Spec.Cache

namespace Verif.Spec

/-- `b` is an incomplete copy of `content`: it breaks off before the end. -/
def Torn (content b : Bytes) : Prop := ∃ n, n < content.length ∧ b = content.take n

/-- `content` is what a successful ADD for the attachment leaves in its cache file. -/
inductive Stores (c : CNIConfig) (rt : RuntimeConf) (content : Bytes) : Bytes → Prop
  | list {flt : Bool} {list : NetConfList} {fs fs1 : FS} {tr : Trace} {r : Result}
      (h : Runs flt (c.addNetworkList list rt) fs tr fs1 (.ok (some r))) (hc : fs1 (entryPath c list.name rt) = some content) :
      Stores c rt content list.name
  | network {flt : Bool} {net : PluginConfig} {fs fs1 : FS} {tr : Trace} {r : Result}
      (h : Runs flt (c.addNetwork net rt) fs tr fs1 (.ok r)) (hc : fs1 (entryPath c net.network.name rt) = some content) :
      Stores c rt content net.network.name

/-- After the crash the file holds what it held before, or the new `content`, whole or broken off. -/
def OldNewOrTorn (old : Option Bytes) (content : Bytes) (now : Option Bytes) : Prop :=
  now = old ∨ now = some content ∨ ∃ b, Torn content b ∧ now = some b

/-- A rough history: operations one after the other; file operations may fail, and the runtime may crash at any point of an
operation, after which the next one starts. -/
inductive RoughHistory : List ApiOp → FS → FS → Prop
  | nil (fs : FS) : RoughHistory [] fs fs
  | completed {op : ApiOp} {ops : List ApiOp} {fs fs1 fs2 : FS} {tr : Trace} {o : Out Reply} (h1 : Runs true op.call fs tr fs1 o)
      (h2 : RoughHistory ops fs1 fs2) : RoughHistory (op :: ops) fs fs2
  | crashed {op : ApiOp} {ops : List ApiOp} {fs fs1 fs2 : FS} {tr : Trace} (h1 : Crash true op.call fs tr fs1)
      (h2 : RoughHistory ops fs1 fs2) : RoughHistory (op :: ops) fs fs2

end Verif.Spec
