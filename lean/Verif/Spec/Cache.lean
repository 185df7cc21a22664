/- The attachment cache as a map: what a history of operations stores under a key. -/
import Verif.Libcni.Api
import Verif.Spec.Api
import Verif.Spec.ResultJson

namespace Verif.Spec

/-- What an ADD stores. -/
structure Stored where
  result : Option Result
  config : Bytes
  name : Bytes
  rt : RuntimeConf

/-- An operation of the runtime API on one attachment. -/
inductive ApiOp where
  | add (c : CNIConfig) (list : NetConfList) (rt : RuntimeConf)
  | addNetwork (c : CNIConfig) (net : PluginConfig) (rt : RuntimeConf)
  | del (c : CNIConfig) (list : NetConfList) (rt : RuntimeConf)
  | delNetwork (c : CNIConfig) (net : PluginConfig) (rt : RuntimeConf)
  | check (c : CNIConfig) (list : NetConfList) (rt : RuntimeConf)
  | checkNetwork (c : CNIConfig) (net : PluginConfig) (rt : RuntimeConf)
  | cachedResult (c : CNIConfig) (list : NetConfList) (rt : RuntimeConf)
  | cachedConfig (c : CNIConfig) (list : NetConfList) (rt : RuntimeConf)

/-- What an operation returns. -/
inductive Reply where
  | done
  | result (r : Option Result)
  | config (x : Option (Bytes × RuntimeConf))

/-- The call an operation stands for. -/
def ApiOp.call : ApiOp → Prog Reply
  | .add c l rt => (c.addNetworkList l rt).bind fun r => .done (.ok (.result r))
  | .addNetwork c n rt => (c.addNetwork n rt).bind fun r => .done (.ok (.result (some r)))
  | .del c l rt => (c.delNetworkList l rt).bind fun _ => .done (.ok .done)
  | .delNetwork c n rt => (c.delNetwork n rt).bind fun _ => .done (.ok .done)
  | .check c l rt => (c.checkNetworkList l rt).bind fun _ => .done (.ok .done)
  | .checkNetwork c n rt => (c.checkNetwork n rt).bind fun _ => .done (.ok .done)
  | .cachedResult c l rt => (c.getNetworkListCachedResult l rt).bind fun r => .done (.ok (.result r))
  | .cachedConfig c l rt => (c.getNetworkListCachedConfig l rt).bind fun r => .done (.ok (.config r))

/-- The runtime, network name and runtime configuration an operation is for. -/
def ApiOp.cfg : ApiOp → CNIConfig
  | .add c _ _ | .addNetwork c _ _ | .del c _ _ | .delNetwork c _ _ | .check c _ _ | .checkNetwork c _ _ | .cachedResult c _ _
  | .cachedConfig c _ _ => c
def ApiOp.name : ApiOp → Bytes
  | .add _ l _ | .del _ l _ | .check _ l _ | .cachedResult _ l _ | .cachedConfig _ l _ => l.name
  | .addNetwork _ n _ | .delNetwork _ n _ | .checkNetwork _ n _ => n.network.name
def ApiOp.rt : ApiOp → RuntimeConf
  | .add _ _ rt | .addNetwork _ _ rt | .del _ _ rt | .delNetwork _ _ rt | .check _ _ rt | .checkNetwork _ _ rt
  | .cachedResult _ _ rt | .cachedConfig _ _ rt => rt

/-- The file of the attachment of an operation. -/
def ApiOp.key (op : ApiOp) : Bytes := entryPath op.cfg op.name op.rt

/-- The configuration bytes an ADD was given; `none` for other operations. -/
def ApiOp.added : ApiOp → Option Bytes
  | .add _ l _ => some l.bytes
  | .addNetwork _ n _ => some n.bytes
  | _ => none

def ApiOp.isDel : ApiOp → Bool
  | .del .. | .delNetwork .. => true
  | _ => false

/-- What was stored cannot be given to plugins of a configuration of this version. -/
def Unusable (st : Stored) (ver : Bytes) : Prop :=
  ∀ r, st.result = some r → Representable true r → ∀ r', r.getAsVersion ver ≠ .ok r'

/-- The effect of an operation that ended with `o` on what is stored under key `q`. -/
inductive Effect (q : Bytes) : ApiOp → Out Reply → Option Stored → Option Stored → Prop
  /-- A successful ADD stores its result and configuration. -/
  | stored {op : ApiOp} {conf : Bytes} {r : Option Result} {s : Option Stored} (hk : op.key = q) (ha : op.added = some conf) :
      Effect q op (.ok (.result r)) s (some ⟨r, conf, op.name, op.rt⟩)
  /-- A successful DEL removes it. -/
  | removed {op : ApiOp} {x : Reply} {s : Option Stored} (hk : op.key = q) (hd : op.isDel = true) : Effect q op (.ok x) s none
  /-- A DEL of a list that fails drops it only if it is of no use to the plugins. -/
  | dropped {c : CNIConfig} {list : NetConfList} {rt : RuntimeConf} {o : Out Reply} {st : Stored}
      (hk : (ApiOp.del c list rt).key = q) (hf : ∀ x, o ≠ .ok x) (hu : Unusable st list.cniVersion) :
      Effect q (.del c list rt) o (some st) none
  /-- Everything else changes nothing: other operations, failed ones, and those on other entries. -/
  | kept {op : ApiOp} {o : Out Reply} {s : Option Stored}
      (h : op.key ≠ q ∨ (∀ x, o ≠ .ok x) ∨ (op.added = none ∧ op.isDel = false)) : Effect q op o s s

/-- The effect of a history. -/
inductive Effects (q : Bytes) : List (ApiOp × Out Reply) → Option Stored → Option Stored → Prop
  | nil (s : Option Stored) : Effects q [] s s
  | cons {op : ApiOp} {o : Out Reply} {h : List (ApiOp × Out Reply)} {s s1 s2 : Option Stored} (h1 : Effect q op o s s1)
      (h2 : Effects q h s1 s2) : Effects q ((op, o) :: h) s s2

/-- A history: operations run one after the other, with any behaviour of the plugins; no file operation fails. -/
inductive History : List (ApiOp × Out Reply) → FS → FS → Prop
  | nil (fs : FS) : History [] fs fs
  | cons {op : ApiOp} {o : Out Reply} {h : List (ApiOp × Out Reply)} {fs fs1 fs2 : FS} {tr : Trace}
      (h1 : Runs false op.call fs tr fs1 o) (h2 : History h fs1 fs2) : History ((op, o) :: h) fs fs2

end Verif.Spec
