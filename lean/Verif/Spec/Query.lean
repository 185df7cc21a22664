/- What the status query and the validation must do. -/
import Verif.Spec.Gc
import Verif.Spec.Panic

namespace Verif.Spec

/-- The run of a status query over `plugins`: each is searched for and executed with its configuration rewritten, up to the
first failure. -/
inductive Queried (c : CNIConfig) (name ver : Bytes) : List PluginConfig → Trace → Out Unit → Prop
  | nil : Queried c name ver [] [] (.ok ())
  /-- the configuration cannot be rewritten -/
  | unsound {p : PluginConfig} {ps : List PluginConfig} {pre : Bytes} {g : GoErr} (hn : ¬ Sound p) :
      Queried c name ver (p :: ps) [] (.err (.wrap pre g))
  /-- the configuration is not even an object -/
  | crash {p : PluginConfig} {ps : List PluginConfig} (hn : ¬ IsObject p) : Queried c name ver (p :: ps) [] .panic
  | notFound {p : PluginConfig} {ps : List PluginConfig} {type : Bytes} {g : GoErr} (ht : Sound p → type = p.network.type) :
      Queried c name ver (p :: ps) [⟨.find type c.path, (.error g : Except GoErr Bytes)⟩] (.err g)
  | fails {p : PluginConfig} {ps : List PluginConfig} {stdin type path : Bytes} {g : GoErr} (ht : Sound p → type = p.network.type)
      (hs : BareStdin p.bytes name ver none stdin) :
      Queried c name ver (p :: ps) [⟨.find type c.path, (.ok path : Except GoErr Bytes)⟩,
        ⟨.exec path stdin (.args (attachArgs c b!"STATUS" {})), (.error g : Except GoErr Bytes)⟩] (.err g)
  | next {p : PluginConfig} {ps : List PluginConfig} {stdin type path out : Bytes} {tr : Trace} {o : Out Unit}
      (ht : Sound p → type = p.network.type) (hs : BareStdin p.bytes name ver none stdin) (h : Queried c name ver ps tr o) :
      Queried c name ver (p :: ps) (⟨.find type c.path, (.ok path : Except GoErr Bytes)⟩ ::
        ⟨.exec path stdin (.args (attachArgs c b!"STATUS" {})), (.ok out : Except GoErr Bytes)⟩ :: tr) o

/-- The arguments of a VERSION request. -/
def versionRequest : PArgs := .args { command := b!"VERSION", netNS := b!"dummy", ifName := b!"dummy", path := b!"dummy" }

/-- The answer to a VERSION request says which versions are supported. A plugin that does not know the request supports 0.1.0. -/
def Supports (r : Except GoErr Bytes) (v : Bytes) : Prop :=
  match r with
  | .ok out => ∃ info, decodePluginInfo out = .ok info ∧ v ∈ info.supported
  | .error g => g.msg = b!"unknown CNI_COMMAND: VERSION" ∧ v = b!"0.1.0"

/-- A version of a configuration; none is 0.1.0. -/
def effective (ver : Bytes) : Bytes := if ver = [] then b!"0.1.0" else ver

/-- The run of a validation: every plugin is searched for and, if found, asked for the versions it supports. `answers`: one for
each plugin, `none` if not found. -/
inductive Probes (c : CNIConfig) : List PluginConfig → Trace → List (Option (Except GoErr Bytes)) → Prop
  | nil : Probes c [] [] []
  | notFound {p : PluginConfig} {ps : List PluginConfig} {g : GoErr} {tr : Trace} {as : List (Option (Except GoErr Bytes))}
      (h : Probes c ps tr as) :
      Probes c (p :: ps) (⟨.find p.network.type c.path, (.error g : Except GoErr Bytes)⟩ :: tr) (none :: as)
  | asked {p : PluginConfig} {ps : List PluginConfig} {path : Bytes} {r : Except GoErr Bytes} {tr : Trace}
      {as : List (Option (Except GoErr Bytes))} (h : Probes c ps tr as) :
      Probes c (p :: ps) (⟨.find p.network.type c.path, (.ok path : Except GoErr Bytes)⟩ ::
        ⟨.exec path b!"{\"cniVersion\":\"1.1.0\"}" versionRequest, r⟩ :: tr) (some r :: as)

end Verif.Spec
