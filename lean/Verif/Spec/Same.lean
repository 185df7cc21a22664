/- What "the same outcome" means for a single configuration and the list made of it. -/
import Verif.Libcni.Api

namespace Verif.Spec

/-- Two outcomes are the same but for the text of the error: both succeed, the second with `f` of the first's value, or both
return an error, or both panic (which C50 excludes). Models no code. -/
inductive SameOutcome {α β : Type} (f : α → β) : Out α → Out β → Prop
  | ok (a : α) : SameOutcome f (.ok a) (.ok (f a))
  | err (e e' : GoErr) : SameOutcome f (.err e) (.err e')
  | panic : SameOutcome f .panic .panic

/-- `L` is the list that `ConfListFromConf` makes of the configuration `net` loaded from some document, and its plugin has
the type `net` has. (The types differ only if the document states `type` several times, in different capitalisations:
`c77_type`, `c77_type_needed`.) Models no code. -/
structure MadeOf (net : PluginConfig) (L : NetConfList) : Prop where
  loaded : ∃ b, pluginConfFromBytes b = .ok net
  made : confListFromConf net = .ok L
  type : ∀ p ∈ L.plugins, p.network.type = net.network.type

/-- Two runs asked for the same plugins and ran the same plugins with the same input and environment, with the same answers, in
the same order. Models no code. -/
def SamePlugins (tr tr' : Trace) : Prop := tr'.finds = tr.finds ∧ tr'.execs = tr.execs

end Verif.Spec
