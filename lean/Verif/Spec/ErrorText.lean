/- Which plugin failed, as an error tells it. -/
import Verif.Spec.Api

namespace Verif.Spec

/-- `g` says that the plugin `p` failed: its type and its name are in the error's own part of the text, in front of the plugin's error. -/
def NamesPlugin (g : GoErr) (p : PluginConfig) : Prop :=
  ∃ pre inner, g = .wrap pre inner ∧ p.network.type <:+: pre ∧ p.network.name <:+: pre

/-- The plugins were run in order up to plugin `p`, which was not run or was not successful; all those before it were; `g` names it. -/
def StoppedAt (ok : ExecEv → Prop) (plugins : List PluginConfig) (tr : Trace) (g : GoErr) : Prop :=
  ∃ (i : Nat) (p : PluginConfig), plugins[i]? = some p ∧ NamesPlugin g p ∧ (∀ j : Nat, j < i → ∃ e, tr.execs[j]? = some e ∧ ok e) ∧
    ∀ (j : Nat) (e : ExecEv), i ≤ j → tr.execs[j]? = some e → j = i ∧ ¬ ok e

end Verif.Spec
