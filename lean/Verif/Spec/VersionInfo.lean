/- What a runtime learns about the versions a plugin supports. -/
import Verif.Spec.EndToEnd
import Verif.Spec.PluginView

namespace Verif.Spec

/-- The members `ms` of an answer to a VERSION request declare the versions `vs`: they state a version of their own and list `vs`. The
answers of version 0.2.0 had no list. -/
inductive Declares (ms : List (Bytes × Json)) : List Bytes → Prop
  | listed {v : Bytes} {vs : List Bytes} (hv : (b!"cniVersion", .str v) ∈ ms) (hne : v ≠ [])
      (hs : (b!"supportedVersions", .arr (vs.map .str)) ∈ ms) (hvs : vs ≠ []) : Declares ms vs
  | old (hv : (b!"cniVersion", .str b!"0.2.0") ∈ ms) (hs : ∀ j, (b!"supportedVersions", j) ∈ ms → j = .null ∨ j = .arr []) :
      Declares ms [b!"0.1.0", b!"0.2.0"]

/-- The answer `b` is spelled plainly and its list of versions has no null in it. -/
structure PlainInfo (ms : List (Bytes × Json)) : Prop where
  plainly : Plainly [b!"cniVersion", b!"supportedVersions"] ms
  noNull : ∀ l, (b!"supportedVersions", .arr l) ∈ ms → .null ∉ l

/-- Execution `e` ran a plugin built with skel for the versions `vs`, from a process with the environment `environ`; whatever its callbacks,
its namespaces and what it writes to stderr. Its stdout is fine. -/
def SkelPlugin (enum : MapEnum) (environ : List Bytes) (e : ExecEv) (vs : List Bytes) : Prop :=
  ∃ quote t funcs vi about ns printed stderr, ProcessOf enum environ e t ∧ t.stdoutErr = none ∧ pluginSupports vs = .ok vi ∧
    (∀ v ∈ vs, isUtf8 v = true) ∧ AnsweredBy quote e (t.mainFuncs funcs vi about ns printed) stderr

end Verif.Spec
