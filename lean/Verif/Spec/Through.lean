/- A plugin that does its work by delegating it. -/
import Verif.Spec.Chain
import Verif.Spec.Delegate

namespace Verif.Spec

/-- What a function of Go that does not crash returns: a value or an error. -/
def ReturnsAs {α : Type} (o : Out α) (x : Except GoErr α) : Prop :=
  match o with
  | .ok r => x = .ok r
  | .err g => x = .error g
  | .panic => False

/-- Execution `e` is of a plugin built with skel, whose callback for `v` returns `x` and prints nothing; it supports the version `ver`
and does not run in the namespace of the container. -/
def QuietPlugin (quote : Bytes → Bytes) (enum : MapEnum) (environ : List Bytes) (ver : Bytes) (v : Callback) (x : Except GoErr Unit)
    (e : ExecEv) : Prop :=
  ∃ (t : SkelProc) (funcs : CNIFuncs) (vi : PluginInfo) (about : Bytes) (ns : Namespaces) (printed : Callback × CmdArgs → Bytes)
    (stderr : Bytes) (f : CmdArgs → Out Unit),
    ProcessOf enum environ e t ∧ callbackOf funcs v = some f ∧ (∀ a, ReturnsAs (f a) x) ∧ (∀ a, printed (v, a) = []) ∧
    effective ver ∈ vi.supported ∧ (∀ s ∈ vi.supported, ∃ p, Reads s p) ∧ ApartFrom ns t ∧
    AnsweredBy quote e (t.mainFuncs funcs vi about ns printed) stderr

/-- The delegate `e'`, executed by a process with the environment `env`, gets the request as the delegating plugin did: if it is built
with skel and supports the version, its callback for `v` is called with the same arguments, and these are what the runtime was told. -/
def GetsTheSame (c : CNIConfig) (rt : RuntimeConf) (ver : Bytes) (v : Callback) (env : List Bytes) (stdin : Bytes) (e' : ExecEv) : Prop :=
  e'.stdin = stdin ∧ SeesAttachment c rt stdin (requestArgs (getenv env) stdin) ∧
  ∀ enum t', (∀ m, (enum m).Perm m) → ProcessOf enum env e' t' → Passed t' v (effective ver) (requestArgs (getenv env) stdin)

end Verif.Spec
