/- Delegation from one plugin to another. -/
import Verif.Spec.EndToEnd

namespace Verif.Spec

/-- The process finds `v` under the name `k` in its environment (empty if it is not set; the first of repeated entries). -/
def EnvValue (environ : List Bytes) (k v : Bytes) : Prop :=
  (∃ a e b, environ = a ++ e :: b ∧ Binds e k v ∧ ∀ x ∈ a, ∀ v', ¬ Binds x k v') ∨ (Unset environ k ∧ v = [])

/-- The elements of a search path: separated by colons, none if it is empty. -/
def PathElements (s : Bytes) (l : List Bytes) : Prop :=
  joinWith b!":" l = s ∧ (∀ p ∈ l, 58 ∉ p) ∧ (s = [] → l = [])

/-- A run in which `plugin` is searched for on the process's CNI_PATH and, if found, executed once with the configuration
`netconf` and the process's environment with only CNI_COMMAND replaced by `verb`. `e` is the execution, `g` the failure to
find it. -/
def Delegated (environ : List Bytes) (verb plugin netconf : Bytes) (tr : Trace) (x : Except GoErr ExecEv) : Prop :=
  ∃ pathVar path, EnvValue environ b!"CNI_PATH" pathVar ∧ PathElements pathVar path ∧
    match x with
    | .error g => tr.finds = [⟨plugin, path, .error g⟩] ∧ tr.execs = []
    | .ok e => tr.finds = [⟨plugin, path, .ok e.path⟩] ∧ tr.execs = [e] ∧ e.stdin = netconf ∧
      ∀ enum, (∀ m, (enum m).Perm m) → Overrides environ [(b!"CNI_COMMAND", verb)] (e.args.env enum environ)

/-- No name is repeated in the environment. -/
def OncePerName (environ : List Bytes) : Prop :=
  environ.Pairwise fun a b => ∀ k v w, Binds a k v → ¬ Binds b k w

end Verif.Spec
