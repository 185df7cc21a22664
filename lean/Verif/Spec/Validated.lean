/- What a validation of a network list promises. -/
import Verif.Spec.OnlyFound
import Verif.Spec.VersionInfo

namespace Verif.Spec

/-- The plugins of the run were found by the library's own search with `w` telling what is a regular file, and each was built with skel,
the one at path `p` for the versions `sup p`. -/
structure SkelRuns (exts : List Bytes) (w : Bytes → Bool) (sup : Bytes → List Bytes) (enum : MapEnum) (environ : List Bytes)
    (tr : Trace) : Prop where
  search : DefaultSearch exts (fun _ => w) tr
  plugins : ∀ e ∈ tr.execs, SkelPlugin enum environ e (sup e.path)

/-- The list was found to be valid once, when `w` told what is a regular file. -/
def FoundValid (exts : List Bytes) (w : Bytes → Bool) (sup : Bytes → List Bytes) (c : CNIConfig) (list : NetConfList) : Prop :=
  ∃ flt fs tr fs' caps enum environ, Runs flt (c.validateNetworkList list) fs tr fs' (.ok caps) ∧ (∀ m, (enum m).Perm m) ∧
    SkelRuns exts w sup enum environ tr

/-- The same for a single network. -/
def FoundValidAlone (exts : List Bytes) (w : Bytes → Bool) (sup : Bytes → List Bytes) (c : CNIConfig) (net : PluginConfig) : Prop :=
  ∃ flt fs tr fs' caps enum environ, Runs flt (c.validateNetwork net) fs tr fs' (.ok caps) ∧ (∀ m, (enum m).Perm m) ∧
    SkelRuns exts w sup enum environ tr

/-- Every plugin built with skel for the versions `vs` that has a callback for the request calls it in the process `t`, with the
arguments `a`. -/
def GetsThrough (vs : List Bytes) (t : SkelProc) (v : Callback) (a : CmdArgs) : Prop :=
  ∀ funcs f vi about ns, callbackOf funcs v = some f → pluginSupports vs = .ok vi → (t.pluginMain funcs vi about ns).calls = [(v, a)]

end Verif.Spec
