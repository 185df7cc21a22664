/- A plugin built with pkg/skel, run by the runtime. -/
import Verif.Spec.Query
import Verif.Spec.Skel
import Verif.Spec.Env
import Verif.Skel.Main

namespace Verif.Spec

/-- `t` is the process of execution `e`, started from a process with the environment `environ`: it has the environment and the
standard input it was started with. (`enum`: the order in which Go enumerates a map.) -/
structure ProcessOf (enum : MapEnum) (environ : List Bytes) (e : ExecEv) (t : SkelProc) : Prop where
  env : t.getenv = getenv (e.args.env enum environ)
  stdin : t.stdin = .ok e.stdin

/-- The answer to execution `e` is that of a process that left `x` and wrote `stderr`, run by the runtime's own executor. -/
def AnsweredBy (quote : Bytes → Bytes) (e : ExecEv) (x : PluginExit) (stderr : Bytes) : Prop :=
  e.resp = match rawExec quote (fun _ => x.runResult stderr) with
    | .ok (out, _) => .ok out
    | .error ce => .error (.cni ce)

/-- The callback is told about the attachment what the runtime was told. -/
structure SeesAttachment (c : CNIConfig) (rt : RuntimeConf) (stdin : Bytes) (a : CmdArgs) : Prop where
  containerID : a.containerID = rt.containerID
  netns : a.netns = rt.netNS
  ifName : a.ifName = rt.ifName
  args : a.args = pairsText rt.args
  path : a.path = joinWith b!":" c.path
  stdinData : a.stdinData = stdin

/-- The configuration has no key that differs from `cniVersion` in nothing but case. -/
def PlainVersion (orig : Bytes) : Prop :=
  ∀ ms, Json.parse orig = some (.obj ms) → ∀ m ∈ ms, foldKey m.1 = foldKey b!"cniVersion" → m.1 = b!"cniVersion"

/-- The plugin's main function passes the request on: with the version `ver` it calls the callback if the plugin supports the
version, and refuses with code 1 (incompatible version) otherwise. -/
structure Passed (t : SkelProc) (v : Callback) (ver : Bytes) (a : CmdArgs) : Prop where
  called : ∀ funcs vi about ns f, callbackOf funcs v = some f → (∀ s ∈ vi.supported, ∃ p, Reads s p) → ver ∈ vi.supported →
    (t.pluginMain funcs vi about ns).calls = [(v, a)]
  refused : ∀ funcs vi about ns, (∀ s ∈ vi.supported, ∃ p, Reads s p) → ver ∉ vi.supported →
    ∃ e, t.pluginMain funcs vi about ns = { out := .error e } ∧ e.code = 1

/-- The invocation `e` of a plugin with the configuration `orig` is one that plugins built with skel accept: its environment
and network name are valid, the plugin is told about the attachment what the runtime was told, and the request gets to the
plugin if it supports the version in the configuration. That is the version of the list, unless `orig` spells it otherwise. -/
structure Accepted (c : CNIConfig) (v : Callback) (name ver : Bytes) (rt : RuntimeConf) (orig : Bytes) (e : ExecEv) (t : SkelProc) : Prop where
  env : EnvOK t.getenv v
  name : ConfName e.stdin name ∧ ValidName name
  sees : SeesAttachment c rt e.stdin (requestArgs t.getenv e.stdin)
  version : ∃ w, ConfVersion e.stdin w ∧ (PlainVersion orig → w = effective (sanitize ver)) ∧
    ((∀ u, minVersion v = some u → AtLeast w u) → Passed t v w (requestArgs t.getenv e.stdin))

end Verif.Spec
