/- What the command-line tool is asked to do. -/
import Verif.Spec.Env
import Verif.Spec.Gc
import Verif.Cnitool.Main

namespace Verif.Spec

/-- `v` is the value of the first entry for `k` (the one a process reads when names are repeated). -/
def FirstBinding (env : List Bytes) (k v : Bytes) : Prop :=
  ∃ a e b, env = a ++ e :: b ∧ Binds e k v ∧ ∀ x ∈ a, ∀ v', ¬ Binds x k v'

/-- The value of the variable `k`, empty if it is not set. -/
def EnvIs (env : List Bytes) (k v : Bytes) : Prop := FirstBinding env k v ∨ (Unset env k ∧ v = [])

/-- `p` is the absolute path that `path` means in the directory `cwd`. -/
def AbsIs (cwd : Option Bytes) (path p : Bytes) : Prop :=
  (path.head? = some 47 ∧ p = cleanPath path) ∨ (path.head? ≠ some 47 ∧ ∃ d, cwd = some d ∧ p = joinPath d path)

/-- The capability arguments written as `text`; no text and `null` are none. -/
def CapsOf (text : Bytes) (caps : GoMap Json) : Prop :=
  (text = [] ∧ caps = []) ∨ (text ≠ [] ∧ ((Json.parse text = some .null ∧ caps = []) ∨
    ∃ ms m, Json.parse text = some (.obj ms) ∧ Json.toAnyMembers ms = some m ∧ caps = GoMap.ofList m))

/-- The arguments for plugins written as `text`. -/
def ArgsOf (text : Bytes) (args : List (Bytes × Bytes)) : Prop :=
  text = pairsText args ∧ CleanPairs args ∧ ∀ p ∈ args, p.1 ≠ [] ∧ p.2 ≠ []

/-- The tool is asked for `verb` on network `list` for the attachment `rt`, with the runtime `c`: `tool verb network namespace`,
with the network found by name in the directory of configurations; everything else is from the environment. -/
structure Asked (t : ToolProc) (verb : Bytes) (list : NetConfList) (c : CNIConfig) (rt : RuntimeConf) : Prop where
  request : ∃ exe name netns rest dir, t.args = exe :: verb :: name :: netns :: rest ∧ AbsIs t.cwd netns rt.netNS ∧
    EnvIs t.environ b!"NETCONFPATH" dir ∧ loadNetworkConf t.files (if dir = [] then b!"/etc/cni/net.d" else dir) name = .ok list
  path : ∃ p, EnvIs t.environ b!"CNI_PATH" p ∧ joinWith b!":" c.path = p ∧ (p = [] → c.path = []) ∧ ∀ d ∈ c.path, 58 ∉ d
  containerID : rt.containerID = b!"cnitool-" ++ hexBytes ((t.sha512 rt.netNS).take 10)
  ifName : FirstBinding t.environ b!"CNI_IFNAME" rt.ifName ∨ (Unset t.environ b!"CNI_IFNAME" ∧ rt.ifName = b!"eth0")
  args : ∃ a, EnvIs t.environ b!"CNI_ARGS" a ∧ ArgsOf a rt.args
  caps : ∃ s, EnvIs t.environ b!"CAP_ARGS" s ∧ CapsOf s rt.capArgs
  cacheDir : c.cacheDir = [] ∧ rt.cacheDir = []

/-- The tool ends the way the call ended: with code 0 and some output, or with code 1, no output and the call's error. -/
def EndsAs {α : Type} (o : Out α) (output : α → Bytes → Prop) (x : Out ToolExit) : Prop :=
  match o with
  | .ok a => ∃ s, output a s ∧ x = .ok { code := 0, stdout := s }
  | .err g => x = .ok { code := 1, err := some g }
  | .panic => x = .panic

/-- The output for a result is its document; there is none for no result. -/
def ResultOutput (r : Option Result) (s : Bytes) : Prop :=
  match r with
  | none => s = []
  | some r => ∃ j, r.json = some j ∧ Json.parse s = some j.clean

/-- The commands of the tool. -/
def toolVerbs : List Bytes := [b!"add", b!"check", b!"del", b!"gc", b!"status"]

end Verif.Spec
