/-
What the runtime operations do, seen from outside: which plugins are executed, with what input, and what happens to the
files. Nothing here refers to how the operations are implemented.
-/
import Verif.Libcni.Prog
import Verif.Libcni.Cache
import Verif.Spec.Stdin
import Verif.Spec.Names
import Verif.Invoke.Fixup

namespace Verif.Spec

/-- The document of a previous result. -/
def DocOf : Option Result → Option Json → Prop
  | none, doc => doc = none
  | some r, doc => ∃ j, r.json = some j ∧ doc = some j

/-- The arguments of an invocation for an attachment. -/
def attachArgs (c : CNIConfig) (verb : Bytes) (rt : RuntimeConf) : Args :=
  { command := verb, containerID := rt.containerID, netNS := rt.netNS, pluginArgs := rt.args, ifName := rt.ifName,
    path := joinWith b!":" c.path }

/-- `e` is an execution of plugin `p` with command `verb`: of a binary that a search for `p`'s type on the configured path
returned, with the arguments of the attachment, and with `p`'s configuration on stdin, into which name, version, `prev` and
the enabled capability arguments have been put. -/
structure Invoked (c : CNIConfig) (verb name ver : Bytes) (rt : RuntimeConf) (p : PluginConfig) (prev : Option Result)
    (tr : Trace) (e : ExecEv) : Prop where
  found : ⟨p.network.type, c.path, .ok e.path⟩ ∈ tr.finds
  args : e.args = .args (attachArgs c verb rt)
  stdin : ∃ doc, DocOf prev doc ∧ StdinSpec p.bytes name ver doc rt.capArgs e.stdin

/-- The plugin exited successfully. -/
def Succeeded (e : ExecEv) : Prop := ∃ out, e.resp = .ok out

/-- The plugin exited successfully and printed the result `r`. -/
def Returned (e : ExecEv) (r : Result) : Prop := ∃ out, e.resp = .ok out ∧ resultOfOutput e.stdin out = .ok r

/-- The executions of a run are those of an ADD over `plugins`: the `i`-th execution is of the `i`-th plugin and is given the
result of the one before; `rs` are the results, one for each execution but for a last one that failed. -/
structure AddChain (c : CNIConfig) (name ver : Bytes) (rt : RuntimeConf) (plugins : List PluginConfig) (first : Option Result)
    (tr : Trace) (rs : List Result) : Prop where
  invoked : ∀ (i : Nat) (e : ExecEv), tr.execs[i]? = some e → ∃ p, plugins[i]? = some p ∧
    Invoked c b!"ADD" name ver rt p (if i = 0 then first else rs[i - 1]?) tr e
  results : ∀ (i : Nat) (r : Result), rs[i]? = some r → ∃ e, tr.execs[i]? = some e ∧ Returned e r
  atMostOneMore : tr.execs.length ≤ rs.length + 1
  lastFailed : ∀ e, tr.execs[rs.length]? = some e → ∀ r, ¬ Returned e r

/-- The executions of a run are those of `verb` over `plugins` in order, each with the same previous result, up to the first
failure: all but the last one succeeded. -/
structure Sweep (c : CNIConfig) (verb name ver : Bytes) (rt : RuntimeConf) (plugins : List PluginConfig) (prev : Option Result)
    (tr : Trace) : Prop where
  invoked : ∀ (i : Nat) (e : ExecEv), tr.execs[i]? = some e → ∃ p, plugins[i]? = some p ∧ Invoked c verb name ver rt p prev tr e
  succeeded : ∀ (i : Nat) (e : ExecEv), tr.execs[i]? = some e → i + 1 < tr.execs.length → Succeeded e

/-- Every plugin was executed, successfully. -/
def AllSucceeded (plugins : List PluginConfig) (tr : Trace) : Prop :=
  tr.execs.length = plugins.length ∧ ∀ e ∈ tr.execs, Succeeded e

/-- The cache directory in effect: of the runtime, else of the (deprecated) per-call setting, else the default. -/
def cacheRoot (c : CNIConfig) (rt : RuntimeConf) : Bytes :=
  if c.cacheDir ≠ [] then c.cacheDir else if rt.cacheDir ≠ [] then rt.cacheDir else b!"/var/lib/cni"

/-- The file of an attachment: `network-container-interface`, directly inside `results` in the cache directory. -/
def entryPath (c : CNIConfig) (name : Bytes) (rt : RuntimeConf) : Bytes :=
  childPath (cleanPath (cacheRoot c rt ++ b!"/results")) (name ++ b!"-" ++ rt.containerID ++ b!"-" ++ rt.ifName)

/-- `q` is a file directly inside `results` in the cache directory. -/
def InResults (c : CNIConfig) (rt : RuntimeConf) (q : Bytes) : Prop :=
  ∃ n, IsComp n ∧ q = childPath (cleanPath (cacheRoot c rt ++ b!"/results")) n

/-- The names of an attachment can be components of a path. -/
structure PlainNames (name : Bytes) (rt : RuntimeConf) : Prop where
  name : name ≠ [] ∧ 47 ∉ name
  cid : rt.containerID ≠ [] ∧ 47 ∉ rt.containerID
  ifn : rt.ifName ≠ [] ∧ 47 ∉ rt.ifName

/-- The second attachment has the same names and cache directory as the first. -/
structure SameAttachment (c : CNIConfig) (name : Bytes) (rt : RuntimeConf) (c2 : CNIConfig) (name2 : Bytes) (rt2 : RuntimeConf) : Prop where
  name : name2 = name
  cid : rt2.containerID = rt.containerID
  ifn : rt2.ifName = rt.ifName
  dir : cacheRoot c2 rt2 = cacheRoot c rt

end Verif.Spec
