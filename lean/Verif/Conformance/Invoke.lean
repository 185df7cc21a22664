/-
The repository's own unit tests, run on the model: pkg/invoke. Checks of the model, not properties.
-/
import Verif.Conformance.Results
import Verif.Libcni.Interp
import Verif.Libcni.Api
import Verif.Skel.Main

set_option synthInstance.maxSize 1024
set_option synthInstance.maxHeartbeats 100000

namespace Verif.Conformance

/-! ### args_test.go -/

/-- Test data; models no code. -/
def latent : List Bytes := [b!"HOME=/root", b!"CNI_COMMAND=DEL", b!"CNI_IFNAME=eth0", b!"CNI_CONTAINERID=id", b!"CNI_ARGS=args", b!"CNI_NETNS=testns", b!"CNI_PATH=testpath"]
/-- Test data; models no code. -/
def invokeArgs : Args :=
  { command := b!"ADD", containerID := b!"some-container-id", netNS := b!"/some/netns/path", pluginArgs := [(b!"KEY1", b!"VALUE1"), (b!"KEY2", b!"VALUE2")],
    ifName := b!"eth7", path := b!"/some/cni/path" }

-- places the CNI environment variables in the end to be prepended (a map is enumerated in some order: here its own)
example : (invokeArgs.asEnv id latent).length = latent.length := by decide +kernel
example : [b!"CNI_COMMAND=ADD", b!"CNI_IFNAME=eth7", b!"CNI_CONTAINERID=some-container-id", b!"CNI_NETNS=/some/netns/path",
    b!"CNI_ARGS=KEY1=VALUE1;KEY2=VALUE2", b!"CNI_PATH=/some/cni/path"].all (fun v => v ∈ invokeArgs.asEnv id latent) = true := by decide +kernel
example : [b!"CNI_COMMAND=DEL", b!"CNI_IFNAME=eth0", b!"CNI_CONTAINERID=id", b!"CNI_NETNS=testns", b!"CNI_ARGS=args", b!"CNI_PATH=testpath"].all
    (fun v => v ∉ invokeArgs.asEnv id latent) = true := by decide +kernel
-- DelegateArgs
example : ((delegateAsEnv id [b!"HOME=/root", b!"CNI_COMMAND=DEL"] b!"ADD").length, b!"CNI_COMMAND=ADD" ∈ delegateAsEnv id [b!"HOME=/root", b!"CNI_COMMAND=DEL"] b!"ADD",
    b!"CNI_COMMAND=DEL" ∈ delegateAsEnv id [b!"HOME=/root", b!"CNI_COMMAND=DEL"] b!"ADD") = (2, True, False) := by
  simp only [Prod.mk.injEq, eq_iff_iff, iff_true, iff_false]; decide +kernel
example : ((delegateAsEnv id [b!"HOME=/root"] b!"ADD").length, b!"CNI_COMMAND=ADD" ∈ delegateAsEnv id [b!"HOME=/root"] b!"ADD") = (2, True) := by
  simp only [Prod.mk.injEq, eq_iff_iff, iff_true]; decide +kernel

/-! ### find_test.go -/

/-- The plugins are in the second directory. Test data; models no code. -/
def isPlugin (p : Bytes) : Bool := p = b!"/tmp/cni-find/a-cni-plugin"
/-- Observation in tests; models no code. -/
def exMsg {α : Type} : Except GoErr α → Option Bytes
  | .error e => some e.msg
  | .ok _ => none
/-- Observation in tests; models no code. -/
def exOk {α : Type} : Except GoErr α → Option α
  | .error _ => none
  | .ok a => some a

example : exOk (findInPath unixExtensions isPlugin b!"a-cni-plugin" [b!"/tmp/nothing-here", b!"/tmp/cni-find"]) = some b!"/tmp/cni-find/a-cni-plugin" := by decide +kernel
example : exMsg (findInPath unixExtensions isPlugin b!"a-cni-plugin" []) = some b!"no paths provided" := by decide +kernel
example : exMsg (findInPath unixExtensions isPlugin [] [b!"/tmp/nothing-here", b!"/tmp/cni-find"]) = some b!"no plugin name provided" := by decide +kernel
example : exOk (findInPath unixExtensions isPlugin b!"a-cni-plugin" [b!"/tmp/nothing-here"]) = none := by decide +kernel
example : exMsg (findInPath unixExtensions isPlugin b!"../pluginname" [b!"/tmp/nothing-here"]) = some b!"invalid plugin name: ../pluginname" := by decide +kernel

/-! ### raw_exec_test.go -/

/-- Go's `%q` on the plain texts of the tests. Test data; models no code. -/
def quoted (s : Bytes) : Bytes := [34] ++ s ++ [34]
/-- Observation in tests; models no code. -/
def rawOut (r : RunResult) : Option (Bytes × Bytes) × Option CniErr :=
  match rawExec quoted (fun _ => r) with
  | .ok x => (some x, none)
  | .error e => (none, some e)

-- returns the resulting stdout as bytes; forwards any stderr bytes
example : rawOut { err := none, stdout := b!"{ \"some\": \"result\" }", stderr := b!"some stderr message" } =
    (some (b!"{ \"some\": \"result\" }", b!"some stderr message"), none) := by decide +kernel
-- wraps and returns the error (as the plugin prints it)
example : (rawOut ({ stdout := ({ code := 999, msg := b!"banana" } : CniErr).printed, status := 1 : PluginExit }.runResult b!"some stderr message")).2 =
    some ⟨999, b!"banana", []⟩ := by decide +kernel
example : (rawOut { err := some b!"exit status 1", stderr := b!"some stderr message" }).2.map (·.msg) = some b!"netplugin failed: \"some stderr message\"" := by
  decide +kernel
example : (rawOut { err := some b!"exit status 1" }).2.map (·.msg) = some b!"netplugin failed with no error message: exit status 1" := by decide +kernel
example : (rawOut { err := some b!"fork/exec /tmp/some/invalid/plugin/path: no such file or directory" }).2.map
    (fun e => containsSub e.msg b!"/tmp/some/invalid/plugin/path") = some true := by decide +kernel

/-! ### exec_test.go -/

/-- Running with a plugin that answers `out`: what it was given, and the outcome. Observation in tests; models no code. -/
def runWith {α : Type} (p : Prog α) (out : Except GoErr Bytes) : Option (List (Bytes × Bytes × PArgs) × Out α) :=
  (p.interp (fun n => .ok (b!"/bin/" ++ n)) (fun _ _ _ => out) (fun _ => none)).map fun x => (x.1.execs.map fun e => (e.path, e.stdin, e.args), x.2.2)

/-- Test data; models no code. -/
def netconf : Bytes := b!"{ \"some\": \"stdin\", \"cniVersion\": \"0.3.1\" }"
/-- Test data; models no code. -/
def someArgs : PArgs := .delegate b!"ADD"

/-- The version of the result, and the addresses after `current.GetResult`. Observation in tests; models no code. -/
def addresses (r : Out Result) : Option (Bytes × List Bytes) :=
  match r with
  | .ok r => match getResult100 r with
    | .ok x => some (r.version, x.ips.map fun i => match i with | some i => IP.str i.address.ip | none => [])
    | _ => none
  | _ => none

/-- The environment a plugin got if the runtime's is empty. Observation in tests; models no code. -/
def withEnv (l : List (Bytes × Bytes × PArgs)) : List (Bytes × Bytes × List Bytes) := l.map fun e => (e.1, e.2.1, e.2.2.env id [])

/-- Test data; models no code. -/
def withResult (conf out : Bytes) : Option (List (Bytes × Bytes × List Bytes) × Option (Bytes × List Bytes)) :=
  (runWith (execWithResult b!"/some/plugin/path" conf someArgs) (.ok out)).map fun x => (withEnv x.1, addresses x.2)

example : withResult netconf b!"{ \"cniVersion\": \"0.3.1\", \"ips\": [ { \"version\": \"4\", \"address\": \"1.2.3.4/24\" } ] }" =
    some ([(b!"/some/plugin/path", netconf, [b!"CNI_COMMAND=ADD"])], some (b!"0.3.1", [b!"1.2.3.4"])) := by decide +kernel
example : (runWith (execWithResult b!"/some/plugin/path" netconf someArgs) (.error (.text b!"banana"))).map (fun x => errMsg x.2) = some (some b!"banana") := by
  decide +kernel
-- assumes config version if result version is missing, or empty
example : withResult netconf b!"{ \"ips\": [ { \"version\": \"4\", \"address\": \"1.2.3.4/24\" } ] }" =
    some ([(b!"/some/plugin/path", netconf, [b!"CNI_COMMAND=ADD"])], some (b!"0.3.1", [b!"1.2.3.4"])) := by decide +kernel
example : withResult netconf b!"{ \"cniVersion\": \"\", \"ips\": [ { \"version\": \"4\", \"address\": \"1.2.3.4/24\" } ] }" =
    some ([(b!"/some/plugin/path", netconf, [b!"CNI_COMMAND=ADD"])], some (b!"0.3.1", [b!"1.2.3.4"])) := by decide +kernel
-- assumes 0.1.0 if config and result version are empty
example : (runWith (execWithResult b!"/some/plugin/path" b!"{ \"some\": \"stdin\" }" someArgs) (.ok b!"{ \"some\": \"version-info\" }")).map
    (fun x => x.2.toOption.map Result.version) = some (some b!"0.1.0") := by decide +kernel
-- without returning a result
example : (runWith (execWithoutResult b!"/some/plugin/path" netconf someArgs) (.ok b!"x")).map (fun x => (withEnv x.1, x.2.isOk)) =
    some ([(b!"/some/plugin/path", netconf, [b!"CNI_COMMAND=ADD"])], true) := by decide +kernel
example : (runWith (execWithoutResult b!"/some/plugin/path" netconf someArgs) (.error (.text b!"banana"))).map (fun x => errMsg x.2) =
    some (some b!"banana") := by decide +kernel

/-- What a plugin is asked for its version with. Observation in tests; models no code. -/
def asked (out : Except GoErr Bytes) : Option (List (Bytes × Bool × List Bool)) :=
  (runWith (getVersionInfoAt b!"/some/plugin/path") out).map fun x => x.1.map fun e =>
    (e.1, matchJSON e.2.1 b!"{\"cniVersion\": \"1.1.0\"}",
     [b!"CNI_COMMAND=VERSION", b!"CNI_NETNS=dummy", b!"CNI_IFNAME=dummy", b!"CNI_PATH=dummy"].map fun v => decide (v ∈ e.2.2.env id []))

-- execs the plugin with the command VERSION; with dummy values for old plugins
example : asked (.ok b!"{ \"cniVersion\": \"0.2.0\" }") = some [(b!"/some/plugin/path", true, [true, true, true, true])] := by decide +kernel
example : (runWith (getVersionInfoAt b!"/some/plugin/path") (.error (.text b!"banana"))).map (fun x => errMsg x.2) = some (some b!"banana") := by decide +kernel
-- interprets the error as a 0.1.0 version
example : (runWith (getVersionInfoAt b!"/some/plugin/path") (.error (.text b!"unknown CNI_COMMAND: VERSION"))).map
    (fun x => x.2.toOption.map (·.supported)) = some (some [b!"0.1.0"]) := by decide +kernel

/-! ### delegate_test.go -/

/-- Test data; models no code. -/
def delegateConf : Bytes := b!"{\"cniVersion\":\"1.1.0\",\"name\":\"delegate-test\"}"
/-- Test data; models no code. -/
def delegateResult : R100 := { cniVersion := b!"1.1.0", ips := [some { address := ⟨v4 10 1 2 3, [255, 255, 255, 0]⟩ }] }
/-- The caller's environment, with this command. Test data; models no code. -/
def delegateEnv (cmd : Bytes) : List Bytes :=
  [b!"CNI_COMMAND=" ++ cmd, b!"CNI_ARGS=DEBUG=/tmp/cni_debug", b!"CNI_PATH=/opt/cni/bin", b!"CNI_NETNS=/tmp/some/netns/path", b!"CNI_IFNAME=eth7",
   b!"CNI_CONTAINERID=container"]

/-- What the delegate sees of a run: the plugin, its command and interface. Observation in tests; models no code. -/
def seen {α : Type} (env : List Bytes) (x : Option (List (Bytes × Bytes × PArgs) × Out α)) : Option (List (Bytes × Bytes × Bytes)) :=
  x.map fun x => x.1.map fun e => (e.1, getenv (e.2.2.env id env) b!"CNI_COMMAND", getenv (e.2.2.env id env) b!"CNI_IFNAME")

/-- Test data; models no code. -/
def delegateOut : Except GoErr Bytes := .ok (((Result.v100 delegateResult).json.map Json.print).getD [])

example : [b!"ADD", b!"NOPE"].map (fun c => seen (delegateEnv c) (runWith (delegateAdd (delegateEnv c) b!"noop" delegateConf) delegateOut)) =
    List.replicate 2 (some [(b!"/bin/noop", b!"ADD", b!"eth7")]) := by decide +kernel
example : (runWith (delegateAdd (delegateEnv b!"ADD") b!"noop" delegateConf) delegateOut).bind (fun x => x.2.toOption) = some (.v100 delegateResult) := by
  decide +kernel
example : [b!"CHECK", b!"NOPE"].map (fun c => seen (delegateEnv c) (runWith (delegateCheck (delegateEnv c) b!"noop" delegateConf) delegateOut)) =
    List.replicate 2 (some [(b!"/bin/noop", b!"CHECK", b!"eth7")]) := by decide +kernel
example : [b!"DEL", b!"NOPE"].map (fun c => seen (delegateEnv c) (runWith (delegateDel (delegateEnv c) b!"noop" delegateConf) delegateOut)) =
    List.replicate 2 (some [(b!"/bin/noop", b!"DEL", b!"eth7")]) := by decide +kernel
example : [b!"STATUS", b!"NOPE"].map (fun c => seen (delegateEnv c) (runWith (delegateStatus (delegateEnv c) b!"noop" delegateConf) delegateOut)) =
    List.replicate 2 (some [(b!"/bin/noop", b!"STATUS", b!"eth7")]) := by decide +kernel

end Verif.Conformance
