/-
The repository's own unit tests, run on the model: the plugin lists of libcni/api_test.go. Checks of the model, not properties.
-/
import Verif.Conformance.Api

set_option synthInstance.maxSize 1024
set_option synthInstance.maxHeartbeats 100000

namespace Verif.Conformance.Api

/-! ### Invoking a plugin list -/

/-- The debug file of the plugin. Test data; models no code. -/
def debugPath (key : Bytes) : Bytes := b!"/tmp/cni_debug_" ++ key

/-- `newPluginInfo`: a plugin's configuration. Test data; models no code. -/
def pluginOf (key caps prev : Bytes) : Bytes :=
  b!"{\"type\": \"noop\", \"some-key\": \"" ++ key ++ b!"\"" ++ prev ++ b!", \"debugFile\": \"" ++ debugPath key ++ b!"\", \"commandLog\": \"/tmp/log\"" ++ caps

/-- Test data; models no code. -/
def ipLine : Bytes := b!"{\"cniVersion\": \"1.1.0\", \"ips\":[{\"address\": \"10.1.2.3/24\"}]}"

/-- The three plugins of `makePluginList`, and what each adds to the input. Test data; models no code. -/
def three (ip : Bytes) : List (Bytes × Bytes) :=
  [(pluginOf b!"some-value" b!", \"capabilities\": {\"portMappings\": true, \"otherCapability\": true}" [],
    b!", \"runtimeConfig\": {\"portMappings\":[{\"hostPort\":8080,\"containerPort\":80,\"protocol\":\"tcp\"}],\"otherCapability\":33}"),
   (pluginOf b!"some-other-value" b!", \"capabilities\": {\"otherCapability\": true}" (b!", \"prevResult\": " ++ ip),
    b!", \"runtimeConfig\": {\"otherCapability\":33}"),
   (pluginOf b!"yet-another-value" [] (b!", \"prevResult\": " ++ ip), [])]

/-- `makePluginList`. Test data; models no code. -/
def listText (version ip : Bytes) : Bytes :=
  b!"{
\"name\": \"some-list\",
\"cniVersion\": \"" ++ version ++ b!"\",
\"plugins\": [
" ++ joinWith b!",
" ((three ip).map fun p => p.1 ++ b!"}") ++ b!"
]
}"
/-- Test data; models no code. -/
def list : NetConfList := confList (listText b!"1.1.0" ipLine)
/-- Test data; models no code. -/
def stdins (version ip : Bytes) : List Bytes := (three ip).map fun p => p.1 ++ p.2 ++ b!", \"name\": \"some-list\", \"cniVersion\": \"" ++ version ++ b!"\"}"

/-- Test data; models no code. -/
def listDebugs (second : NoopDebug := { reportResult := b!"PASSTHROUGH" }) : Debugs :=
  [(debugPath b!"some-value", { reportResult := ipLine }), (debugPath b!"some-other-value", second),
   (debugPath b!"yet-another-value", { reportResult := b!"INJECT-DNS" })]
/-- All plugins report the same. Test data; models no code. -/
def sameDebugs (r : Bytes) : Debugs := [b!"some-value", b!"some-other-value", b!"yet-another-value"].map fun k => (debugPath k, { reportResult := r })

/-- Test data; models no code. -/
def listRt : RuntimeConf :=
  { containerID := b!"some-container-id", netNS := b!"/some/netns/path", ifName := b!"some-eth0", args := [(b!"FOO", b!"BAR")],
    capArgs := [(b!"otherCapability", .num b!"33"), (b!"portMappings", mappings)] }

/-- `expectedCmdArgs` for all, and the inputs as JSON. Observation in tests; models no code. -/
def allExpected (cmd : Bytes) (inputs : List Bytes) (x : List (Bytes × CmdArgs)) : List Bool :=
  (x.zip inputs).map fun e => e.1.1 = cmd && matchJSON e.1.2.stdinData e.2 && decide ({ e.1.2 with stdinData := [] } =
      ({ containerID := b!"some-container-id", netns := b!"/some/netns/path", ifName := b!"some-eth0", args := b!"FOO=BAR", path := b!"/opt/bin" } : CmdArgs))

example : list.plugins.length = 3 := by decide +kernel
-- executes all plugins with command ADD and returns an intermediate result
example : (run listDebugs clean (cni.addNetworkList list listRt)).map (fun x => (x.1.length, allExpected b!"ADD" (stdins b!"1.1.0" ipLine) x.1, x.2.2.toOption)) =
    some (3, [true, true, true], some (some (.v100 { ipResult with dns := { nameservers := [b!"1.2.3.4"] } }))) := by decide +kernel
-- writes the correct cached result and config
example : (run listDebugs clean (cni.addNetworkList list listRt)).bind (fun x => (run listDebugs x.2.1 (cni.getNetworkListCachedResult list listRt)).map fun y =>
    y.2.2.toOption) = some (some (some (.v100 { ipResult with dns := { nameservers := [b!"1.2.3.4"] } }))) := by decide +kernel
example : (run listDebugs clean (cni.addNetworkList list listRt)).bind (fun x => (run listDebugs x.2.1 (cni.getNetworkListCachedConfig list listRt)).map fun y =>
    y.2.2.toOption) = some (some (some (list.bytes, listRt))) := by decide +kernel

/-- The list with another type for the second plugin. Test data; models no code. -/
def missing (type : Bytes) : NetConfList :=
  { list with plugins := list.plugins.zipIdx.map fun p => if p.2 = 1 then { p.1 with network := { p.1.network with type := type } } else p.1 }

-- when finding the plugin fails
example : (run listDebugs clean (cni.addNetworkList (missing b!"does-not-exist") listRt)).map (fun x => (x.1.length, (errMsg x.2.2).map (containsSub · b!"failed to find plugin \"does-not-exist\""))) =
    some (1, some true) := by decide +kernel
example : (run listDebugs clean (cni.checkNetworkList (missing b!"does-not-exist") listRt)).map (fun x => (errMsg x.2.2).map (containsSub · b!"failed to find plugin \"does-not-exist\"")) =
    some (some true) := by decide +kernel
example : (run listDebugs clean (cni.delNetworkList (missing b!"does-not-exist") listRt)).map (fun x => (errMsg x.2.2).map (containsSub · b!"failed to find plugin \"does-not-exist\"")) =
    some (some true) := by decide +kernel
-- invalid container ID, network name, interface names
example : (run listDebugs clean (cni.addNetworkList list { listRt with containerID := b!"some-%%container-id" })).map (fun x => (x.1.length, x.2.2.isOk)) = some (0, false) := by
  decide +kernel
example : (run listDebugs clean (cni.addNetworkList { list with name := b!"invalid-%%-name" } listRt)).map (fun x => (x.1.length, x.2.2.isOk)) = some (0, false) := by
  decide +kernel
example : [[], b!"1234567890123456", b!".", b!"..", b!"test/test", b!"test:test", b!"test test"].map (fun i =>
      (run listDebugs clean (cni.addNetworkList list { listRt with ifName := i })).map fun x => (x.1.length, x.2.2.isOk)) =
    List.replicate 7 (some (0, false)) := by decide +kernel
/-- Test data; models no code. -/
def bananas : Debugs := listDebugs { reportResult := b!"PASSTHROUGH", reportError := b!"plugin error: banana" }
/-- `errors.Unwrap` and the text before it. Observation in tests; models no code. -/
def unwrap {α : Type} : Out α → Option (Bytes × Bytes)
  | .err (.wrap p e) => some (p, e.msg)
  | _ => none
-- when the second plugin errors: the error, and no cache file
example : (run bananas clean (cni.addNetworkList list listRt)).map (fun x => (x.1.length, unwrap x.2.2, x.2.1 b!"/cache/results/some-list-some-container-id-some-eth0")) =
    some (2, some (b!"plugin type=noop failed (add)", b!"plugin error: banana"), none) := by decide +kernel
example : (run bananas clean (cni.checkNetworkList list listRt)).map (fun x => (x.1.length, errMsg x.2.2)) = some (2, some b!"plugin error: banana") := by decide +kernel
example : (run bananas clean (cni.delNetworkList list listRt)).map (fun x => (x.1.length, unwrap x.2.2)) =
    some (2, some (b!"plugin type=noop failed (delete)", b!"plugin error: banana")) := by decide +kernel

end Verif.Conformance.Api
