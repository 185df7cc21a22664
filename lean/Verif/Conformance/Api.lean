/-
The repository's own unit tests, run on the model: libcni/api_test.go, with the noop plugin run by RawExec. Checks of the model, not
properties.
-/
import Verif.Conformance.Invoke
import Verif.Conformance.Skel
import Verif.Plugins.Noop
import Verif.Libcni.Interp
import Verif.Libcni.Api

set_option synthInstance.maxSize 1024
set_option synthInstance.maxHeartbeats 100000

namespace Verif.Conformance.Api

/-- The noop plugin is the only one. Test data; models no code. -/
def find (n : Bytes) : Except GoErr Bytes :=
  if n = b!"noop" then .ok b!"/opt/bin/noop" else .error (.text (b!"failed to find plugin " ++ quoted n ++ b!" in path [/opt/bin]"))

/-- `libcni.NewCNIConfigWithCacheDir(…)`. Test data; models no code. -/
def cni : CNIConfig := { path := [b!"/opt/bin"], cacheDir := b!"/cache" }

/-- The debug files. Test data; models no code. -/
abbrev Debugs := List (Bytes × NoopDebug)

/-- Test data; models no code. -/
def files (d : Debugs) (p : Bytes) : Option NoopDebug := (d.find? fun x => x.1 = p).map (·.2)

/-- What is seen of a run: what each plugin was given (command, arguments and input), the files, and the outcome.
Observation in tests; models no code. -/
def run {α : Type} (d : Debugs) (fs : FS) (p : Prog α) : Option (List (Bytes × CmdArgs) × FS × Out α) :=
  (p.interp find (noopExec quoted (files d)) fs).map fun x =>
    (x.1.execs.map fun e =>
      let g := getenv (e.args.env id [])
      (g b!"CNI_COMMAND", CmdArgs.mk (g b!"CNI_CONTAINERID") (g b!"CNI_NETNS") (g b!"CNI_IFNAME") (g b!"CNI_ARGS") (g b!"CNI_PATH") [] e.stdin), x.2)

/-- Nothing on disk. Test data; models no code. -/
def clean : FS := fun _ => none

/-- The configuration, or an empty one. Test data; models no code. -/
def conf (b : Bytes) : PluginConfig := ((pluginConfFromBytes b).toOption).getD default
/-- Test data; models no code. -/
def confList (b : Bytes) : NetConfList := ((networkConfFromBytes b).toOption).getD default

/-- The value as in Go. Test data; models no code. -/
def json (b : Bytes) : Json := ((Json.parse b).bind Json.toAny).getD .null

/-- `conf[k]` of the plugin's input. Observation in tests; models no code. -/
def member (k : Bytes) (b : Bytes) : Option Json :=
  match (Json.parse b).bind Json.toAny with
  | some (.obj ms) => (ms.find? fun m => m.1 = k).map (·.2)
  | _ => none

/-- The keys of `conf[k]`. Observation in tests; models no code. -/
def keys (k b : Bytes) : Option (List Bytes) :=
  match member k b with
  | some (.obj ms) => some (ms.map (·.1))
  | _ => none

/-- Test data; models no code. -/
def mappings : Json := json b!"[{\"hostPort\": 8080, \"containerPort\": 80, \"protocol\": \"tcp\"}]"

/-! ### Capabilities -/

/-- Test data; models no code. -/
def ipText : Bytes := b!"{
  \"cniVersion\": \"1.1.0\",
  \"ips\": [{\"address\": \"10.1.2.3/24\"}],
  \"dns\": {}
}"
/-- Test data; models no code. -/
def debugs : Debugs := [(b!"/tmp/cni_debug", { reportResult := ipText })]

/-- Test data; models no code. -/
def capConf : PluginConfig := conf b!"{
  \"type\": \"noop\",
  \"name\": \"apitest\",
  \"cniVersion\": \"1.1.0\",
  \"capabilities\": {
    \"portMappings\": true,
    \"somethingElse\": true,
    \"noCapability\": false
  }
}"

/-- Test data; models no code. -/
def someRt (caps : GoMap Json) : RuntimeConf :=
  { containerID := b!"some-container-id", netNS := b!"/some/netns/path", ifName := b!"some-eth0", args := [(b!"DEBUG", b!"/tmp/cni_debug")],
    capArgs := caps }

/-- Test data; models no code. -/
def capRt : RuntimeConf :=
  someRt [(b!"noCapability", .bool true), (b!"notAdded", json b!"[true, false]"), (b!"portMappings", mappings), (b!"somethingElse", json b!"[\"foobar\", \"baz\"]")]

-- adds correct runtime config for capabilities to stdin
example : (run debugs clean (cni.addNetwork capConf capRt)).map (fun x => (x.1.map fun e => (e.1, keys b!"runtimeConfig" e.2.stdinData), x.2.2.isOk)) =
    some ([(b!"ADD", some [b!"portMappings", b!"somethingElse"])], true) := by decide +kernel
-- adds no runtimeConfig when the plugin advertises no used capabilities
example : (run debugs clean (cni.addNetwork capConf (someRt [(b!"portMappings22", mappings), (b!"somethingElse22", json b!"[\"foobar\", \"baz\"]")]))).map
    (fun x => (x.1.map fun e => (e.1, member b!"runtimeConfig" e.2.stdinData), x.2.2.isOk)) = some ([(b!"ADD", none)], true) := by decide +kernel
-- outputs correct capabilities for validate
example : (run debugs clean (cni.validateNetwork capConf)).map (fun x => (x.1.map (·.1), x.2.2.toOption)) =
    some ([b!"VERSION"], some [b!"portMappings", b!"somethingElse"]) := by decide +kernel

/-! ### Invoking a single plugin -/

/-- Test data; models no code. -/
def pluginText (version : Bytes) : Bytes := b!"{
  \"type\": \"noop\",
  \"name\": \"apitest\",
  \"some-key\": \"some-value\",
  \"cniVersion\": \"" ++ version ++ b!"\",
  \"capabilities\": { \"portMappings\": true }
}"
/-- Test data; models no code. -/
def net : PluginConfig := conf (pluginText b!"1.1.0")
/-- Test data; models no code. -/
def rt : RuntimeConf := someRt [(b!"portMappings", mappings)]

/-- The input the plugin is expected to get, without and with a previous result. Test data; models no code. -/
def expectedStdin (prev : Bytes) : Bytes := b!"{\"type\":\"noop\",\"name\":\"apitest\",\"some-key\":\"some-value\",\"cniVersion\":\"1.1.0\",
\"capabilities\":{\"portMappings\":true},\"runtimeConfig\":{\"portMappings\":[{\"hostPort\":8080,\"containerPort\":80,\"protocol\":\"tcp\"}]}" ++ prev ++ b!"}"

/-- `expectedCmdArgs`, the input compared as JSON. Observation in tests; models no code. -/
def asExpected (cmd stdin : Bytes) (x : List (Bytes × CmdArgs)) : Bool :=
  match x with
  | [(c, a)] => c = cmd && matchJSON a.stdinData stdin && decide ({ a with stdinData := [] } =
      ({ containerID := b!"some-container-id", netns := b!"/some/netns/path", ifName := b!"some-eth0", args := b!"DEBUG=/tmp/cni_debug", path := b!"/opt/bin" } : CmdArgs))
  | _ => false

/-- Test data; models no code. -/
def cacheFile : Bytes := b!"/cache/results/apitest-some-container-id-some-eth0"
/-- Test data; models no code. -/
def cached (content : Bytes) : FS := clean.set cacheFile (some content)

/-- Test data; models no code. -/
def ipResult : R100 := { cniVersion := b!"1.1.0", ips := [some { address := ⟨v4 10 1 2 3, [255, 255, 255, 0]⟩ }] }

-- executes the plugin with command ADD
example : (run debugs clean (cni.addNetwork net rt)).map (fun x => (asExpected b!"ADD" (expectedStdin []) x.1, x.2.2.toOption)) =
    some (true, some (.v100 ipResult)) := by decide +kernel
-- the cached config matches the sent one
example : (run debugs clean (cni.addNetwork net rt)).bind (fun x => (run debugs x.2.1 (cni.getNetworkCachedConfig net rt)).map fun y => y.2.2.toOption) =
    some (some (some (pluginText b!"1.1.0", rt))) := by decide +kernel
-- the cached result matches the returned one
example : (run debugs clean (cni.addNetwork net rt)).bind (fun x => (run debugs x.2.1 (cni.getNetworkCachedResult net rt)).map fun y => y.2.2.toOption) =
    some (some (some (.v100 ipResult))) := by decide +kernel
-- the cached attachments match the requested one
example : [[], b!"some-container-id", b!"other"].map (fun cid => (run debugs clean (cni.addNetwork net rt)).bind fun x =>
      ((cni.getCachedAttachments cid).afterDir b!"/cache/results" [b!"apitest-some-container-id-some-eth0"]).bind fun p =>
        (run debugs x.2.1 p).map fun y => y.2.2.toOption) =
    let a : Attachment := ⟨b!"some-container-id", b!"apitest", b!"some-eth0", pluginText b!"1.1.0", b!"/some/netns/path",
      [(b!"DEBUG", b!"/tmp/cni_debug")], rt.capArgs⟩
    [some (some [a]), some (some [a]), some (some [])] := by decide +kernel
-- when finding the plugin fails
example : (run debugs clean (cni.addNetwork { net with network := { net.network with type := b!"does-not-exist" } } rt)).map (fun x => (x.1.length, errMsg x.2.2)) =
    some (0, some b!"failed to find plugin \"does-not-exist\" in path [/opt/bin]") := by decide +kernel
/-- Test data; models no code. -/
def banana : Debugs := [(b!"/tmp/cni_debug", { reportResult := ipText, reportError := b!"plugin error: banana" })]
-- when the plugin errors
example : (run banana clean (cni.addNetwork net rt)).map (fun x => errMsg x.2.2) = some (some b!"plugin error: banana") := by decide +kernel
example : (run banana clean (cni.checkNetwork net rt)).map (fun x => errMsg x.2.2) = some (some b!"plugin error: banana") := by decide +kernel
example : (run banana clean (cni.delNetwork net rt)).map (fun x => errMsg x.2.2) = some (some b!"plugin error: banana") := by decide +kernel

/-- Test data; models no code. -/
def cachedText : Bytes := b!"{
  \"cniVersion\": \"1.1.0\",
  \"ips\": [{\"address\": \"10.1.2.3/24\"}]
}"
-- executes the plugin with command CHECK, DEL (from a cache file with nothing but a result)
example : (run debugs (cached cachedText) (cni.checkNetwork net rt)).map (fun x => (asExpected b!"CHECK" (expectedStdin (b!",\"prevResult\":" ++ cachedText)) x.1, x.2.2.isOk)) =
    some (true, true) := by decide +kernel
example : (run debugs (cached cachedText) (cni.delNetwork net rt)).map (fun x => (asExpected b!"DEL" (expectedStdin (b!",\"prevResult\":" ++ cachedText)) x.1, x.2.2.isOk)) =
    some (true, true) := by decide +kernel
-- afterwards the cached result and config no longer exist
example : (run debugs (cached cachedText) (cni.delNetwork net rt)).bind (fun x => (run debugs x.2.1 (cni.getNetworkCachedResult net rt)).bind fun y =>
    (run debugs x.2.1 (cni.getNetworkCachedConfig net rt)).map fun z => (x.2.1 cacheFile, y.2.2.toOption, z.2.2.toOption)) = some (none, some none, some none) := by
  decide +kernel
-- when DEL is called twice
example : (run debugs (cached cachedText) (cni.delNetwork net rt)).bind (fun x => (run debugs x.2.1 (cni.delNetwork net rt)).map fun y => (x.2.2.isOk, y.2.2.isOk)) =
    some (true, true) := by decide +kernel
-- finding the plugin fails
example : (run debugs clean (cni.checkNetwork { net with network := { net.network with type := b!"does-not-exist" } } rt)).map (fun x => errMsg x.2.2) =
    some (some b!"failed to find plugin \"does-not-exist\" in path [/opt/bin]") := by decide +kernel
example : (run debugs clean (cni.delNetwork { net with network := { net.network with type := b!"does-not-exist" } } rt)).map (fun x => errMsg x.2.2) =
    some (some b!"failed to find plugin \"does-not-exist\" in path [/opt/bin]") := by decide +kernel

/-- A result of the version before 1.0.0. Test data; models no code. -/
def oldText (version : Bytes) : Bytes := b!"{
  \"cniVersion\": \"" ++ version ++ b!"\",
  \"ips\": [{\"version\": \"4\", \"address\": \"10.1.2.3/24\"}],
  \"dns\": {}
}"
/-- Whether the inputs have these members. Observation in tests; models no code. -/
def given {α : Type} (x : Option (List (Bytes × CmdArgs) × FS × Out α)) : Option (List (Bytes × List Bool) × Bool) :=
  x.map fun x => (x.1.map fun e => (e.1, [b!"prevResult", b!"config", b!"kind"].map fun k => (member k e.2.stdinData).isSome), x.2.2.isOk)

-- CHECK: less than 0.4.0, containing only a cached result, equal to 0.4.0
example : (run debugs (cached (oldText b!"0.3.1")) (cni.checkNetwork (conf (pluginText b!"0.3.1")) rt)).map (fun x => (x.1.length, x.2.2.isOk)) = some (0, false) := by
  decide +kernel
example : given (run debugs (cached ipText) (cni.checkNetwork net rt)) = some ([(b!"CHECK", [true, false, false])], true) := by decide +kernel
example : given (run debugs (cached (oldText b!"0.4.0")) (cni.checkNetwork (conf (pluginText b!"0.4.0")) rt)) = some ([(b!"CHECK", [true, false, false])], true) := by
  decide +kernel
-- DEL: less than 0.4.0, equal to 0.4.0
example : given (run debugs (cached (oldText b!"0.3.1")) (cni.delNetwork (conf (pluginText b!"0.3.1")) rt)) = some ([(b!"DEL", [false, false, false])], true) := by
  decide +kernel
example : given (run debugs (cached (oldText b!"0.4.0")) (cni.delNetwork net rt)) = some ([(b!"DEL", [true, false, false])], true) := by decide +kernel
-- the cached result is invalid JSON, of a version that can be converted, of one that cannot
example : [b!"adfadsfasdfasfdsafaf", oldText b!"0.3.1", oldText b!"0.4567.0"].map (fun c =>
      ((run debugs (cached c) (cni.checkNetwork net rt)).map fun x => (x.1.length, x.2.2.isOk),
       (run debugs (cached c) (cni.delNetwork net rt)).map fun x => (x.1.length, x.2.2.isOk))) =
    [(some (0, false), some (0, false)), (some (1, true), some (1, true)), (some (0, false), some (0, false))] := by decide +kernel

-- GetVersionInfo
example : (run debugs clean (cni.getVersionInfo b!"noop")).map (fun x => (x.1.map (·.1), x.2.2.toOption.map (·.supported))) =
    some ([b!"VERSION"], some [b!"0.-42.0", b!"0.1.0", b!"0.2.0", b!"0.3.0", b!"0.3.1", b!"0.4.0", b!"1.0.0", b!"1.1.0"]) := by decide +kernel
example : (run debugs clean (cni.getVersionInfo b!"does-not-exist")).map (fun x => (x.1.length, x.2.2.isOk)) = some (0, false) := by decide +kernel
-- ValidateNetwork
example : [net.network, { net.network with type := b!"nope" }, { net.network with cniVersion := b!"broken" }, { net.network with cniVersion := [] }].map
      (fun n => (run debugs clean (cni.validateNetwork { net with network := n })).map fun x => x.2.2.isOk) =
    [some true, some false, some false, some true] := by decide +kernel

/-! ### Cache operations -/

/-- Test data; models no code. -/
def cacheConf : PluginConfig := conf b!"{
  \"type\": \"noop\",
  \"name\": \"cachetest\",
  \"cniVersion\": \"1.1.0\"
}"
/-- Test data; models no code. -/
def cacheRt (ifName : Bytes) : RuntimeConf :=
  { containerID := b!"some-container-id", netNS := b!"/some/netns/path", ifName := ifName, args := [(b!"DEBUG", b!"/tmp/cni_debug")] }
/-- Test data; models no code. -/
def reports (ip : Bytes) : Debugs :=
  [(b!"/tmp/cni_debug", { reportResult := b!"{ \"cniVersion\": \"1.1.0\", \"ips\": [{\"version\": \"4\", \"address\": \"" ++ ip ++ b!"\"}] }" })]
/-- Test data; models no code. -/
def cacheOf (ifName : Bytes) : Bytes := b!"/cache/results/cachetest-some-container-id-" ++ ifName

-- creates separate result cache files for multiple attachments to the same network
example : (run (reports b!"10.1.2.3/24") clean (cni.addNetwork cacheConf (cacheRt b!"eth0"))).bind (fun x =>
      (run (reports b!"10.1.2.5/24") x.2.1 (cni.addNetwork cacheConf (cacheRt b!"eth1"))).map fun y =>
        [(b!"eth0", b!"10.1.2.3/24"), (b!"eth1", b!"10.1.2.5/24")].map fun e => (y.2.1 (cacheOf e.1)).map fun c =>
          ([b!"kind", b!"containerId", b!"networkName", b!"ifName"].map fun k => member k c, containsSub c e.2)) =
    some ([b!"eth0", b!"eth1"].map fun i =>
      some ([some (.str b!"cniCacheV1"), some (.str b!"some-container-id"), some (.str b!"cachetest"), some (.str i)], true)) := by decide +kernel
-- returns an updated copy of RuntimeConf filled with cached info
example : (run (reports b!"10.1.2.3/24") clean (cni.addNetwork cacheConf (cacheRt b!"eth0"))).bind (fun x =>
      (run (reports b!"10.1.2.3/24") x.2.1 (cni.getNetworkListCachedConfig { name := b!"cachetest", cniVersion := [], plugins := [], bytes := [] }
        { containerID := b!"some-container-id", netNS := b!"/some/netns/path", ifName := b!"eth0" })).map fun y => y.2.2.toOption.map (·.map (·.2))) =
    some (some (some (cacheRt b!"eth0"))) := by decide +kernel
-- missing network name, container ID, interface name
example : [([], b!"some-container-id", b!"eth0"), (b!"foobar", [], b!"eth0"), (b!"foobar", b!"some-container-id", [])].map (fun p =>
      ((run [] clean (cni.getNetworkCachedConfig { network := { name := p.1 }, bytes := [] } { containerID := p.2.1, ifName := p.2.2 })).map fun x => x.2.2.isOk,
       (run [] clean (cni.getNetworkListCachedConfig { name := p.1, cniVersion := [], plugins := [], bytes := [] } { containerID := p.2.1, ifName := p.2.2 })).map fun x => x.2.2.isOk)) =
    List.replicate 3 (some false, some false) := by decide +kernel
-- the cached config is invalid JSON, or missing
example : (run [] (clean.set (cacheOf b!"eth0") (some b!"adfadsfasdfasfdsafaf")) (cni.getNetworkCachedConfig cacheConf (cacheRt b!"eth0"))).map (fun x => x.2.2.isOk) =
    some false := by decide +kernel
example : (run [] clean (cni.getNetworkCachedConfig cacheConf (cacheRt b!"eth0"))).map (fun x => x.2.2.toOption) = some (some none) := by decide +kernel

end Verif.Conformance.Api
