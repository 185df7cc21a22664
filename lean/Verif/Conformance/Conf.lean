/-
The repository's own unit tests, run on the model: libcni/conf_test.go. Checks of the model, not properties.
-/
import Verif.Conformance.Types
import Verif.Libcni.Conf

namespace Verif.Conformance

/-- A configuration directory `/etc/cni` with these files, and a subdirectory `some-network` with these. Test data; models no code. -/
def confDir (files : List (Bytes × Bytes)) (sub : Option (List (Bytes × Bytes)) := none) : ConfFS :=
  { readDir := fun d =>
      if d = b!"/etc/cni" then .ok (files.map (fun f => (f.1, false)) ++ (if sub.isSome then [(b!"some-network", true)] else []))
      else if d = b!"/etc/cni/some-network" then
        match sub with
        | some l => .ok (l.map fun f => (f.1, false))
        | none => .error true
      else .error true
    readFile := fun p =>
      match (files.find? (fun f => joinPath b!"/etc/cni" f.1 = p)).map (·.2) with
      | some c => some c
      | none => (sub.getD []).find? (fun f => joinPath b!"/etc/cni/some-network" f.1 = p) |>.map (·.2) }

/-- No directory at all. Test data; models no code. -/
def noDir : ConfFS := { readDir := fun _ => .error true, readFile := fun _ => none }

/-- Test data; models no code. -/
def somePlugin : Bytes := b!"{ \"name\": \"some-plugin\", \"some-key\": \"some-value\", \"type\": \"foobar\" }"

/-! ### LoadConf -/

-- finds the network config file for the plugin of the given type
example : (loadConf (confDir [(b!"50-whatever.conf", somePlugin)]) b!"/etc/cni" b!"some-plugin").toOption =
    some { network := { name := b!"some-plugin", type := b!"foobar" }, bytes := somePlugin } := by decide +kernel
example : errMsg (loadConf noDir b!"/etc/cni" b!"some-plugin") = some b!"no net configurations found in /etc/cni" := by decide +kernel
example : (loadConf (confDir [(b!"50-whatever.json", somePlugin)]) b!"/etc/cni" b!"some-plugin").toOption =
    some { network := { name := b!"some-plugin", type := b!"foobar" }, bytes := somePlugin } := by decide +kernel
example : errMsg (loadConf (confDir [(b!"50-whatever.conf", somePlugin)]) b!"/etc/cni" b!"some-other-plugin") =
    some b!"no net configuration with name \"some-other-plugin\" in /etc/cni" := by decide +kernel
-- when a config file is malformed
example : ((errMsg (loadConf (confDir [(b!"50-whatever.conf", somePlugin), (b!"00-bad.conf", b!"{")]) b!"/etc/cni" b!"some-plugin")).map
    fun m => hasPrefix m b!"error parsing configuration:") = some true := by decide +kernel
-- the config is in a subdirectory
example : errMsg (loadConf (confDir [(b!"50-whatever.conf", somePlugin)]
      (some [(b!"90-deep.conf", b!"{ \"name\": \"deep\", \"some-key\": \"some-value\" }")])) b!"/etc/cni" b!"deep") =
    some b!"no net configuration with name \"deep\" in /etc/cni" := by decide +kernel

-- Capabilities
example : ((loadConf (confDir [(b!"50-whatever.conf",
      b!"{ \"name\": \"some-plugin\", \"type\": \"noop\", \"cniVersion\": \"0.3.1\", \"capabilities\": { \"portMappings\": true, \"somethingElse\": true, \"noCapability\": false } }")])
      b!"/etc/cni" b!"some-plugin").toOption.map fun c =>
      [b!"portMappings", b!"somethingElse", b!"noCapability", b!"other"].map (GoMap.get? c.network.capabilities)) =
    some [some true, some true, some false, none] := by decide +kernel

-- ConfFromFile, NetworkPluginConfFromBytes
example : ((errMsg (confFromFile noDir b!"/tmp/nope/not-here")).map fun m => hasPrefix m b!"error reading /tmp/nope/not-here") = some true := by
  decide +kernel
example : errMsg (confFromFile (confDir [(b!"50-whatever.conf", b!"{ \"name\": \"some-plugin\", \"some-key\": \"some-value\" }")])
    b!"/etc/cni/50-whatever.conf") = some b!"error parsing configuration: missing 'type'" := by decide +kernel
example : errMsg (pluginConfFromBytes b!"{ \"name\": \"some-plugin\", \"some-key\": \"some-value\" }") =
    some b!"error parsing configuration: missing 'type'" := by decide +kernel

/-! ### LoadNetworkConf -/

/-- Test data; models no code. -/
def configList : Bytes := b!"{
  \"name\": \"some-network\",
  \"cniVersion\": \"0.2.0\",
  \"disableCheck\": true,
  \"plugins\": [
    {
      \"type\": \"host-local\",
      \"subnet\": \"10.0.0.1/24\"
    },
    {
      \"type\": \"bridge\",
      \"mtu\": 1400
    },
    {
      \"type\": \"port-forwarding\",
      \"ports\": {\"20.0.0.1:8080\": \"80\"}
    }
  ]
}"

/-- Loading `some-network` where the list file has this content. Test data; models no code. -/
def loadWith (content : Bytes) (sub : Option (List (Bytes × Bytes)) := none) : Out NetConfList :=
  loadNetworkConf (confDir [(b!"50-whatever.conflist", content)] sub) b!"/etc/cni" b!"some-network"

example : (loadWith configList).toOption =
    some { name := b!"some-network", cniVersion := b!"0.2.0", disableCheck := true,
           plugins := [{ network := { type := b!"host-local" }, bytes := b!"{\"subnet\":\"10.0.0.1/24\",\"type\":\"host-local\"}" },
                       { network := { type := b!"bridge" }, bytes := b!"{\"mtu\":1400,\"type\":\"bridge\"}" },
                       { network := { type := b!"port-forwarding" }, bytes := b!"{\"ports\":{\"20.0.0.1:8080\":\"80\"},\"type\":\"port-forwarding\"}" }],
           bytes := configList } := by decide +kernel

/-- Test data; models no code. -/
def sameName : Bytes := b!"{
					\"name\": \"some-network\",
					\"cniVersion\": \"0.2.0\",
					\"type\": \"bridge\"
				}"
-- loads the config list first; falls back to the config file
example : (loadNetworkConf (confDir [(b!"50-whatever.conflist", configList), (b!"49-whatever.conf", sameName)]) b!"/etc/cni" b!"some-network").toOption.map
    (fun c => c.plugins.length) = some 3 := by decide +kernel
example : (loadNetworkConf (confDir [(b!"49-whatever.conf", sameName)]) b!"/etc/cni" b!"some-network").toOption.map
    (fun c => c.plugins.map (·.network.type)) = some [b!"bridge"] := by decide +kernel
example : errMsg (loadNetworkConf noDir b!"/etc/cni" b!"some-network") = some b!"no net configurations found in /etc/cni" := by decide +kernel
example : errMsg (loadNetworkConf (confDir [(b!"50-whatever.conflist", configList)]) b!"/etc/cni" b!"some-other-network") =
    some b!"no net configuration with name \"some-other-network\" in /etc/cni" := by decide +kernel
example : ((errMsg (loadNetworkConf (confDir [(b!"50-whatever.conflist", configList), (b!"00-bad.conflist", b!"{")]) b!"/etc/cni" b!"some-plugin")).map
    fun m => hasPrefix m b!"error parsing configuration list:") = some true := by decide +kernel
-- in a nested directory
example : errMsg (loadNetworkConf (confDir [(b!"50-whatever.conflist", configList)] (some [(b!"90-deep.conflist", configList)])) b!"/etc/cni" b!"deep") =
    some b!"no net configuration with name \"deep\" in /etc/cni" := by decide +kernel

/-- A list with one plugin and these further members. Test data; models no code. -/
def onePlugin (more : Bytes) : Bytes := b!"{
				  \"name\": \"some-network\",
				  \"cniVersion\": \"0.4.0\"," ++ more ++ b!"
				  \"plugins\": [
				    {
				      \"type\": \"host-local\",
				      \"subnet\": \"10.0.0.1/24\"
				    }
				  ]
				}"

-- disableCheck as a string
example : (loadWith (onePlugin b!"\"disableCheck\": \"true\",")).toOption.map (·.disableCheck) = some true := by decide +kernel
example : (loadWith (onePlugin b!"\"disableCheck\": \"false\",")).toOption.map (·.disableCheck) = some false := by decide +kernel
example : (loadWith (onePlugin b!"\"disableCheck\": \"adsfasdfasf\",")).isOk = false := by decide +kernel

/-- Test data; models no code. -/
def second : Option (List (Bytes × Bytes)) := some [(b!"funky-second-plugin.conf", b!"{
				      \"type\": \"bro-check-out-my-plugin\",
				      \"subnet\": \"10.0.0.1/24\"
				}")]

-- loadOnlyInlinedPlugins
example : (loadWith (onePlugin b!"\"loadOnlyInlinedPlugins\": true,") second).toOption.map (·.loadOnlyInlined) = some true := by decide +kernel
example : (loadWith (onePlugin [])).toOption.map (·.loadOnlyInlined) = some false := by decide +kernel
example : (loadWith (onePlugin b!"\"loadOnlyInlinedPlugins\": \"sphagnum\",")).isOk = false := by decide +kernel
example : errMsg (loadWith b!"{
				  \"name\": \"some-network\",
				  \"cniVersion\": \"0.4.0\",
				  \"loadOnlyInlinedPlugins\": true
				}") = some b!"error parsing configuration list: `loadOnlyInlinedPlugins` is true, and no 'plugins' key" := by decide +kernel
example : (loadWith b!"{
				  \"name\": \"some-network\",
				  \"cniVersion\": \"0.4.0\",
				  \"loadOnlyInlinedPlugins\": false
				}" second).toOption.map (fun c => (c.loadOnlyInlined, c.plugins.length)) = some (false, 1) := by decide +kernel
example : errMsg (loadWith b!"{
				  \"name\": \"some-network\",
				  \"cniVersion\": \"0.4.0\"
				}") = some b!"no plugin configs found" := by decide +kernel
example : (loadWith (onePlugin [])).isOk = true ∧ (loadWith (onePlugin []) (some [])).isOk = true := by decide +kernel
example : (loadWith (onePlugin []) second).toOption.map (fun c => (c.loadOnlyInlined, c.plugins.length)) = some (false, 2) := by decide +kernel
example : (loadWith (onePlugin b!"\"loadOnlyInlinedPlugins\": true,") second).toOption.map (fun c => (c.loadOnlyInlined, c.plugins.map (·.network.type))) =
    some (true, [b!"host-local"]) := by decide +kernel

-- NetworkConfFromFile
example : ((errMsg (networkConfFromFile noDir b!"/tmp/nope/not-here")).map fun m => hasPrefix m b!"error reading /tmp/nope/not-here") = some true := by
  decide +kernel

/-! ### InjectConf -/

/-- Test data; models no code. -/
def testNetConfig : PluginConfig :=
  { network := { name := b!"some-plugin", type := b!"foobar" }, bytes := b!"{ \"name\": \"some-plugin\", \"type\": \"foobar\" }" }
/-- Test data; models no code. -/
def injected (v : Bytes) : PluginConfig :=
  { network := { name := b!"some-plugin", type := b!"foobar" }, bytes := b!"{\"name\":\"some-plugin\",\"test\":\"" ++ v ++ b!"\",\"type\":\"foobar\"}" }

example : ((errMsg (injectConf { network := { name := b!"some-plugin" }, bytes := b!"{ cc cc cc}" } [([], none)])).map
    fun m => hasPrefix m b!"unmarshal existing network bytes") = some true := by decide +kernel
example : ((errMsg (injectConf testNetConfig [([], none)])).map fun m => hasPrefix m b!"keys cannot be empty") = some true := by decide +kernel
example : ((errMsg (injectConf testNetConfig [(b!"test", none)])).map fun m => hasPrefix m b!"key 'test' value must not be nil") = some true := by
  decide +kernel
example : (injectConf testNetConfig [(b!"test", some (.str b!"test"))]).toOption = some (injected b!"test") := by decide +kernel
example : ((injectConf testNetConfig [(b!"test", some (.str b!"test"))]).bind (injectConf · [(b!"test", some (.str b!"changedValue"))])).toOption =
    some (injected b!"changedValue") := by decide +kernel
example : ((injectConf testNetConfig [(b!"test", some (.str b!"test"))]).bind (injectConf · [(b!"test", some (.str b!"test"))])).toOption =
    some (injected b!"test") := by decide +kernel
/-- Test data; models no code. -/
def newDns : Dns := { nameservers := [b!"server1", b!"server2"], domain := b!"local" }
example : ((injectConf testNetConfig [(b!"dns", some (jDns newDns))]).bind (injectConf · [(b!"type", some (.str b!"bridge"))])).toOption =
    some { network := { name := b!"some-plugin", type := b!"bridge", dns := newDns },
           bytes := b!"{\"dns\":{\"domain\":\"local\",\"nameservers\":[\"server1\",\"server2\"]},\"name\":\"some-plugin\",\"type\":\"bridge\"}" } := by
  decide +kernel

/-! ### NetworkConfFromBytes -/

/-- Test data; models no code. -/
def makeConfig (versions : List Bytes) : Bytes :=
  b!"{\"name\": \"test\", \"cniVersions\": [" ++ joinWith [44] (versions.map fun v => [34] ++ v ++ [34]) ++ b!"], \"plugins\": [{\"type\": \"foo\"}]}"

example : (networkConfFromBytes (makeConfig [b!"1.1.0", b!"0.4.0", b!"1.0.0"])).toOption.map (·.cniVersion) = some b!"1.1.0" := by decide +kernel
example : (networkConfFromBytes (makeConfig [b!"99.0.0", b!"1.1.0", b!"0.4.0", b!"1.0.0"])).toOption.map (·.cniVersion) = some b!"1.1.0" := by decide +kernel
example : (networkConfFromBytes (makeConfig [b!"1.1.0", b!"0.4.0", b!"1.0.f"])).isOk = false := by decide +kernel
example : (networkConfFromBytes b!"{\"name\": \"test\", \"cniVersion\": \"1.2.3\", \"plugins\": [{\"type\": \"foo\"}]}").toOption.map (·.cniVersion) =
    some b!"1.2.3" := by decide +kernel
example : (networkConfFromBytes b!"{\"name\": \"test\", \"cniVersion\": \"1.0.0\", \"cniVersions\": [\"0.1.0\", \"0.4.0\"], \"plugins\": [{\"type\": \"foo\"}]}").toOption.map
    (·.cniVersion) = some b!"1.0.0" := by decide +kernel
example : (networkConfFromBytes b!"{\"name\": \"test\", \"cniVersions\": [], \"plugins\": [{\"type\": \"foo\"}]}").toOption.map (·.cniVersion) =
    some [] := by decide +kernel

/-! ### ConfListFromConf -/

/-- A list without its raw bytes. Observation in tests; models no code. -/
def noBytes (c : NetConfList) : NetConfList := { c with bytes := [], plugins := c.plugins.map fun p => { p with bytes := [] } }

example : ((pluginConfFromBytes b!"{\"name\":\"some-plugin\",\"cniVersion\":\"0.3.1\", \"type\":\"foobar\"}").bind confListFromConf).toOption.map noBytes =
    some { name := b!"some-plugin", cniVersion := b!"0.3.1",
           plugins := [{ network := { name := b!"some-plugin", cniVersion := b!"0.3.1", type := b!"foobar" }, bytes := [] }] } := by decide +kernel
example : (((pluginConfFromBytes b!"{\"name\":\"some-plugin\",\"cniVersion\":\"0.3.1\", \"type\":\"foobar\"}").bind confListFromConf).bind
      fun c => networkConfFromBytes c.bytes).toOption.map noBytes =
    ((pluginConfFromBytes b!"{\"name\":\"some-plugin\",\"cniVersion\":\"0.3.1\", \"type\":\"foobar\"}").bind confListFromConf).toOption.map noBytes := by
  decide +kernel

end Verif.Conformance
