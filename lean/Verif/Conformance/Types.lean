/-
The repository's own unit tests, run on the model: pkg/version, pkg/types, pkg/utils. These are checks of the model against the behaviour
the tests document, not properties; nothing rests on them.
-/
import Verif.Types.PluginConf
import Verif.Types.GetResult
import Verif.Types.Print
import Verif.Invoke.Args
import Verif.Utils.Validate

namespace Verif.Conformance

/-- The message of the error, if that is how the call ended. Observation in tests; models no code. -/
def errMsg {α : Type} : Out α → Option Bytes
  | .err e => some e.msg
  | _ => none

/-! ### pkg/version/version_test.go, plugin_test.go, conf_test.go, reconcile_test.go -/

-- computes a list of versions correctly
example : (versionsStartingFrom b!"0.3.1").toOption.map (·.supported) = some [b!"0.3.1", b!"0.4.0", b!"1.0.0", b!"1.1.0"] := by decide +kernel

/-- Test data; models no code. -/
def prevRaw : Bytes := b!"{
				\"cniVersion\": \"1.0.0\",
				\"interfaces\": [
					{
						\"name\":        \"eth0\",
						\"mac\":         \"00:11:22:33:44:55\",
						\"sandbox\":     \"/proc/3553/ns/net\",
						\"pciID\":       \"8086:9a01\",
						\"socketPath\":  \"/path/to/vhost/fd\"
					}
				],
				\"ips\": [
					{
						\"version\": \"4\",
						\"interface\": 0,
						\"address\": \"1.2.3.30/24\",
						\"gateway\": \"1.2.3.1\"
					}
				]
			}"

/-- Test data; models no code. -/
def v4 (a b c d : UInt8) : IP := v4InV6Prefix ++ [a, b, c, d]

/-- Test data; models no code. -/
def v6a : IP := [0xab, 0xcd, 0x12, 0x34, 0xff, 0xff, 0, 0, 0, 0, 0, 0, 0, 0, 0xcd, 0xde]
/-- Test data; models no code. -/
def v6g : IP := [0xab, 0xcd, 0x12, 0x34, 0xff, 0xff, 0, 0, 0, 0, 0, 0, 0, 0, 0, 1]
/-- Test data; models no code. -/
def m64 : Bytes := [255, 255, 255, 255, 255, 255, 255, 255, 0, 0, 0, 0, 0, 0, 0, 0]

/-- Test data; models no code. -/
def testDns : Dns := { nameservers := [b!"1.2.3.4", b!"1::cafe"], domain := b!"acompany.com", search := [b!"somedomain.com", b!"otherdomain.net"],
                       options := [b!"foo", b!"bar"] }

/-- Test data; models no code. -/
def eth100 : Intf100 :=
  { name := b!"eth0", mac := b!"00:11:22:33:44:55", sandbox := b!"/proc/3553/ns/net", pciID := b!"8086:9a01", socketPath := b!"/path/to/vhost/fd" }

/-- Test data; models no code. -/
def testResult100 : R100 :=
  { cniVersion := b!"1.0.0", interfaces := [some eth100],
    ips := [some { interface := some 0, address := ⟨v4 1 2 3 30, [255, 255, 255, 0]⟩, gateway := v4 1 2 3 1 },
            some { interface := some 0, address := ⟨v6a, m64⟩, gateway := v6g }],
    dns := testDns }

-- parses the prevResult
example : (((Json.parse prevRaw).bind (decAnyMap none)).map fun raw =>
      (parsePrevResult { cniVersion := b!"1.0.0", name := b!"foobar", type := b!"baz", rawPrev := raw }).1.prevResult) =
    some (some (.v100 { testResult100 with ips := testResult100.ips.take 1, dns := {} })) := by decide +kernel

-- fails if the prevResult version is unknown
example : ((parsePrevResult { cniVersion := currentVersion, name := b!"foobar", type := b!"baz", rawPrev := some [(b!"cniVersion", .str b!"5678.456")] }).2).isSome = true := by decide +kernel

-- fails if the prevResult version does not match the prevResult version
example : ((parsePrevResult { cniVersion := currentVersion, name := b!"foobar", type := b!"baz", rawPrev := some [(b!"cniVersion", .str b!"0.2.0"), (b!"ip4", .obj [(b!"gateway", .str b!"1.2.3.1"), (b!"ip", .str b!"1.2.3.30/24")])] }).2).isSome
    = true := by decide +kernel

-- when a prevResult is not available, does not fail
example : ((parsePrevResult { cniVersion := currentVersion, name := b!"foobar", type := b!"baz" }).1.prevResult,
    (parsePrevResult { cniVersion := currentVersion, name := b!"foobar", type := b!"baz" }).2.isNone) = (none, true) := by decide +kernel

-- GreaterThan
example : [(gt b!"1.1.0" b!"1.1.1").toOption, (gt b!"1.1.1" b!"1.1.0").toOption, (gt b!"1.1.1" b!"1.1.1").toOption] = [some false, some true, some false] := by
  decide +kernel

-- PluginDecoder
example : (decodePluginInfo b!"{
			\"cniVersion\": \"some-library-version\",
			\"supportedVersions\": [ \"some-version\", \"some-other-version\" ]
		}").toOption.map (·.supported) = some [b!"some-version", b!"some-other-version"] := by decide +kernel
example : (decodePluginInfo b!"{{{").toOption.isNone = true := by decide +kernel
example : errMsg (decodePluginInfo b!"{ \"supportedVersions\": [ \"foo\" ] }") = some b!"decoding version info: missing field cniVersion" := by decide +kernel
example : (decodePluginInfo b!"{ \"cniVersion\": \"0.2.0\" }").toOption.map (·.supported) = some [b!"0.1.0", b!"0.2.0"] := by decide +kernel

-- ParseVersion
example : parseVersion b!"1.2.3" = some (1, 2, 3) ∧ parseVersion [] = some (0, 1, 0) := by decide +kernel
example : [b!"asdfasdf", b!"asdf.", b!".asdfas", b!"asdf.adsf.", b!"0.", b!"..", b!"1.2.3.4.5"].map parseVersion = List.replicate 7 none := by
  decide +kernel

-- GreaterThanOrEqualTo
example : ([(b!"1.2.34", b!"1.2.14"), (b!"2.5.4", b!"2.4.4"), (b!"1.2.3", b!"0.2.3"), (b!"0.4.0", b!"0.3.1")].map fun v =>
    ((gte v.1 v.2).toOption, (gte v.2 v.1).toOption)) = List.replicate 4 (some true, some false) := by decide +kernel
example : (gte b!"1.2.3" b!"1.2.3").toOption = some true := by decide +kernel
example : [(gte b!"1.2.34" b!"asdadf").toOption, (gte b!"adsfad" b!"2.5.4").toOption] = [none, none] := by decide +kernel

-- ConfigDecoder
example : (decodeVersion b!"{ \"cniVersion\": \"4.3.2\" }").toOption = some b!"4.3.2" := by decide +kernel
example : (decodeVersion b!"{ \"not-a-version-field\": \"foo\" }").toOption = some b!"0.1.0" := by decide +kernel
example : (decodeVersion b!"{{{").toOption = none := by decide +kernel

-- Reconciler
example : (pluginSupports [b!"1.2.3", b!"4.3.2"]).toOption.map (fun i => (checkRaw b!"4.3.2" i.supported).isNone) = some true := by decide +kernel
example : (pluginSupports [b!"1.2.3", b!"4.3.2"]).toOption.bind (fun i => (checkRaw b!"0.1.0" i.supported).map fun e => (e.config, e.supported)) =
    some (b!"0.1.0", [b!"1.2.3", b!"4.3.2"]) := by decide +kernel

/-! ### pkg/types/args_test.go -/

/-- The value of a boolean field. Observation in tests; models no code. -/
def boolOf : Option ArgField → Option Bool
  | some (.bool b) => some b
  | _ => none

example : [b!"True", b!"true", b!"1"].map (fun s => boolOf ((ArgField.bool false).set s)) = List.replicate 3 (some true) := by decide +kernel
example : [b!"False", b!"false", b!"0"].map (fun s => boolOf ((ArgField.bool false).set s)) = List.replicate 3 (some false) := by decide +kernel
example : boolOf ((ArgField.bool false).set b!"invalid") = none := by decide +kernel

/-- The struct `CommonArgs`, with an IP field that has an `UnmarshalText` method. Test data; models no code. -/
def withIP : Container := [(b!"IP", .custom (fun t => (IP.unmarshalText t).isSome) none), (b!"IgnoreUnknown", .bool false)]
/-- Test data; models no code. -/
def common : Container := [(b!"IgnoreUnknown", .bool false)]

example : (loadArgs [] []).2.isOk = true := by decide +kernel
example : (loadArgs b!"IgnoreUnknown=True;Unk=nown" common).2.isOk = true := by decide +kernel
example : (loadArgs b!"Unk=nown" common).2.isOk = false := by decide +kernel
example : (loadArgs b!"IgnoreUnknown=0, Unk=nown" common).2.isOk = false := by decide +kernel
example : (loadArgs b!"IgnoreUnknown=1" common).2.isOk = true := by decide +kernel
-- a field without UnmarshalText (types.IPNet, or a pointer to a pointer)
example : (loadArgs b!"IP=10.0.0.0/24" [(b!"IP", .noText)]).2.isOk = false := by decide +kernel
example : (loadArgs b!"IP=10.0.0.0" [(b!"IP", .noText), (b!"IgnoreUnknown", .bool false)]).2.isOk = false := by decide +kernel
example : (loadArgs b!"IP=10.0.0.0" withIP).2.isOk = true ∧ (IP.unmarshalText b!"10.0.0.0").map IP.str = some b!"10.0.0.0" := by decide +kernel

/-! ### pkg/types/types_test.go -/

-- ParseCIDR
example : (parseCIDR b!"1.2.3.4/24").map (fun n => (n.str, IP.str n.ip, maskLen n.mask)) = some (b!"1.2.3.4/24", b!"1.2.3.4", some 24) := by decide +kernel
example : (parseCIDR b!"2001:db8::/32").map (fun n => (n.str, IP.str n.ip, maskLen n.mask)) = some (b!"2001:db8::/32", b!"2001:db8::", some 32) := by
  decide +kernel
example : parseCIDR b!"1.2.3/45" = none := by decide +kernel

-- IPNet
example : (jIPNet ⟨v4 1 2 3 4, [255, 255, 255, 0]⟩).print = b!"\"1.2.3.4/24\"" := by decide +kernel
example : (Json.parse b!"\"1.2.3.4/24\"").bind (decIPNet {}) = some ⟨v4 1 2 3 4, [255, 255, 255, 0]⟩ := by decide +kernel
example : (Json.parse b!"1").bind (decIPNet {}) = none := by decide +kernel
example : (Json.parse b!"\"1.2.3.4/99\"").bind (decIPNet {}) = none := by decide +kernel

/-- Test data; models no code. -/
def route : Route := { dst := ⟨v4 1 2 3 0, [255, 255, 255, 0]⟩, gw := v4 1 2 3 1, mtu := 1500, advmss := 1340, priority := 100, table := some 50,
                       scope := some 253 }

-- Route
example : (jRoute route).print =
    b!"{\"dst\":\"1.2.3.0/24\",\"gw\":\"1.2.3.1\",\"mtu\":1500,\"advmss\":1340,\"priority\":100,\"table\":50,\"scope\":253}" := by decide +kernel
example : (Json.parse (jRoute route).print).bind decRoute = some route := by decide +kernel
example : (Json.parse b!"{ \"dst\": \"1.2.3.0/24\", \"gw\": \"1.2.3.x\" }").bind decRoute = none := by decide +kernel

-- Error
example : (GoErr.cni ⟨1234, b!"some message", b!"some details"⟩).msg = b!"some message; some details" := by decide +kernel
example : (GoErr.cni ⟨1234, b!"some message", []⟩).msg = b!"some message" := by decide +kernel

example : (parseCIDR b!"abcd:1234:ffff::cdde/64") = some ⟨v6a, m64⟩ ∧ parseIP b!"abcd:1234:ffff::1" = some v6g := by decide +kernel

-- can create a CNIVersion '' (0.1.0) result
example : ((Result.v100 testResult100).getAsVersion []).toOption.map Result.version = some b!"0.1.0" := by decide +kernel

/-! ### pkg/utils/utils_test.go -/

example : validateContainerID [] = some ⟨3, b!"missing containerID", []⟩ := by decide +kernel
example : validateContainerID b!"1234%%%" = some ⟨4, b!"invalid characters in containerID", b!"1234%%%"⟩ := by decide +kernel
example : validateContainerID b!"a51debf7e1eb" = none := by decide +kernel
example : validateNetworkName [] = some ⟨7, b!"missing network name:", []⟩ := by decide +kernel
example : validateNetworkName b!"1234%%%" = some ⟨7, b!"invalid characters found in network name", b!"1234%%%"⟩ := by decide +kernel
example : validateNetworkName b!"eth0" = none := by decide +kernel
example : validateInterfaceName [] = some ⟨4, b!"interface name is empty", []⟩ := by decide +kernel
example : validateInterfaceName b!"testnamemorethan16" =
    some ⟨4, b!"interface name is too long", b!"interface name should be less than 16 characters"⟩ := by decide +kernel
example : validateInterfaceName b!"." = some ⟨4, b!"interface name is . or ..", []⟩ := by decide +kernel
example : validateInterfaceName b!"/testname" = some ⟨4, b!"interface name contains / or : or whitespace characters", []⟩ := by decide +kernel
example : validateInterfaceName b!"test name" = some ⟨4, b!"interface name contains / or : or whitespace characters", []⟩ := by decide +kernel
example : validateInterfaceName b!"testname" = none := by decide +kernel

end Verif.Conformance
