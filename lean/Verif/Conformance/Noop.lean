/-
The repository's own unit tests, run on the model: plugins/test/noop/noop_test.go. Checks of the model, not properties.
-/
import Verif.Conformance.Skel
import Verif.Plugins.NoopRecord
import Verif.Version.Version

namespace Verif.Conformance

/-- Test data; models no code. -/
def debugName : Bytes := b!"/tmp/cni_debug"
/-- Test data; models no code. -/
def noopStdin : Bytes := b!"{\"name\": \"noop-test\", \"some\":\"stdin-json\", \"cniVersion\": \"0.3.1\"}"
/-- Test data; models no code. -/
def reportResult : Bytes := b!"{ \"ips\": [{ \"version\": \"4\", \"address\": \"10.1.2.3/24\" }], \"dns\": {} }"
/-- Test data; models no code. -/
def debugOf (r : Bytes) : NoopFile :=
  { reportResult := r, reportVersionSupport := some [b!"0.1.0", b!"0.2.0", b!"0.3.0", b!"0.3.1", b!"0.4.0"] }

/-- The environment of the tests. Test data; models no code. -/
def noopEnv (cmd : Bytes := b!"ADD") (args : Bytes := b!"DEBUG=/tmp/cni_debug;FOO=BAR") : Vars :=
  [(b!"CNI_COMMAND", cmd), (b!"CNI_CONTAINERID", b!"some-container-id"), (b!"CNI_NETNS", b!"/some/netns/path"), (b!"CNI_IFNAME", b!"some-eth0"),
   (b!"CNI_PATH", b!"/some/bin/path"), (b!"CNI_ARGS", args)]

/-- The arguments the plugin is to get. Test data; models no code. -/
def noopArgs (args : Bytes := b!"DEBUG=/tmp/cni_debug;FOO=BAR") (stdin : Bytes := noopStdin) : CmdArgs :=
  { containerID := b!"some-container-id", netns := b!"/some/netns/path", ifName := b!"some-eth0", args := args, path := b!"/some/bin/path",
    stdinData := stdin }

/-- The process of the tests with this debug file. Test data; models no code. -/
def noopRun (d : NoopFile) (e : Vars := noopEnv) (stdin : Bytes := noopStdin) : NoopDone :=
  noopProcess (fun _ => none) (writeDebug (fun _ => none) (fun _ => none) debugName d).1 (dispatch e (.ok stdin)) noNs

/-- What the tests look at: the exit code, standard output as JSON, and the debug file. Test data; models no code. -/
def noopSeen (x : NoopDone) : Nat × Option Json × Option NoopFile := (x.exit.status, Json.parse x.exit.stdout, readDebug x.files debugName)

/-- The same, without the debug file and with the members of objects sorted. Test data; models no code. -/
def noopOut (x : NoopDone) : Nat × Option Json := (x.exit.status, (Json.parse x.exit.stdout).bind Json.toAny)

/-- Test data; models no code. -/
def asJson (b : Bytes) : Option Json := (Json.parse b).bind Json.toAny

-- "responds to ADD using the ReportResult debug field"
example : noopOut (noopRun (debugOf reportResult)) = (0, asJson reportResult) ∧ (asJson reportResult).isSome := by decide +kernel

-- "panics when no debug file is given"
example : (noopRun (debugOf reportResult) (noopEnv b!"ADD" b!"FOO=BAR")).exit.status = 2 := by decide +kernel

-- "pass previous result 0.3.1 through when ReportResult is PASSTHROUGH"
example : noopOut (noopRun { reportResult := b!"PASSTHROUGH" } noopEnv b!"{
	\"name\":\"noop-test\",
	\"some\":\"stdin-json\",
	\"cniVersion\": \"0.3.1\",
	\"prevResult\": {
		\"cniVersion\": \"0.3.1\",
		\"ips\": [{\"version\": \"4\", \"address\": \"10.1.2.15/24\"}]
	}
}") = (0, asJson b!"{\"cniVersion\": \"0.3.1\", \"ips\": [{\"version\": \"4\", \"address\": \"10.1.2.15/24\"}], \"dns\": {}}") := by decide +kernel

-- "pass previous result 0.4.0 through when ReportResult is PASSTHROUGH"
example : noopOut (noopRun { reportResult := b!"PASSTHROUGH" } noopEnv b!"{
	\"name\":\"noop-test\",
	\"some\":\"stdin-json\",
	\"cniVersion\": \"0.4.0\",
	\"prevResult\": {
		\"cniVersion\": \"0.4.0\",
		\"ips\": [{\"version\": \"4\", \"address\": \"10.1.2.15/24\"}]
	}
}") = (0, asJson b!"{\"cniVersion\": \"0.4.0\", \"ips\": [{\"version\": \"4\", \"address\": \"10.1.2.15/24\"}], \"dns\": {}}") := by decide +kernel

-- "injects DNS into previous result when ReportResult is INJECT-DNS"
example : noopOut (noopRun { reportResult := b!"INJECT-DNS" } noopEnv b!"{
	\"name\":\"noop-test\",
	\"some\":\"stdin-json\",
	\"cniVersion\": \"0.4.0\",
	\"prevResult\": {
		\"cniVersion\": \"0.4.0\",
		\"ips\": [{\"version\": \"4\", \"address\": \"10.1.2.3/24\"}],
		\"dns\": {}
	}
}") = (0, asJson b!"{
	\"cniVersion\": \"0.4.0\",
	\"ips\": [{\"version\": \"4\", \"address\": \"10.1.2.3/24\"}],
	\"dns\": {\"nameservers\": [\"1.2.3.4\"]}
}") := by decide +kernel

/-- Test data; models no code. -/
def fileStdin : Bytes := b!"{\"name\":\"noop-test\", \"some\": \"stdin-json\", \"cniVersion\": \"0.4.0\", \"debugFile\": \"/tmp/cni_debug\"}"

-- "allows passing debug file in config JSON". The versions are only read from the file if CNI_ARGS is not empty; the file is then not named in it, and
-- the plugin finds it in the configuration.
example : noopSeen (noopRun (debugOf reportResult) (noopEnv b!"ADD" b!"FOO=BAR") fileStdin) =
    (0, Json.parse reportResult, some { debugOf reportResult with command := b!"ADD", cmdArgs := noopArgs b!"FOO=BAR" fileStdin }) := by decide +kernel

-- "records all the args provided by skel.PluginMain"
example : noopSeen (noopRun (debugOf reportResult)) =
    (0, Json.parse reportResult, some { debugOf reportResult with command := b!"ADD", cmdArgs := noopArgs }) := by decide +kernel

-- "returns no result"
example : (noopRun (debugOf [])).exit = { stdout := [], status := 0 } ∧
    readDebug (noopRun (debugOf [])).files debugName = some { debugOf [] with command := b!"ADD", cmdArgs := noopArgs } := by decide +kernel

-- "returns no result and exits with the expected code"
example : (noopRun { debugOf [] with exitWithCode := 3 }).exit = { stdout := [], status := 3 } := by decide +kernel

/-- ` { "result": "set debug.ReportResult and call debug.WriteDebug() before calling this plugin" }`. Test data; models no code. -/
def helpful : Bytes := b!" { \"result\": \"set debug.ReportResult and call debug.WriteDebug() before calling this plugin\" }"

-- "substitutes a helpful message for the test author"
example : noopSeen (noopRun (debugOf helpful)) =
    (0, Json.parse helpful, some { debugOf helpful with command := b!"ADD", cmdArgs := noopArgs }) := by decide +kernel

-- "returns an error to skel.PluginMain, causing the process to exit code 1"
example : noopOut (noopRun { debugOf reportResult with reportError := b!"banana" }) = (1, asJson b!"{ \"code\": 999, \"msg\": \"banana\" }") := by
  decide +kernel

-- "still does all the debug behavior" (DEL)
example : noopSeen (noopRun (debugOf b!"{ \"some\": \"delete-data\" }") (noopEnv b!"DEL")) = (0, Json.parse b!"{ \"some\": \"delete-data\" }",
    some { debugOf b!"{ \"some\": \"delete-data\" }" with command := b!"DEL", cmdArgs := noopArgs }) := by decide +kernel

-- "claims to support the specified versions"
example : let x := noopRun { debugOf reportResult with reportVersionSupport := some [b!"0.123.0", b!"0.2.0"] } (noopEnv b!"VERSION")
    x.exit.status = 0 ∧ (decodePluginInfo x.exit.stdout).toOption.map PluginInfo.supported = some [b!"0.123.0", b!"0.2.0"] := by decide +kernel

end Verif.Conformance
