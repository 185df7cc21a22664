/-
The repository's own unit tests, run on the model: pkg/skel/skel_test.go. Checks of the model, not properties.
-/
import Verif.Conformance.Results
import Verif.Skel.Skel

namespace Verif.Conformance

/-- Test data; models no code. -/
abbrev Vars := List (Bytes × Bytes)

/-- Test data; models no code. -/
def environment (cmd : Bytes) : Vars :=
  [(b!"CNI_COMMAND", cmd), (b!"CNI_CONTAINERID", b!"some-container-id"), (b!"CNI_NETNS", b!"/some/netns/path"), (b!"CNI_IFNAME", b!"eth0"),
   (b!"CNI_ARGS", b!"some;extra;args"), (b!"CNI_PATH", b!"/some/cni/path")]

/-- `delete(environment, k)`. Test data; models no code. -/
def without (e : Vars) (k : Bytes) : Vars := e.filter fun x => x.1 ≠ k
/-- `environment[k] = v`. Test data; models no code. -/
def withVar (e : Vars) (k v : Bytes) : Vars := (k, v) :: without e k

/-- Test data; models no code. -/
def stdinData : Bytes := b!"{ \"name\":\"skel-test\", \"some\": \"config\", \"cniVersion\": \"9.8.7\" }"

/-- The process of the tests. Test data; models no code. -/
def dispatch (e : Vars) (stdin : Except Bytes Bytes := .ok stdinData) : SkelProc :=
  { getenv := fun k => ((e.find? fun x => x.1 = k).map (·.2)).getD [], stdin := stdin }

/-- Callbacks that return nil, except `add`. Test data; models no code. -/
def funcs (add : Out Unit := .ok ()) : CNIFuncs :=
  { add := some fun _ => add, del := some fun _ => .ok (), check := some fun _ => .ok (), gc := some fun _ => .ok () }

/-- `version.PluginSupports("9.8.7", "10.0.0")`. Test data; models no code. -/
def vi : PluginInfo := { cniVersion := currentVersion, supported := [b!"9.8.7", b!"10.0.0"] }
/-- `version.PluginSupports(vs…)`. Test data; models no code. -/
def supports (vs : List Bytes) : PluginInfo := { cniVersion := currentVersion, supported := vs }

/-- The tests' namespace path does not exist. Test data; models no code. -/
def noNs : Namespaces := { at_ := fun _ => none, self := some 1 }

/-- The run in the test's setting. Test data; models no code. -/
def main (e : Vars) (info : PluginInfo := vi) (stdin : Except Bytes Bytes := .ok stdinData) (about : Bytes := []) (add : Out Unit := .ok ()) : SkelRun :=
  (dispatch e stdin).pluginMain (funcs add) info about noNs

/-- Test data; models no code. -/
def expectedArgs : CmdArgs :=
  { containerID := b!"some-container-id", netns := b!"/some/netns/path", ifName := b!"eth0", args := b!"some;extra;args", path := b!"/some/cni/path",
    stdinData := stdinData }

/-- What `envVarChecker` expects. Test data; models no code. -/
def missingVar (k : Bytes) : SkelOut := .error { code := 4, msg := b!"required env variables [" ++ k ++ b!"] missing" }

/-- The variables of the tables in the tests. Test data; models no code. -/
def allVars : List Bytes := [b!"CNI_COMMAND", b!"CNI_CONTAINERID", b!"CNI_NETNS", b!"CNI_IFNAME", b!"CNI_ARGS", b!"CNI_PATH"]

/-- What the tables expect. Test data; models no code. -/
def table (required : List Bool) : List SkelOut := (allVars.zip required).map fun x => if x.2 then missingVar x.1 else .success

/-! ### ADD -/

example : main (environment b!"ADD") = { calls := [(.add, expectedArgs)] } := by decide +kernel
example : (main (withVar (environment b!"ADD") b!"CNI_CONTAINERID" b!"some-%%container-id")) =
    { out := .error ⟨4, b!"invalid characters in containerID", b!"some-%%container-id"⟩ } := by decide +kernel
example : (main (withVar (environment b!"ADD") b!"CNI_IFNAME" b!"1234567890123456")).out =
    .error ⟨4, b!"interface name is too long", b!"interface name should be less than 16 characters"⟩ := by decide +kernel
example : [b!".", b!".."].map (fun n => (main (withVar (environment b!"ADD") b!"CNI_IFNAME" n)).out) =
    List.replicate 2 (.error ⟨4, b!"interface name is . or ..", []⟩) := by decide +kernel
example : [b!"test/test", b!"test:test", b!"test test"].map (fun n => (main (withVar (environment b!"ADD") b!"CNI_IFNAME" n)).out) =
    List.replicate 3 (.error ⟨4, b!"interface name contains / or : or whitespace characters", []⟩) := by decide +kernel
example : allVars.map (fun k => (main (without (environment b!"ADD") k)).out) = table [true, true, true, true, false, true] := by decide +kernel
example : (main (without (without (without (environment b!"ADD") b!"CNI_NETNS") b!"CNI_IFNAME") b!"CNI_PATH")).out =
    missingVar b!"CNI_NETNS,CNI_IFNAME,CNI_PATH" := by decide +kernel
-- no cniVersion in the config
example : main (environment b!"ADD") (supports [b!"0.1.0"]) (.ok b!"{ \"name\": \"skel-test\", \"some\": \"config\" }") =
    { calls := [(.add, { expectedArgs with stdinData := b!"{ \"name\": \"skel-test\", \"some\": \"config\" }" })] } := by decide +kernel
example : (match (main (environment b!"ADD") (supports [b!"4.3.2"]) (.ok b!"{ \"name\": \"skel-test\", \"some\": \"config\" }")) with
    | { calls := [], out := .error e, .. } => some (e.code, e.msg)
    | _ => none) = some (1, b!"incompatible CNI versions") := by decide +kernel

/-! ### CHECK -/

example : main (environment b!"CHECK") = { calls := [(.check, expectedArgs)] } := by decide +kernel
example : allVars.map (fun k => (main (without (environment b!"CHECK") k)).out) = table [true, true, true, true, false, true] := by decide +kernel
example : (main (without (without (without (environment b!"CHECK") b!"CNI_NETNS") b!"CNI_IFNAME") b!"CNI_PATH")).out =
    missingVar b!"CNI_NETNS,CNI_IFNAME,CNI_PATH" := by decide +kernel
example : main (environment b!"CHECK") vi (.ok b!"{ \"name\": \"skel-test\", \"cniVersion\": \"0.3.0\", \"some\": \"config\" }") =
    { out := .error ⟨1, b!"config version does not allow CHECK", []⟩ } := by decide +kernel
example : main (environment b!"CHECK") (supports [b!"0.1.0", b!"0.2.0", b!"0.3.0"])
    (.ok b!"{ \"name\": \"skel-test\", \"cniVersion\": \"0.4.0\", \"some\": \"config\" }") =
    { out := .error ⟨1, b!"plugin version does not allow CHECK", []⟩ } := by decide +kernel

/-- The code of the error, if no callback was called. Observation in tests; models no code. -/
def refusal (r : SkelRun) : Option Nat :=
  match r with
  | { calls := [], out := .error e, .. } => some e.code
  | _ => none

-- bad version; bad name; bad plugin version
example : refusal (main (environment b!"CHECK") (supports [b!"0.1.0", b!"0.2.0", b!"0.3.0"])
    (.ok b!"{ \"cniVersion\": \"adsfsadf\", \"some\": \"config\", \"name\": \"test\" }")) = some 6 := by decide +kernel
example : refusal (main (environment b!"CHECK") (supports [b!"0.1.0", b!"0.2.0", b!"0.3.0", b!"0.4.0"])
    (.ok b!"{ \"cniVersion\": \"0.4.0\", \"some\": \"config\", \"name\": \"te%%st\" }")) = some 7 := by decide +kernel
example : refusal (main (environment b!"CHECK") (supports [b!"0.1.0", b!"0.2.0", b!"adsfasdf"])
    (.ok b!"{ \"cniVersion\": \"0.4.0\", \"some\": \"config\", \"name\": \"test\" }")) = some 6 := by decide +kernel

/-! ### GC -/

/-- Test data; models no code. -/
def gcEnv : Vars := [(b!"CNI_COMMAND", b!"GC"), (b!"CNI_PATH", b!"/some/cni/path")]

example : main gcEnv = { calls := [(.gc, { path := b!"/some/cni/path", stdinData := stdinData })] } := by decide +kernel
example : allVars.map (fun k => (main (without gcEnv k)).out) = table [true, false, false, false, false, true] := by decide +kernel
example : main gcEnv vi (.ok b!"{ \"name\": \"skel-test\", \"cniVersion\": \"0.3.0\", \"some\": \"config\" }") =
    { out := .error ⟨1, b!"config version does not allow GC", []⟩ } := by decide +kernel
example : main gcEnv (supports [b!"0.1.0", b!"0.2.0", b!"0.3.0"]) (.ok b!"{ \"name\": \"skel-test\", \"cniVersion\": \"1.1.0\", \"some\": \"config\" }") =
    { out := .error ⟨1, b!"plugin version does not allow GC", []⟩ } := by decide +kernel
example : refusal (main gcEnv (supports [b!"1.1.0"]) (.ok b!"{ \"cniVersion\": \"adsfsadf\", \"some\": \"config\", \"name\": \"test\" }")) = some 6 := by
  decide +kernel
example : refusal (main gcEnv (supports [b!"1.1.0"]) (.ok b!"{ \"cniVersion\": \"0.4.0\", \"some\": \"config\", \"name\": \"te%%st\" }")) = some 7 := by
  decide +kernel
example : refusal (main gcEnv (supports [b!"0.1.0", b!"0.2.0", b!"adsfasdf"]) (.ok b!"{ \"cniVersion\": \"1.1.0\", \"some\": \"config\", \"name\": \"test\" }")) =
    some 6 := by decide +kernel

/-! ### DEL -/

example : main (environment b!"DEL") = { calls := [(.del, expectedArgs)] } := by decide +kernel
example : allVars.map (fun k => (main (without (environment b!"DEL") k)).out) = table [true, true, false, true, false, true] := by decide +kernel

/-! ### VERSION -/

/-- Test data; models no code. -/
def versionText : Bytes := b!"{
				\"cniVersion\": \"1.1.0\",
				\"supportedVersions\": [\"9.8.7\", \"10.0.0\"]
			}"

example : ((main (environment b!"VERSION")).calls, (main (environment b!"VERSION")).out, matchJSON (main (environment b!"VERSION")).stdout versionText) =
    ([], .success, true) := by decide +kernel
example : allVars.map (fun k => (main (without (environment b!"VERSION") k)).out) = table [true, false, false, false, false, false] := by decide +kernel
-- does not read from Stdin
example : main (environment b!"VERSION") vi (.error b!"banana") = main (environment b!"VERSION") := by decide +kernel

/-! ### other commands, errors -/

example : main (environment b!"NOPE") = { out := .error ⟨4, b!"unknown CNI_COMMAND: NOPE", []⟩ } := by decide +kernel
example : (main (withVar (environment b!"ADD") b!"CNI_COMMAND" []) vi (.ok stdinData) b!"test framework v42") =
    { stderr := b!"test framework v42\nCNI protocol versions supported: 9.8.7, 10.0.0\n" } := by decide +kernel
example : main [] vi (.ok stdinData) b!"AWESOME PLUGIN" = { stderr := b!"AWESOME PLUGIN\nCNI protocol versions supported: 9.8.7, 10.0.0\n" } := by decide +kernel
example : main [] = { out := missingVar b!"CNI_COMMAND" } := by decide +kernel
example : main (environment b!"ADD") vi (.error b!"banana") = { out := .error ⟨5, b!"error reading from stdin: banana", []⟩ } := by decide +kernel
example : (main (environment b!"ADD") vi (.ok stdinData) [] (.err (.cni ⟨1234, b!"insufficient something", []⟩))).out =
    .error ⟨1234, b!"insufficient something", []⟩ := by decide +kernel
example : (main (environment b!"ADD") vi (.ok stdinData) [] (.err (.text b!"potato"))).out = .error ⟨999, b!"potato", []⟩ := by decide +kernel

end Verif.Conformance
