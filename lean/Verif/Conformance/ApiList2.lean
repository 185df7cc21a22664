/-
The repository's own unit tests, run on the model: the plugin lists of libcni/api_test.go. Checks of the model, not properties.
-/
import Verif.Conformance.ApiList

set_option synthInstance.maxSize 1024
set_option synthInstance.maxHeartbeats 100000

namespace Verif.Conformance.Api

/-- Test data; models no code. -/
def listCached (content : Bytes) : FS := clean.set b!"/cache/results/some-list-some-container-id-some-eth0" (some content)
/-- Each plugin's command, and whether its `prevResult` is this. Observation in tests; models no code. -/
def prevs (ip : Bytes) (x : List (Bytes × CmdArgs)) : List (Bytes × Bool) :=
  x.map fun e => (e.1, decide (member b!"prevResult" e.2.stdinData = some (json ip)))

-- executes all plugins with command CHECK
example : (run listDebugs (listCached ipLine) (cni.checkNetworkList list listRt)).map (fun x => (prevs ipLine x.1, x.2.2.isOk)) =
    some ([(b!"CHECK", true), (b!"CHECK", true), (b!"CHECK", true)], true) := by decide +kernel
-- does not execute plugins with command CHECK when disableCheck is true
example : (run listDebugs clean (cni.checkNetworkList { list with disableCheck := true } listRt)).map (fun x => (x.1.length, x.2.2.isOk)) = some (0, true) := by
  decide +kernel
-- 0.4.0: passes a cached result to the plugins
example : (run (sameDebugs (oldText b!"0.4.0")) (listCached (oldText b!"0.4.0"))
      (cni.checkNetworkList (confList (listText b!"0.4.0" (oldText b!"0.4.0"))) listRt)).map (fun x => (prevs (oldText b!"0.4.0") x.1, x.2.2.isOk)) =
    some ([(b!"CHECK", true), (b!"CHECK", true), (b!"CHECK", true)], true) := by decide +kernel
example : (run (sameDebugs (oldText b!"0.4.0")) (listCached (oldText b!"0.4.0"))
      (cni.delNetworkList (confList (listText b!"0.4.0" (oldText b!"0.4.0"))) listRt)).map (fun x => (prevs (oldText b!"0.4.0") x.1, x.2.2.isOk)) =
    some ([(b!"DEL", true), (b!"DEL", true), (b!"DEL", true)], true) := by decide +kernel
-- less than 0.4.0: CHECK fails, DEL passes no result (to the first plugin, which runs last)
example : (run listDebugs clean (cni.checkNetworkList (confList (listText b!"0.3.1" ipLine)) listRt)).map (fun x => (x.1.length, x.2.2.isOk)) = some (0, false) := by
  decide +kernel
example : (run (sameDebugs (oldText b!"0.3.1")) (listCached (oldText b!"0.3.1"))
      (cni.delNetworkList (confList (listText b!"0.3.1" (oldText b!"0.3.1"))) listRt)).map (fun x =>
        (x.1.getLast?.map fun e => (e.1, member b!"some-key" e.2.stdinData, member b!"prevResult" e.2.stdinData), x.2.2.isOk)) =
    some (some (b!"DEL", some (.str b!"some-value"), none), true) := by decide +kernel
-- the cached result is invalid: CHECK returns an error, DEL tolerates it
example : (run listDebugs (listCached b!"adfadsfasdfasfdsafaf") (cni.checkNetworkList list listRt)).map (fun x => (x.1.length, x.2.2.isOk)) = some (0, false) := by
  decide +kernel
example : (run listDebugs (listCached b!"adfadsfasdfasfdsafaf") (cni.delNetworkList list listRt)).map (fun x => (x.1.length, x.2.2.isOk)) = some (3, true) := by
  decide +kernel
-- executes all the plugins in reverse order with command DEL
example : (run listDebugs clean (cni.delNetworkList list listRt)).map (fun x => (x.1.length, allExpected b!"DEL" (stdins b!"1.1.0" ipLine).reverse x.1, x.2.2.isOk)) =
    some (3, [true, true, true], true) := by decide +kernel

-- ValidateNetworkList
example : (run listDebugs clean (cni.validateNetworkList list)).map (fun x => x.2.2.toOption) = some (some [b!"otherCapability", b!"portMappings"]) := by decide +kernel
example : (run listDebugs clean (cni.validateNetworkList (missing b!"nope"))).map (fun x => (x.1.length, x.2.2.isOk)) = some (2, false) := by decide +kernel
example : (run listDebugs clean (cni.validateNetworkList { list with cniVersion := b!"broken" })).map (fun x => (x.1.length, x.2.2.isOk)) = some (3, false) := by
  decide +kernel

/-- The commands of the first plugin, and the valid attachments it is told. Observation in tests; models no code. -/
def firstLog (x : List (Bytes × CmdArgs)) : List (Bytes × Option Json) :=
  (x.filter fun e => member b!"some-key" e.2.stdinData = some (.str b!"some-value")).map fun e => (e.1, member b!"cni.dev/valid-attachments" e.2.stdinData)

/-- GC finds the cache file of `listRt`. Test data; models no code. -/
def gc (fs : FS) (l : NetConfList) (valid : Option (List GCAttachment)) : Option (List (Bytes × CmdArgs) × FS × Out Unit) :=
  ((cni.gcNetworkList l valid).afterDir b!"/cache/results" [b!"some-list-some-container-id-some-eth0"]).bind (run listDebugs fs)

-- issues a DEL and GC as necessary
example : (run listDebugs clean (cni.addNetworkList list listRt)).bind (fun a =>
    (run listDebugs a.2.1 (cni.gcNetworkList { list with disableGC := true } (some []))).bind fun b =>
      (gc b.2.1 list (some [⟨b!"some-container-id", b!"some-eth0"⟩])).bind fun c =>
        (gc c.2.1 list (some [])).map fun d => ([a.1, b.1, c.1, d.1].map firstLog, [b.2.2.isOk, c.2.2.isOk, d.2.2.isOk])) =
    some ([[(b!"ADD", none)], [], [(b!"GC", some (json b!"[{\"containerID\":\"some-container-id\",\"ifname\":\"some-eth0\"}]"))],
      [(b!"DEL", none), (b!"GC", some (.arr []))]], [true, true, true]) := by decide +kernel

-- STATUS: issues a request; stops at the plugin that reports an error, with its code
example : (run listDebugs clean (cni.getStatusNetworkList list)).map (fun x => (x.1.map (·.1), x.2.2.isOk)) = some ([b!"STATUS", b!"STATUS", b!"STATUS"], true) := by
  decide +kernel
example : (run (listDebugs { reportError := b!"plugin error: banana", reportErrorCode := 50 }) clean (cni.getStatusNetworkList list)).map (fun x =>
    (x.1.map (·.1), match x.2.2 with | .err e => e.asCni.map (·.code) | _ => none)) = some ([b!"STATUS", b!"STATUS"], some 50) := by decide +kernel

end Verif.Conformance.Api
