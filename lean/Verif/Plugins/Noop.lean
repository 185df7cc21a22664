/-
The test plugin of the repository (plugins/test/noop): it records what it is told in a file and behaves as another part of that
file says. Modelled so that the repository's tests of libcni can be run on the model (Conformance/Api).
Not modelled here: the recording (the tests look at the executions instead), `ExitWithCode`, `ReportStderr` and the supported versions in
the file (all these are in Plugins/NoopRecord), and errors of writing to stdout.
-/
import Verif.Types.PluginConf
import Verif.Types.GetResult
import Verif.Skel.Main
import Verif.Libcni.Api

namespace Verif

/-- plugins/test/noop/debug/debug.go:28-42 `Debug`: what the plugin is told to report. -/
structure NoopDebug where
  reportResult : Bytes := []
  reportError : Bytes := []
  reportErrorCode : Nat := 0
  deriving DecidableEq, Inhabited

/-- plugins/test/noop/main.go:38-42 `NetConf`. -/
structure NoopConf where
  conf : PluginConf := {}
  debugFile : Bytes := []
  commandLog : Bytes := []
  deriving DecidableEq, Inhabited

/-- plugins/test/noop/main.go:44-53 `loadConf`. -/
def noopLoadConf (data : Bytes) : Out NoopConf :=
  match Json.parse data with
  | none => .err (.wrap b!"failed to load netconf" (.text b!"invalid JSON"))
  | some j =>
    match (do
      let c ← decPluginConf j
      let ms ← structMembers j
      let d ← decAll decStr [] (getField (pluginConfFields ++ [b!"debugFile", b!"commandLog"]) b!"debugFile" ms)
      let l ← decAll decStr [] (getField (pluginConfFields ++ [b!"debugFile", b!"commandLog"]) b!"commandLog" ms)
      some (NoopConf.mk c d l)) with
    | none => .err (.wrap b!"failed to load netconf" (.text b!"invalid type"))
    | some n =>
      match parsePrevResult n.conf with
      | (c, none) => .ok { n with conf := c }
      | (_, some e) => .err e

/-- The loop of plugins/test/noop/main.go:56-71 `parseExtraArgs`. -/
def noopExtraLoop : List Bytes → Out (GoMap Bytes)
  | [] => .ok []
  | item :: rest =>
    match splitOn 61 item with
    | [k, v] => noopExtraLoop rest >>= fun m => .ok (if (GoMap.get? m k).isSome then m else GoMap.insert m k v)
    | _ => .err (.text b!"CNI_ARGS invalid key/value pair")

/-- plugins/test/noop/main.go:56-71 `parseExtraArgs`. -/
def noopExtraArgs (args : Bytes) : Out (GoMap Bytes) := if args = [] then .ok [] else noopExtraLoop (splitOn 59 args)

/-- plugins/test/noop/main.go:73-90 `getConfig`. -/
def noopGetConfig (stdin args : Bytes) : Out (Bytes × NoopConf) := do
  let n ← noopLoadConf stdin
  let m ← noopExtraArgs args
  .ok ((GoMap.get? m b!"DEBUG").getD n.debugFile, n)

/-- The previous result passed on by plugins/test/noop/main.go:92-181 `debugBehavior`. -/
def noopPass (report : Bytes) (c : PluginConf) : Out Bytes := do
  let r ← (if report = b!"INJECT-DNS" then
      match c.prevResult with
      | none => .panic
      | some p => newResultFromResult100 p >>= fun x => .ok (Result.v100 { x with dns := { x.dns with nameservers := [b!"1.2.3.4"] } })
    else match c.prevResult with
      | none => .panic
      | some p => .ok p : Out Result)
  let r ← r.getAsVersion c.cniVersion
  match r.json with
  | none => .err (.text b!"failed to marshal new result")
  | some j => .ok j.print

/-- plugins/test/noop/main.go:92-181 `debugBehavior`: what is printed. `files` are the debug files that can be read. -/
def noopBehavior (files : Bytes → Option NoopDebug) (a : CmdArgs) : Out Bytes := do
  let (path, n) ← noopGetConfig a.stdinData a.args
  if path = [] then .ok b!"{}"
  else match files path with
    | none => .err (.text b!"cannot read the debug file")
    | some d =>
      if d.reportError ≠ [] then
        .err (.cni { code := if d.reportErrorCode = 0 then 999 else d.reportErrorCode, msg := d.reportError })
      else if d.reportResult = b!"PASSTHROUGH" ∨ d.reportResult = b!"INJECT-DNS" then noopPass d.reportResult n.conf
      else .ok d.reportResult

/-- plugins/test/noop/main.go:248-263 `main`: the callbacks, all alike. -/
def noopFuncs (files : Bytes → Option NoopDebug) : CNIFuncs :=
  let f : CmdArgs → Out Unit := fun a => noopBehavior files a >>= fun _ => .ok ()
  { add := some f, check := some f, del := some f, gc := some f, status := some f }

/-- The versions of plugins/test/noop/main.go:183-203 `debugGetSupportedVersions`. -/
def noopInfo : PluginInfo :=
  { cniVersion := currentVersion,
    supported := [b!"0.-42.0", b!"0.1.0", b!"0.2.0", b!"0.3.0", b!"0.3.1", b!"0.4.0", b!"1.0.0", b!"1.1.0"] }

/-- The process of plugins/test/noop/main.go:248-263 `main` with this environment and input. The namespace does not exist. -/
def noopMain (files : Bytes → Option NoopDebug) (env : List Bytes) (stdin : Bytes) : PluginExit :=
  ({ getenv := getenv env, stdin := .ok stdin } : SkelProc).mainFuncs (noopFuncs files) noopInfo b!"CNI noop plugin v0.7.0"
    { at_ := fun _ => none, self := some 1 } fun x => (noopBehavior files x.2).toOption.getD []

/-- The plugin run by pkg/invoke/raw_exec.go:34-70 `RawExec.ExecPlugin` from a process with an empty environment. Go's `%q` is given. -/
def noopExec (quote : Bytes → Bytes) (files : Bytes → Option NoopDebug) (_path stdin : Bytes) (args : PArgs) : Except GoErr Bytes :=
  match rawExec quote (fun _ => (noopMain files (args.env id []) stdin).runResult []) with
  | .ok (out, _) => .ok out
  | .error e => .error (.cni e)

end Verif
