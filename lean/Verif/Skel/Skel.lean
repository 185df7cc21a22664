/- pkg/skel: the main function of a plugin. -/
import Verif.Version.Version
import Verif.Utils.Validate

namespace Verif

/-- pkg/skel/skel.go:37-45 `CmdArgs`. -/
structure CmdArgs where
  containerID : Bytes := []
  netns : Bytes := []
  ifName : Bytes := []
  args : Bytes := []
  path : Bytes := []
  netnsOverride : Bytes := []
  stdinData : Bytes := []
  deriving DecidableEq, Repr, Inhabited

/-- The fields of pkg/skel/skel.go:368-374 `CNIFuncs`: which callback is meant. -/
inductive Callback where
  | add | check | del | gc | status
  deriving DecidableEq, Repr, Inhabited

/-- pkg/skel/skel.go:368-374 `CNIFuncs`: a callback is nil or a function that returns nil, returns an error or panics.
What else it does (prints a result, configures interfaces) is not modelled; a process calls at most one, so a function of
its arguments is enough. -/
structure CNIFuncs where
  add : Option (CmdArgs → Out Unit) := none
  del : Option (CmdArgs → Out Unit) := none
  check : Option (CmdArgs → Out Unit) := none
  gc : Option (CmdArgs → Out Unit) := none
  status : Option (CmdArgs → Out Unit) := none

/-- The process a plugin runs in: pkg/skel/skel.go:47-55 `dispatcher`. `stdin` is what reading to the end gives; `stdoutErr`
is the error of writing to stdout, if any. -/
structure SkelProc where
  getenv : Bytes → Bytes
  stdin : Except Bytes Bytes
  stdoutErr : Option Bytes := none

/-- The network namespaces after the callback: the one a path leads to (if it can be opened) and the
plugin's own. pkg/ns/ns_linux.go:35-50 `CheckNetNS` as called in
pkg/skel/skel.go:232-346 `dispatcher.pluginMain`. -/
structure Namespaces where
  at_ : Bytes → Option Nat
  self : Option Nat

/-- How the main function ends. pkg/skel/skel.go:232-346 `dispatcher.pluginMain`. -/
inductive SkelOut where
  | success
  | error (e : CniErr)
  | crash
  deriving DecidableEq, Repr, Inhabited

/-- What is seen of a run: the callbacks called, in order, what skel itself writes, and how it ends.
pkg/skel/skel.go:232-346 `dispatcher.pluginMain`. -/
structure SkelRun where
  calls : List (Callback × CmdArgs) := []
  stdout : Bytes := []
  stderr : Bytes := []
  out : SkelOut := .success
  deriving DecidableEq, Repr, Inhabited

/-- One row of the table in pkg/skel/skel.go:59-188 `dispatcher.getCmdArgsFromEnv`. `req` are the commands mapped to `true`. -/
structure EnvVar where
  name : Bytes
  req : List Bytes
  validate : Option (Bytes → Option CniErr) := none

/-- The table in pkg/skel/skel.go:59-188 `dispatcher.getCmdArgsFromEnv`. -/
def skelVars : List EnvVar :=
  [ { name := b!"CNI_COMMAND", req := [b!"ADD", b!"CHECK", b!"DEL", b!"GC", b!"STATUS"] },
    { name := b!"CNI_CONTAINERID", req := [b!"ADD", b!"CHECK", b!"DEL"], validate := some validateContainerID },
    { name := b!"CNI_NETNS", req := [b!"ADD", b!"CHECK"] },
    { name := b!"CNI_IFNAME", req := [b!"ADD", b!"CHECK", b!"DEL"], validate := some validateInterfaceName },
    { name := b!"CNI_ARGS", req := [] },
    { name := b!"CNI_PATH", req := [b!"ADD", b!"CHECK", b!"DEL", b!"GC", b!"STATUS"] },
    { name := b!"CNI_NETNS_OVERRIDE", req := [] } ]

/-- What the loop body of pkg/skel/skel.go:59-188 `dispatcher.getCmdArgsFromEnv` does to a variable that is set: it is validated
if the command requires it. -/
def EnvVar.check (v : EnvVar) (cmd val : Bytes) : Option CniErr :=
  match v.validate with
  | none => none
  | some f => if cmd ∈ v.req then f val else none

/-- The loop in pkg/skel/skel.go:59-188 `dispatcher.getCmdArgsFromEnv`: the names of missing variables. `cmd` is the value of the
first variable, which the loop has read before it is used. -/
def scanVars (getenv : Bytes → Bytes) (cmd : Bytes) (missing : List Bytes) : List EnvVar → Except CniErr (List Bytes)
  | [] => .ok missing
  | v :: vs =>
    if getenv v.name = [] then
      if cmd ∈ v.req ∨ v.name = b!"CNI_COMMAND" then scanVars getenv cmd (missing ++ [v.name]) vs
      else scanVars getenv cmd missing vs
    else
      match v.check cmd (getenv v.name) with
      | some e => .error e
      | none => scanVars getenv cmd missing vs

/-- pkg/skel/skel.go:216-230 `validateConfig`. -/
def skelValidateConfig (b : Bytes) : Option CniErr :=
  match (Json.parse b).bind structMembers with
  | none => some { code := 6, msg := b!"error unmarshall network config: invalid JSON" }
  | some ms =>
    match decAll decStr [] (getField [b!"name"] b!"name" ms) with
    | none => some { code := 6, msg := b!"error unmarshall network config: bad name" }
    | some n => if n = [] then some { code := 7, msg := b!"missing network name" } else validateNetworkName n

/-- The values in pkg/skel/skel.go:59-188 `dispatcher.getCmdArgsFromEnv`. -/
def cmdArgsOf (getenv : Bytes → Bytes) (stdin : Bytes) : CmdArgs :=
  { containerID := getenv b!"CNI_CONTAINERID", netns := getenv b!"CNI_NETNS", ifName := getenv b!"CNI_IFNAME",
    args := getenv b!"CNI_ARGS", path := getenv b!"CNI_PATH", netnsOverride := getenv b!"CNI_NETNS_OVERRIDE",
    stdinData := stdin }

/-- pkg/skel/skel.go:59-188 `dispatcher.getCmdArgsFromEnv`. -/
def SkelProc.getCmdArgs (t : SkelProc) : Except CniErr (Bytes × CmdArgs) :=
  match scanVars t.getenv (t.getenv b!"CNI_COMMAND") [] skelVars with
  | .error e => .error e
  | .ok missing =>
    if missing ≠ [] then
      .error { code := 4, msg := b!"required env variables [" ++ joinWith b!"," missing ++ b!"] missing" }
    else if t.getenv b!"CNI_COMMAND" = b!"VERSION" then .ok (b!"VERSION", cmdArgsOf t.getenv [])
    else
      match t.stdin with
      | .error m => .error { code := 5, msg := b!"error reading from stdin: " ++ m }
      | .ok b =>
        match skelValidateConfig b with
        | some e => .error e
        | none => .ok (t.getenv b!"CNI_COMMAND", cmdArgsOf t.getenv b)

/-- pkg/version/reconcile.go:24-26 `ErrorIncompatible.Details`; quoting of the versions is not modelled. -/
def Incompatible.details (e : Incompatible) : Bytes :=
  b!"config is " ++ e.config ++ b!", plugin supports " ++ joinWith b!" " e.supported

/-- What happens to the callback's error in pkg/skel/skel.go:190-214 `dispatcher.checkVersionAndCall`. -/
def callbackOut : Out Unit → SkelOut
  | .ok _ => .success
  | .err e =>
    match e.asCni with
    | some c => .error c
    | none => .error { code := 999, msg := e.msg }
  | .panic => .crash

/-- pkg/skel/skel.go:190-214 `dispatcher.checkVersionAndCall`. -/
def checkVersionAndCall (a : CmdArgs) (vi : PluginInfo) (cb : Callback) (fn : Option (CmdArgs → Out Unit)) : SkelRun :=
  match decodeVersion a.stdinData with
  | .panic => { out := .crash }
  | .err e => { out := .error { code := 6, msg := e.msg } }
  | .ok v =>
    match checkRaw v vi.supported with
    | some inc => { out := .error { code := 1, msg := b!"incompatible CNI versions", details := inc.details } }
    | none =>
      match fn with
      | none => {}
      | some f => { calls := [(cb, a)], out := callbackOut (f a) }

/-- pkg/ns/ns_linux.go:35-50 `CheckNetNS`. -/
def checkNetNS (ns : Namespaces) (path : Bytes) : Except CniErr Bool :=
  match ns.at_ path with
  | none => .ok false
  | some n =>
    match ns.self with
    | none => .error { code := 8, msg := b!"get plugin's netns failed" }
    | some m => .ok (m = n)

/-- The check after the callback of ADD and DEL in pkg/skel/skel.go:232-346 `dispatcher.pluginMain`. (`strings.ToUpper` on
ASCII: no other character has an upper case among T, R, U and E.) -/
def netnsVerdict (ns : Namespaces) (a : CmdArgs) : SkelOut :=
  if toUpper a.netnsOverride ≠ b!"TRUE" ∧ a.netnsOverride ≠ b!"1" then
    match checkNetNS ns a.netns with
    | .error e => .error e
    | .ok true => .error { code := 8, msg := b!"plugin's netns and netns from CNI_NETNS should not be the same" }
    | .ok false => .success
  else .success

/-- The ADD and DEL cases of pkg/skel/skel.go:232-346 `dispatcher.pluginMain`. -/
def runAttach (ns : Namespaces) (a : CmdArgs) (vi : PluginInfo) (cb : Callback) (fn : Option (CmdArgs → Out Unit)) : SkelRun :=
  let r := checkVersionAndCall a vi cb fn
  match r.out with
  | .success => { r with out := netnsVerdict ns a }
  | _ => r

/-- The loop over the plugin's versions in the CHECK, GC and STATUS cases of pkg/skel/skel.go:232-346 `dispatcher.pluginMain`. -/
def gateLoop (a : CmdArgs) (vi : PluginInfo) (ver what : Bytes) (cb : Callback) (fn : Option (CmdArgs → Out Unit)) :
    List Bytes → SkelRun
  | [] => { out := .error { code := 1, msg := b!"plugin version does not allow " ++ what } }
  | v :: vs =>
    match gte v ver with
    | .err e => { out := .error { code := 6, msg := e.msg } }
    | .panic => { out := .crash }
    | .ok true => checkVersionAndCall a vi cb fn
    | .ok false => gateLoop a vi ver what cb fn vs

/-- The CHECK, GC and STATUS cases of pkg/skel/skel.go:232-346 `dispatcher.pluginMain`. -/
def runGated (a : CmdArgs) (vi : PluginInfo) (min what : Bytes) (cb : Callback) (fn : Option (CmdArgs → Out Unit)) : SkelRun :=
  match decodeVersion a.stdinData with
  | .panic => { out := .crash }
  | .err e => { out := .error { code := 6, msg := e.msg } }
  | .ok ver =>
    match gte ver min with
    | .err e => { out := .error { code := 6, msg := e.msg } }
    | .panic => { out := .crash }
    | .ok false => { out := .error { code := 1, msg := b!"config version does not allow " ++ what } }
    | .ok true => gateLoop a vi ver what cb fn vi.supported

/-- The VERSION case of pkg/skel/skel.go:232-346 `dispatcher.pluginMain`. -/
def SkelProc.runVersion (t : SkelProc) (vi : PluginInfo) : SkelRun :=
  match t.stdoutErr with
  | some m => { out := .error { code := 5, msg := m } }
  | none => { stdout := vi.encode }

/-- pkg/skel/skel.go:232-346 `dispatcher.pluginMain`. -/
def SkelProc.pluginMain (t : SkelProc) (funcs : CNIFuncs) (vi : PluginInfo) (about : Bytes) (ns : Namespaces) : SkelRun :=
  match t.getCmdArgs with
  | .error e =>
    if e.code = 4 ∧ t.getenv b!"CNI_COMMAND" = [] ∧ about ≠ [] then
      { stderr := about ++ b!"\nCNI protocol versions supported: " ++ joinWith b!", " vi.supported ++ b!"\n" }
    else { out := .error e }
  | .ok (cmd, a) =>
    if cmd = b!"ADD" then runAttach ns a vi .add funcs.add
    else if cmd = b!"CHECK" then runGated a vi b!"0.4.0" b!"CHECK" .check funcs.check
    else if cmd = b!"DEL" then runAttach ns a vi .del funcs.del
    else if cmd = b!"GC" then runGated a vi b!"1.1.0" b!"GC" .gc funcs.gc
    else if cmd = b!"STATUS" then runGated a vi b!"1.1.0" b!"STATUS" .status funcs.status
    else if cmd = b!"VERSION" then t.runVersion vi
    else { out := .error { code := 4, msg := b!"unknown CNI_COMMAND: " ++ cmd } }

end Verif
