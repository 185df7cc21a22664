/-
The test plugin of the repository (plugins/test/noop) with all its files: the debug file it is told to behave by and in which it
records the request, and the command log to which it appends. Errors of writing to stdout and stderr are not modelled.
-/
import Verif.Plugins.Noop

namespace Verif

/-- plugins/test/noop/debug/debug.go:28-42 `Debug`. `none` for the versions is a nil slice. -/
structure NoopFile where
  reportResult : Bytes := []
  reportError : Bytes := []
  reportErrorCode : Nat := 0
  reportStderr : Bytes := []
  reportVersionSupport : Option (List Bytes) := none
  exitWithCode : Int := 0
  command : Bytes := []
  cmdArgs : CmdArgs := {}
  deriving DecidableEq, Inhabited

/-- plugins/test/noop/debug/debug.go:45-48 `CmdLogEntry`. -/
structure NoopLogEntry where
  command : Bytes := []
  cmdArgs : CmdArgs := {}
  deriving DecidableEq, Inhabited

/-- The JSON fields of pkg/skel/skel.go:37-45 `CmdArgs`. -/
def cmdArgsFields : List Bytes :=
  [b!"ContainerID", b!"Netns", b!"IfName", b!"Args", b!"Path", b!"NetnsOverride", b!"StdinData"]

/-- Encoding of pkg/skel/skel.go:37-45 `CmdArgs`. (A nil `StdinData`, which no plugin is given, is encoded like an empty one.) -/
def jCmdArgs (a : CmdArgs) : Json :=
  .obj [(b!"ContainerID", .str a.containerID), (b!"Netns", .str a.netns), (b!"IfName", .str a.ifName), (b!"Args", .str a.args),
    (b!"Path", .str a.path), (b!"NetnsOverride", .str a.netnsOverride), (b!"StdinData", jBytes a.stdinData)]

/-- Decoding of pkg/skel/skel.go:37-45 `CmdArgs`. -/
def decCmdArgs (cur : CmdArgs) (j : Json) : Option CmdArgs := do
  let ms ← structMembers j
  let c ← decAll decStr cur.containerID (getField cmdArgsFields b!"ContainerID" ms)
  let n ← decAll decStr cur.netns (getField cmdArgsFields b!"Netns" ms)
  let i ← decAll decStr cur.ifName (getField cmdArgsFields b!"IfName" ms)
  let a ← decAll decStr cur.args (getField cmdArgsFields b!"Args" ms)
  let p ← decAll decStr cur.path (getField cmdArgsFields b!"Path" ms)
  let o ← decAll decStr cur.netnsOverride (getField cmdArgsFields b!"NetnsOverride" ms)
  let s ← decAll decBytes cur.stdinData (getField cmdArgsFields b!"StdinData" ms)
  some { containerID := c, netns := n, ifName := i, args := a, path := p, netnsOverride := o, stdinData := s }

/-- Into a `uint` field, as `ReportErrorCode` of plugins/test/noop/debug/debug.go:28-42 `Debug`. -/
def decUint (cur : Nat) : Json → Option Nat
  | .null => some cur
  | .num l => parseUint64 l
  | _ => none

/-- Into a `[]string` field of which nil is told apart, as `ReportVersionSupport` of plugins/test/noop/debug/debug.go:28-42 `Debug`. -/
def decVersions (_cur : Option (List Bytes)) : Json → Option (Option (List Bytes))
  | .null => some none
  | .arr l => (decStrElems l).map some
  | _ => none

/-- Encoding of such a field, as `ReportVersionSupport` of plugins/test/noop/debug/debug.go:28-42 `Debug`. -/
def jVersions : Option (List Bytes) → Json
  | none => .null
  | some l => jStrList l

/-- The JSON fields of plugins/test/noop/debug/debug.go:28-42 `Debug`. -/
def noopFileFields : List Bytes :=
  [b!"ReportResult", b!"ReportError", b!"ReportErrorCode", b!"ReportStderr", b!"ReportVersionSupport", b!"ExitWithCode", b!"Command",
    b!"CmdArgs"]

/-- Encoding of plugins/test/noop/debug/debug.go:28-42 `Debug`. -/
def NoopFile.json (d : NoopFile) : Json :=
  .obj [(b!"ReportResult", .str d.reportResult), (b!"ReportError", .str d.reportError),
    (b!"ReportErrorCode", .num (natDigits d.reportErrorCode)), (b!"ReportStderr", .str d.reportStderr),
    (b!"ReportVersionSupport", jVersions d.reportVersionSupport),
    (b!"ExitWithCode", jInt d.exitWithCode), (b!"Command", .str d.command), (b!"CmdArgs", jCmdArgs d.cmdArgs)]

/-- Decoding of plugins/test/noop/debug/debug.go:28-42 `Debug`. -/
def decNoopFile (j : Json) : Option NoopFile := do
  let ms ← structMembers j
  let r ← decAll decStr [] (getField noopFileFields b!"ReportResult" ms)
  let e ← decAll decStr [] (getField noopFileFields b!"ReportError" ms)
  let k ← decAll decUint 0 (getField noopFileFields b!"ReportErrorCode" ms)
  let s ← decAll decStr [] (getField noopFileFields b!"ReportStderr" ms)
  let v ← decAll decVersions none (getField noopFileFields b!"ReportVersionSupport" ms)
  let x ← decAll decInt 0 (getField noopFileFields b!"ExitWithCode" ms)
  let c ← decAll decStr [] (getField noopFileFields b!"Command" ms)
  let a ← decAll decCmdArgs {} (getField noopFileFields b!"CmdArgs" ms)
  some { reportResult := r
         reportError := e
         reportErrorCode := k
         reportStderr := s
         reportVersionSupport := v
         exitWithCode := x
         command := c
         cmdArgs := a }

/-- Encoding of plugins/test/noop/debug/debug.go:45-48 `CmdLogEntry`. -/
def NoopLogEntry.json (e : NoopLogEntry) : Json := .obj [(b!"Command", .str e.command), (b!"CmdArgs", jCmdArgs e.cmdArgs)]

/-- Decoding of plugins/test/noop/debug/debug.go:45-48 `CmdLogEntry`. -/
def decNoopLogEntry (j : Json) : Option NoopLogEntry := do
  let ms ← structMembers j
  let c ← decAll decStr [] (getField [b!"Command", b!"CmdArgs"] b!"Command" ms)
  let a ← decAll decCmdArgs {} (getField [b!"Command", b!"CmdArgs"] b!"CmdArgs" ms)
  some { command := c, cmdArgs := a }

/-- Decoding of plugins/test/noop/debug/debug.go:51 `CmdLog`. -/
def decNoopLog : Json → Option (List NoopLogEntry)
  | .null => some []
  | .arr l => l.mapM decNoopLogEntry
  | _ => none

/-- What writing a file does, by its name: nothing is said of a write that succeeds; one that fails leaves this in the file.
The `os.WriteFile` of plugins/test/noop/debug/debug.go:70-82 `Debug.WriteDebug` and :85-101 `WriteCommandLog`. -/
abbrev WriteFaults := Bytes → Option (Option Bytes)

/-- The `os.WriteFile` of plugins/test/noop/debug/debug.go:70-82 `Debug.WriteDebug` and :85-101 `WriteCommandLog`: the files after it and
whether it succeeded. -/
def osWrite (flt : WriteFaults) (fs : FS) (p c : Bytes) : FS × Bool :=
  match flt p with
  | none => (fs.set p (some c), true)
  | some left => (fs.set p left, false)

/-- plugins/test/noop/debug/debug.go:54-67 `ReadDebug`. -/
def readDebug (fs : FS) (p : Bytes) : Option NoopFile := (fs p).bind fun b => (Json.parse b).bind decNoopFile

/-- plugins/test/noop/debug/debug.go:70-82 `Debug.WriteDebug`. -/
def writeDebug (flt : WriteFaults) (fs : FS) (p : Bytes) (d : NoopFile) : FS × Bool := osWrite flt fs p d.json.print

/-- plugins/test/noop/debug/debug.go:85-101 `WriteCommandLog`. -/
def writeCommandLog (flt : WriteFaults) (fs : FS) (p : Bytes) (e : NoopLogEntry) : FS × Bool :=
  match fs p with
  | none => (fs, false)
  | some buf =>
    match (if buf = [] then some [] else (Json.parse buf).bind decNoopLog) with
    | none => (fs, false)
    | some cmds => osWrite flt fs p (Json.arr ((cmds ++ [e]).map NoopLogEntry.json)).print

/-- plugins/test/noop/debug/debug.go:103-113 `ReadCommandLog`. -/
def readCommandLog (fs : FS) (p : Bytes) : Option (List NoopLogEntry) := (fs p).bind fun b => (Json.parse b).bind decNoopLog

/-- How plugins/test/noop/main.go:92-181 `debugBehavior` ends: it returns, or the process exits with a code of its own. -/
inductive NoopEnd where
  | returned (o : Out Unit)
  | exited (code : Int)
  deriving Inhabited

/-- What plugins/test/noop/main.go:92-181 `debugBehavior` does. -/
structure NoopEffect where
  files : FS
  stdout : Bytes := []
  stderr : Bytes := []
  ending : NoopEnd

/-- plugins/test/noop/main.go:92-181 `debugBehavior`, from the switch on: what goes to stdout, and the end. -/
def noopReport (d : NoopFile) (c : PluginConf) : Bytes × NoopEnd :=
  let finish : NoopEnd := if d.exitWithCode > 0 then .exited d.exitWithCode else .returned (.ok ())
  if d.reportError ≠ [] then
    ([], .returned (.err (.cni { code := if d.reportErrorCode = 0 then 999 else d.reportErrorCode, msg := d.reportError })))
  else if d.reportResult = b!"PASSTHROUGH" ∨ d.reportResult = b!"INJECT-DNS" then
    match noopPass d.reportResult c with
    | .ok b => (b, finish)
    | .err e => ([], .returned (.err e))
    | .panic => ([], .returned .panic)
  else (d.reportResult, finish)

/-- plugins/test/noop/main.go:92-181 `debugBehavior`. -/
def debugBehavior (flt : WriteFaults) (fs : FS) (command : Bytes) (a : CmdArgs) : NoopEffect :=
  match noopGetConfig a.stdinData a.args with
  | .panic => { files := fs, ending := .returned .panic }
  | .err e => { files := fs, ending := .returned (.err e) }
  | .ok (path, n) =>
    if path = [] then
      { files := fs, stdout := b!"{}", stderr := b!"CNI_ARGS or config empty, no debug behavior\n", ending := .returned (.ok ()) }
    else
      match readDebug fs path with
      | none => { files := fs, ending := .returned (.err (.text b!"cannot read the debug file")) }
      | some d0 =>
        let d := { d0 with cmdArgs := a, command := command }
        let w := writeDebug flt fs path d
        if w.2 = false then { files := w.1, ending := .returned (.err (.text b!"cannot write the debug file")) }
        else
          let l := if n.commandLog = [] then (w.1, true)
            else writeCommandLog flt w.1 n.commandLog { command := command, cmdArgs := a }
          if l.2 = false then { files := l.1, ending := .returned (.err (.text b!"cannot write the command log")) }
          else { files := l.1, stdout := (noopReport d n.conf).1, stderr := d.reportStderr, ending := (noopReport d n.conf).2 }

/-- The command each callback of plugins/test/noop/main.go:205-207 `cmdAdd`, :209-211 `cmdCheck`, :213-215 `cmdDel`, :217-219 `cmdGC` and :221-223 `cmdStatus` records. -/
def noopCommand : Callback → Bytes
  | .add => b!"ADD"
  | .check => b!"CHECK"
  | .del => b!"DEL"
  | .gc => b!"GC"
  | .status => b!"STATUS"

/-- plugins/test/noop/main.go:183-203 `debugGetSupportedVersions`; `none` is a panic. -/
def noopVersions (fs : FS) (cniArgs stdin : Bytes) : Option (List Bytes) :=
  if cniArgs = [] then some noopInfo.supported
  else
    match noopGetConfig stdin cniArgs with
    | .ok (path, _) => (readDebug fs path).map fun d => d.reportVersionSupport.getD noopInfo.supported
    | _ => none

/-- The callbacks of plugins/test/noop/main.go:248-263 `main`. (A process that exits in a callback does not get the answer.) -/
def noopCallbacks (flt : WriteFaults) (fs : FS) : CNIFuncs :=
  let f : Callback → CmdArgs → Out Unit := fun cb a =>
    match (debugBehavior flt fs (noopCommand cb) a).ending with
    | .returned o => o
    | .exited _ => .ok ()
  { add := some (f .add), check := some (f .check), del := some (f .del), gc := some (f .gc), status := some (f .status) }

/-- What a process of the plugin leaves. plugins/test/noop/main.go:248-263 `main`. -/
structure NoopDone where
  exit : PluginExit
  stderr : Bytes := []
  files : FS

/-- The process of plugins/test/noop/main.go:248-263 `main` that has these versions. An exit code is one byte. -/
def noopServe (flt : WriteFaults) (fs : FS) (t : SkelProc) (ns : Namespaces) (vi : PluginInfo) : NoopDone :=
  let about := b!"CNI noop plugin v0.7.0"
  let r := t.pluginMain (noopCallbacks flt fs) vi about ns
  match r.calls with
  | [] => { exit := t.mainFuncs (noopCallbacks flt fs) vi about ns fun _ => [], stderr := r.stderr, files := fs }
  | (cb, a) :: _ =>
    let e := debugBehavior flt fs (noopCommand cb) a
    match e.ending with
    | .exited code => { exit := { stdout := e.stdout, status := code.toNat % 256 }, stderr := e.stderr, files := e.files }
    | .returned _ =>
      { exit := t.mainFuncs (noopCallbacks flt fs) vi about ns fun _ => e.stdout, stderr := e.stderr ++ r.stderr, files := e.files }

/-- plugins/test/noop/main.go:248-263 `main`. A panic ends the process with status 2. (What a panic writes to stderr and the errors of the
pipe of `saveStdin` are not modelled.) -/
def noopProcess (flt : WriteFaults) (fs : FS) (t : SkelProc) (ns : Namespaces) : NoopDone :=
  match t.stdin with
  | .error _ => { exit := { stdout := [], status := 2 }, files := fs }
  | .ok stdin =>
    match noopVersions fs (t.getenv b!"CNI_ARGS") stdin with
    | none => { exit := { stdout := [], status := 2 }, files := fs }
    | some vs =>
      match pluginSupports vs with
      | .ok vi => noopServe flt fs t ns vi
      | _ => { exit := { stdout := [], status := 2 }, files := fs }

end Verif
