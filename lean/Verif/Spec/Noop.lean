/- What a user of the test plugin (plugins/test/noop) relies on. -/
import Verif.Plugins.NoopRecord
import Verif.Spec.EndToEnd

namespace Verif.Spec

/-- The arguments as the plugin's files hold them: the input exactly, texts with what is not UTF-8 replaced. -/
def recordedArgs (a : CmdArgs) : CmdArgs :=
  { containerID := sanitize a.containerID
    netns := sanitize a.netns
    ifName := sanitize a.ifName
    args := sanitize a.args
    path := sanitize a.path
    netnsOverride := sanitize a.netnsOverride
    stdinData := a.stdinData }

/-- What one request adds to the log. -/
def logEntry (command : Bytes) (a : CmdArgs) : NoopLogEntry := { command := command, cmdArgs := recordedArgs a }

/-- The log at `p` holds these entries. An empty file is an empty log. -/
def LogHolds (fs : FS) (p : Bytes) (l : List NoopLogEntry) : Prop := (fs p = some [] ∧ l = []) ∨ readCommandLog fs p = some l

/-- The request tells the plugin to use the debug file `path`, with the configuration `n`, and the file holds `d`. -/
structure NoopTold (fs : FS) (a : CmdArgs) (path : Bytes) (n : NoopConf) (d : NoopFile) : Prop where
  conf : noopGetConfig a.stdinData a.args = .ok (path, n)
  given : path ≠ []
  file : readDebug fs path = some d

/-- The files after the plugin has served these requests one after the other. -/
def served (flt : WriteFaults) (fs : FS) (reqs : List (Callback × CmdArgs)) : FS :=
  reqs.foldl (fun fs r => (debugBehavior flt fs (noopCommand r.1) r.2).files) fs

/-- A request that is to be logged in `log`: it names a debug file that can be read and written, and the log. -/
def Logging (flt : WriteFaults) (fs : FS) (log : Bytes) (a : CmdArgs) : Prop :=
  ∃ path n d, NoopTold fs a path n d ∧ n.commandLog = log ∧ path ≠ log ∧ flt path = none

/-- The request names this debug file. -/
def Names (a : CmdArgs) (path : Bytes) : Prop := ∃ n, noopGetConfig a.stdinData a.args = .ok (path, n)

/-- The files after these processes of the plugin have run one after the other. -/
def ran (flt : WriteFaults) (ns : Namespaces) (fs : FS) (ts : List SkelProc) : FS :=
  ts.foldl (fun fs t => (noopProcess flt fs t ns).files) fs

/-- A request that is to be logged, to a plugin that is not told to support other versions than it does. -/
def LoggingStd (flt : WriteFaults) (fs : FS) (log : Bytes) (a : CmdArgs) : Prop :=
  ∃ path n d, NoopTold fs a path n d ∧ n.commandLog = log ∧ path ≠ log ∧ flt path = none ∧ d.reportVersionSupport = none

/-- `x` is the entry for the invocation `e` of a plugin with the command `cmd`, about the attachment of `rt`. -/
structure EntryOf (c : CNIConfig) (cmd : Bytes) (rt : RuntimeConf) (e : ExecEv) (x : NoopLogEntry) : Prop where
  command : x.command = cmd
  containerID : x.cmdArgs.containerID = sanitize rt.containerID
  netns : x.cmdArgs.netns = sanitize rt.netNS
  ifName : x.cmdArgs.ifName = sanitize rt.ifName
  args : x.cmdArgs.args = sanitize (pairsText rt.args)
  path : x.cmdArgs.path = sanitize (joinWith b!":" c.path)
  stdinData : x.cmdArgs.stdinData = e.stdin

/-- These entries are of the invocations `es`, one for each and in their order. -/
def EntriesOf (c : CNIConfig) (cmd : Bytes) (rt : RuntimeConf) (es : List ExecEv) (xs : List NoopLogEntry) : Prop :=
  xs.length = es.length ∧ ∀ (i : Nat) e x, es[i]? = some e → xs[i]? = some x → EntryOf c cmd rt e x

/-- `ts` are the processes of the invocations `es`. -/
def ProcessesOf (enum : MapEnum) (environ : List Bytes) (es : List ExecEv) (ts : List SkelProc) : Prop :=
  ts.length = es.length ∧ ∀ (i : Nat) e t, es[i]? = some e → ts[i]? = some t → ProcessOf enum environ e t

end Verif.Spec
