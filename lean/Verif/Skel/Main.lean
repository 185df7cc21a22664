/- pkg/skel: the process around the main function. -/
import Verif.Skel.Skel
import Verif.Types.Print
import Verif.Invoke.Exec

namespace Verif

/-- What is left of a plugin process: what it wrote to stdout and its exit status. The process
running pkg/skel/skel.go:410-417 `PluginMainFuncs`. -/
structure PluginExit where
  stdout : Bytes
  status : Nat
  deriving DecidableEq, Repr, Inhabited

/-- pkg/skel/skel.go:410-417 `PluginMainFuncs`. `printed` is what a callback writes to stdout when called. A panic ends the
process with status 2. (An error of writing to stdout is not modelled.) -/
def SkelProc.mainFuncs (t : SkelProc) (funcs : CNIFuncs) (vi : PluginInfo) (about : Bytes) (ns : Namespaces)
    (printed : Callback × CmdArgs → Bytes) : PluginExit :=
  let r := t.pluginMain funcs vi about ns
  let before := (r.calls.map printed).flatten ++ r.stdout
  match r.out with
  | .success => { stdout := before, status := 0 }
  | .error e => { stdout := before ++ e.printed, status := 1 }
  | .crash => { stdout := before, status := 2 }

/-- `exec.Cmd.Run` on such a process: a non-zero exit status is an error. As seen by
pkg/invoke/raw_exec.go:34-70 `RawExec.ExecPlugin`. -/
def PluginExit.runResult (x : PluginExit) (stderr : Bytes) : RunResult :=
  { err := if x.status = 0 then none else some (b!"exit status " ++ natDigits x.status), stdout := x.stdout, stderr := stderr }

end Verif
