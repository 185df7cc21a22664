/- The command-line tool: cnitool/cnitool.go. -/
import Verif.Libcni.Api
import Verif.Libcni.Conf
import Verif.Types.Print
import Verif.Invoke.Exec

namespace Verif

/-- What cnitool/cnitool.go:62-136 `main` is started with: its arguments (the first is the program), its environment, the working
directory (`none`: unknown), the configuration files, and the SHA-512 function, which is not modelled. -/
structure ToolProc where
  args : List Bytes
  environ : List Bytes
  cwd : Option Bytes
  files : ConfFS
  sha512 : Bytes → Bytes

/-- How cnitool/cnitool.go:62-136 `main` ends: exit code, standard output, and the error it writes to standard error
(cnitool/cnitool.go:150-156 `exit`). The usage text is not represented. -/
structure ToolExit where
  code : Nat
  stdout : Bytes := []
  err : Option GoErr := none

/-- `os.LookupEnv`. Go standard library, used by cnitool/cnitool.go:62-136 `main`. -/
def lookupEnv (environ : List Bytes) (k : Bytes) : Option Bytes :=
  (environ.find? fun e => hasPrefix e (k ++ b!"=")).map fun e => e.drop (k.length + 1)

/-- `filepath.Abs`. Go standard library, used by cnitool/cnitool.go:62-136 `main`. -/
def absPath (cwd : Option Bytes) (path : Bytes) : Out Bytes :=
  if isRooted path then .ok (cleanPath path)
  else
    match cwd with
    | some d => .ok (joinPath d path)
    | none => .err (.text b!"getwd failed")

/-- The directory with the configurations in cnitool/cnitool.go:62-136 `main`. -/
def ToolProc.netDir (t : ToolProc) : Bytes :=
  if getenv t.environ b!"NETCONFPATH" = [] then b!"/etc/cni/net.d" else getenv t.environ b!"NETCONFPATH"

/-- `json.Unmarshal` into a map. Go standard library, used by cnitool/cnitool.go:62-136 `main`. -/
def unmarshalMap (b : Bytes) : Option (Option (GoMap Json)) := (Json.parse b).bind (decAnyMap none)

/-- The capability arguments in cnitool/cnitool.go:62-136 `main`. -/
def ToolProc.capArgs (t : ToolProc) : Out (GoMap Json) :=
  if getenv t.environ b!"CAP_ARGS" = [] then .ok []
  else
    match unmarshalMap (getenv t.environ b!"CAP_ARGS") with
    | some m => .ok (m.getD [])
    | none => .err (.text b!"invalid CAP_ARGS")

/-- The plugin arguments in cnitool/cnitool.go:62-136 `main`. -/
def ToolProc.cniArgs (t : ToolProc) : Out (List (Bytes × Bytes)) :=
  if getenv t.environ b!"CNI_ARGS" = [] then .ok []
  else
    match parseArgs (getenv t.environ b!"CNI_ARGS") with
    | some l => .ok l
    | none => .err (.text b!"invalid CNI_ARGS pair")

/-- What cnitool/cnitool.go:62-136 `main` prepares before it looks at the command: the network list, the runtime and the
attachment. -/
def ToolProc.prepare (t : ToolProc) (name netns : Bytes) : Out (NetConfList × CNIConfig × RuntimeConf) := do
  let list ← loadNetworkConf t.files t.netDir name
  let caps ← t.capArgs
  let args ← t.cniArgs
  let abs ← absPath t.cwd netns
  .ok (list, { path := splitList (getenv t.environ b!"CNI_PATH") },
    { containerID := cnitoolContainerID (t.sha512 abs), netNS := abs,
      ifName := (lookupEnv t.environ b!"CNI_IFNAME").getD b!"eth0", args := args, capArgs := caps })

/-- cnitool/cnitool.go:150-156 `exit`, and what was printed before. -/
def toolExit : Except GoErr Bytes → ToolExit
  | .ok out => { code := 0, stdout := out }
  | .error g => { code := 1, err := some g }

/-- What is printed for a result in cnitool/cnitool.go:62-136 `main`; an error of printing is ignored there. -/
def toolPrint : Option Result → Bytes
  | none => []
  | some r => r.printTo.getD []

/-- The `switch` of cnitool/cnitool.go:62-136 `main`. -/
def toolCommand (verb : Bytes) (list : NetConfList) (c : CNIConfig) (rt : RuntimeConf) : Prog ToolExit :=
  if verb = b!"add" then
    (c.addNetworkList list rt).attempt.bind fun x => .done (.ok (toolExit (x.map toolPrint)))
  else if verb = b!"check" then
    (c.checkNetworkList list rt).attempt.bind fun x => .done (.ok (toolExit (x.map fun _ => [])))
  else if verb = b!"del" then
    (c.delNetworkList list rt).attempt.bind fun x => .done (.ok (toolExit (x.map fun _ => [])))
  else if verb = b!"gc" then
    (c.gcNetworkList list none).attempt.bind fun x => .done (.ok (toolExit (x.map fun _ => [])))
  else if verb = b!"status" then
    (c.getStatusNetworkList list).attempt.bind fun x => .done (.ok (toolExit (x.map fun _ => [])))
  else .done (.ok { code := 0 })

/-- cnitool/cnitool.go:62-136 `main`, with cnitool/cnitool.go:138-148 `usage`, which needs the program's name. -/
def ToolProc.main (t : ToolProc) : Prog ToolExit :=
  match t.args with
  | [] => .done .panic
  | _ :: verb :: name :: netns :: _ =>
    match t.prepare name netns with
    | .ok (list, c, rt) => toolCommand verb list c rt
    | .err g => .done (.ok { code := 1, err := some g })
    | .panic => .done .panic
  | _ => .done (.ok { code := 1 })

end Verif
