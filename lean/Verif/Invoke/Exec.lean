/- Finding and executing plugin binaries: pkg/invoke/find.go, pkg/invoke/raw_exec.go. -/
import Verif.Base.Path
import Verif.Json.Decode
import Verif.Base.Err

namespace Verif

/-- pkg/invoke/os_unix.go:21 `ExecutableFileExtensions`, an exported variable; this is its initial value. -/
def unixExtensions : List Bytes := [[]]

/-- The inner loop of pkg/invoke/find.go:25-48 `FindInPath`, over the extensions. `isRegular p` is what `os.Stat` says about `p`: it
exists and is a regular file. -/
def findExt (isRegular : Bytes → Bool) (base : Bytes) : List Bytes → Option Bytes
  | [] => none
  | x :: xs => if isRegular (base ++ x) then some (base ++ x) else findExt isRegular base xs

/-- The outer loop of pkg/invoke/find.go:25-48 `FindInPath`, over the directories. -/
def findLoop (exts : List Bytes) (isRegular : Bytes → Bool) (plugin : Bytes) : List Bytes → Option Bytes
  | [] => none
  | p :: ps =>
    match findExt isRegular (joinPath p plugin) exts with
    | some q => some q
    | none => findLoop exts isRegular plugin ps

/-- pkg/invoke/find.go:25-48 `FindInPath`; `exts` is the value of `ExecutableFileExtensions`. The path separator is that of Unix. -/
def findInPath (exts : List Bytes) (isRegular : Bytes → Bool) (plugin : Bytes) (paths : List Bytes) : Except GoErr Bytes :=
  if plugin = [] then .error (.text b!"no plugin name provided")
  else if plugin.contains 47 then .error (.text (b!"invalid plugin name: " ++ plugin))
  else if paths = [] then .error (.text b!"no paths provided")
  else match findLoop exts isRegular plugin paths with
    | some p => .ok p
    | none => .error (.text (b!"failed to find plugin in path: " ++ plugin))

/-- What one `c.Run()` does: its error (the text), if any, and what the process wrote. The `c.Run()`
of pkg/invoke/raw_exec.go:34-70 `RawExec.ExecPlugin`. -/
structure RunResult where
  err : Option Bytes
  stdout : Bytes := []
  stderr : Bytes := []
  deriving DecidableEq, Repr, Inhabited

/-- `strconv.ParseUint(lit, 10, 64)` on a JSON number literal. For the `Code` field of
pkg/types/types.go:247-251 `Error`, decoded in pkg/invoke/raw_exec.go:72-84 `RawExec.pluginErr`. -/
def parseUint64 (lit : Bytes) : Option Nat :=
  if lit = [] ∨ lit.any (fun c => !isDigit c) then none
  else if digitsVal lit < 18446744073709551616 then some (digitsVal lit) else none

/-- The JSON fields of pkg/types/types.go:247-251 `Error`. -/
def errFields : List Bytes := [b!"code", b!"msg", b!"details"]

/-- `json.Unmarshal` storing one member into a pkg/types/types.go:247-251 `Error`; the flag says that some value
had the wrong type (decoding goes on after that). -/
def decErrMember (st : CniErr × Bool) (m : Bytes × Json) : CniErr × Bool :=
  if fieldMatch errFields m.1 = some b!"code" then
    match m.2 with
    | .null => st
    | .num l => match parseUint64 l with
      | some n => ({ st.1 with code := n }, st.2)
      | none => (st.1, true)
    | _ => (st.1, true)
  else if fieldMatch errFields m.1 = some b!"msg" then
    match m.2 with
    | .null => st
    | .str s => ({ st.1 with msg := s }, st.2)
    | _ => (st.1, true)
  else if fieldMatch errFields m.1 = some b!"details" then
    match m.2 with
    | .null => st
    | .str s => ({ st.1 with details := s }, st.2)
    | _ => (st.1, true)
  else st

/-- `json.Unmarshal` into an empty pkg/types/types.go:247-251 `Error`: what is stored, and whether it failed. -/
def decErrDoc (b : Bytes) : CniErr × Bool :=
  match Json.parse b with
  | none => ({ code := 0, msg := [] }, true)
  | some j =>
    match structMembers j with
    | none => ({ code := 0, msg := [] }, true)
    | some ms => ms.foldl decErrMember ({ code := 0, msg := [] }, false)

/-- pkg/invoke/raw_exec.go:72-84 `RawExec.pluginErr`. `quote` is Go's `%q` formatting; the JSON decoder's own error text at
the end of the third message is left out. -/
def pluginErr (quote : Bytes → Bytes) (err stdout stderr : Bytes) : CniErr :=
  if stdout = [] then
    if stderr = [] then { code := 0, msg := b!"netplugin failed with no error message: " ++ err }
    else { code := 0, msg := b!"netplugin failed: " ++ quote stderr }
  else
    let d := decErrDoc stdout
    if d.2 then { d.1 with msg := b!"netplugin failed but error parsing its diagnostic message " ++ quote stdout }
    else d.1

/-- The retry loop of pkg/invoke/raw_exec.go:34-70 `RawExec.ExecPlugin`: `fuel` attempts left, this is attempt `i`;
`out`/`errOut` are the buffers so far. Returns the outcome and what is copied to the caller's stderr. That each
attempt is given the same stdin, and any effect of reusing one `exec.Cmd`, is inside `run`. -/
def rawExecLoop (quote : Bytes → Bytes) (run : Nat → RunResult) : Nat → Nat → Bytes → Bytes → Except CniErr (Bytes × Bytes)
  | 0, _, out, errOut => .ok (out, errOut)
  | fuel + 1, i, out, errOut =>
    let r := run i
    match r.err with
    | none => .ok (out ++ r.stdout, errOut ++ r.stderr)
    | some e =>
      if containsSub e b!"text file busy" then
        rawExecLoop quote run fuel (i + 1) (out ++ r.stdout) (errOut ++ r.stderr)
      else .error (pluginErr quote e (out ++ r.stdout) (errOut ++ r.stderr))

/-- pkg/invoke/raw_exec.go:34-70 `RawExec.ExecPlugin`: six attempts. -/
def rawExec (quote : Bytes → Bytes) (run : Nat → RunResult) : Except CniErr (Bytes × Bytes) :=
  rawExecLoop quote run 6 0 [] []

/-- `fmt.Sprintf("%x", b)`. Used (as `%x`) where cnitool names its container,
cnitool/cnitool.go:62-136 `main`. -/
def hexBytes (b : Bytes) : Bytes := b.flatMap fun x => [hexDigit (x.toNat / 16), hexDigit (x.toNat % 16)]

/-- The container ID of cnitool/cnitool.go:62-136 `main`; `hash` is the SHA-512 sum of the namespace path. -/
def cnitoolContainerID (hash : Bytes) : Bytes := b!"cnitool-" ++ hexBytes (hash.take 10)

end Verif
