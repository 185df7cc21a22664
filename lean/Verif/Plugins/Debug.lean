/-
The debug plugin (plugins/debug): prints its own input to a file, runs hooks and passes the previous result on.
Not modelled: what the hooks do and print, partial writes to the file, and how a namespace is entered (package ns of another
repository).
-/
import Verif.Types.PluginConf
import Verif.Types.GetResult
import Verif.Types.Print
import Verif.Skel.Skel

namespace Verif

/-- plugins/debug/main.go:33-39 `NetConf`: the embedded configuration and the plugin's own fields. -/
structure DebugConf where
  conf : PluginConf := {}
  cniOutput : Bytes := []
  addHooks : List (List Bytes) := []
  delHooks : List (List Bytes) := []
  checkHooks : List (List Bytes) := []
  deriving DecidableEq, Inhabited

/-- The JSON names of plugins/debug/main.go:33-39 `NetConf`, those of the embedded struct included. -/
def debugFields : List Bytes := pluginConfFields ++ [b!"cniOutput", b!"addHooks", b!"delHooks", b!"checkHooks"]

/-- `json.Unmarshal` into an empty plugins/debug/main.go:33-39 `NetConf`. The names of the embedded struct differ from the others in more
than case (`getField_debug`), so its fields are decoded as in `PluginConf` alone. -/
def decDebugConf (j : Json) : Option DebugConf := do
  let c ← decPluginConf j
  let ms ← structMembers j
  let o ← decAll decStr [] (getField debugFields b!"cniOutput" ms)
  let a ← decAll (decList (decStrList [])) [] (getField debugFields b!"addHooks" ms)
  let d ← decAll (decList (decStrList [])) [] (getField debugFields b!"delHooks" ms)
  let k ← decAll (decList (decStrList [])) [] (getField debugFields b!"checkHooks" ms)
  some { conf := c, cniOutput := o, addHooks := a, delHooks := d, checkHooks := k }

/-- plugins/debug/main.go:62-69 `parseConf`: `none` is a nil pointer. It comes with an error, or from the document `null` without
one; the callers ignore the error. -/
def debugParseConf (data : Bytes) : Option DebugConf :=
  match Json.parse data with
  | none => none
  | some .null => none
  | some j => decDebugConf j

/-- plugins/debug/main.go:45-60 `outputCmdArgs`: what is written. -/
def outputCmdArgs (a : CmdArgs) : Bytes :=
  b!"ContainerID: " ++ a.containerID ++ b!"\nNetns: " ++ a.netns ++ b!"\nIfName: " ++ a.ifName ++ b!"\nArgs: " ++ a.args ++
  b!"\nPath: " ++ a.path ++ b!"\nStdinData: " ++ a.stdinData ++ b!"\n----------------------\n"

/-- plugins/debug/main.go:71-79 `getResult`, used as by `PrintResult`: a nil result is a panic there, and so is converting the nil
result that an unparsable previous result leaves. -/
def debugGetResult (c : PluginConf) : Out R100 :=
  match c.rawPrev with
  | none => .ok {}
  | some _ =>
    match (parsePrevResult c).1.prevResult with
    | none => .panic
    | some r =>
      match newResultFromResult100 r with
      | .ok x => .ok x
      | _ => .panic

/-- The loop in plugins/debug/main.go:81-100 `executeHooks`: the commands run, and whether it gets to the end. An empty hook is an
index out of range. A failing command is not an error. -/
def runHooks : List (List Bytes) → List (List Bytes) × Bool
  | [] => ([], true)
  | [] :: _ => ([], false)
  | (cmd :: args) :: hs => ((cmd :: args) :: (runHooks hs).1, (runHooks hs).2)

/-- What the plugin finds: which files can be opened for appending, and which namespaces can be opened and entered. Seen by
plugins/debug/main.go:102-116 `cmdAdd` and plugins/debug/main.go:81-100 `executeHooks`. -/
structure DebugWorld where
  opens : Bytes → Bool
  enters : Bytes → Bool

/-- What is seen of a call: the texts appended to files, the commands run, and what is printed or how it ends.
plugins/debug/main.go:102-116 `cmdAdd`. -/
structure DebugRun where
  written : List (Bytes × Bytes) := []
  hooks : List (List Bytes) := []
  out : Out Bytes

/-- plugins/debug/main.go:81-100 `executeHooks`: nothing happens if the namespace cannot be entered. -/
def executeHooks (w : DebugWorld) (netns : Bytes) (hooks : List (List Bytes)) : List (List Bytes) × Bool :=
  if w.enters netns then runHooks hooks else ([], true)

/-- The part of plugins/debug/main.go:102-116 `cmdAdd` that all three callbacks share: the output file, the hooks, and printing a result. -/
def debugRun (w : DebugWorld) (title : Bytes) (a : CmdArgs) (c : DebugConf) (hooks : List (List Bytes)) (res : Out R100) : DebugRun :=
  { written := if c.cniOutput ≠ [] ∧ w.opens c.cniOutput = true then [(c.cniOutput, title ++ b!"\n" ++ outputCmdArgs a)] else []
    hooks := (executeHooks w a.netns hooks).1
    out := if (executeHooks w a.netns hooks).2 then res >>= fun x => printResult (.v100 x) c.conf.cniVersion else .panic }

/-- plugins/debug/main.go:102-116 `cmdAdd`. -/
def debugAdd (w : DebugWorld) (a : CmdArgs) : DebugRun :=
  match debugParseConf a.stdinData with
  | none => { out := .panic }
  | some c => debugRun w b!"CmdAdd" a c c.addHooks (debugGetResult c.conf)

/-- plugins/debug/main.go:118-132 `cmdDel`. -/
def debugDel (w : DebugWorld) (a : CmdArgs) : DebugRun :=
  match debugParseConf a.stdinData with
  | none => { out := .panic }
  | some c => debugRun w b!"CmdDel" a c c.delHooks (.ok {})

/-- plugins/debug/main.go:134-148 `cmdCheck`. -/
def debugCheck (w : DebugWorld) (a : CmdArgs) : DebugRun :=
  match debugParseConf a.stdinData with
  | none => { out := .panic }
  | some c => debugRun w b!"CmdCheck" a c c.checkHooks (.ok {})

/-- The callbacks of plugins/debug/main.go:41-43 `main`; it has none for GC and STATUS. -/
def debugCall (w : DebugWorld) : Callback → CmdArgs → DebugRun
  | .add, a => debugAdd w a
  | .del, a => debugDel w a
  | .check, a => debugCheck w a
  | _, _ => { out := .ok [] }

/-- What a callback returns once it has printed. plugins/debug/main.go:102-116 `cmdAdd`. -/
def DebugRun.returns (r : DebugRun) : Out Unit := r.out >>= fun _ => .ok ()

/-- What a callback has printed. plugins/debug/main.go:102-116 `cmdAdd`. -/
def DebugRun.printed (r : DebugRun) : Bytes := r.out.toOption.getD []

/-- plugins/debug/main.go:41-43 `main`. -/
def debugFuncs (w : DebugWorld) : CNIFuncs :=
  { add := some fun a => (debugAdd w a).returns
    del := some fun a => (debugDel w a).returns
    check := some fun a => (debugCheck w a).returns }

/-- The version information of plugins/debug/main.go:41-43 `main`: pkg/version/version.go:39 `All`. -/
def debugInfo : PluginInfo := { cniVersion := currentVersion, supported := allVersions }

/-- The names of the embedded struct are looked up as if the others were not there. -/
theorem getField_debug (f : Bytes) (hf : f ∈ pluginConfFields) (ms : List (Bytes × Json)) :
    getField debugFields f ms = getField pluginConfFields f ms := by
  have key : ∀ k, fieldMatch debugFields k = some f ↔ fieldMatch pluginConfFields k = some f := by
    intro k
    have hd : ∀ a ∈ pluginConfFields, ∀ b ∈ [b!"cniOutput", b!"addHooks", b!"delHooks", b!"checkHooks"], foldKey a ≠ foldKey b := by decide
    unfold fieldMatch debugFields
    by_cases hk : k ∈ pluginConfFields
    · simp [hk]
    · by_cases hk2 : k ∈ [b!"cniOutput", b!"addHooks", b!"delHooks", b!"checkHooks"]
      · rw [if_pos (List.mem_append.2 (.inr hk2)), if_neg hk]
        constructor
        · intro h; cases h; exact absurd hf hk
        · intro h
          have := List.find?_some h
          simp only [decide_eq_true_eq] at this
          exact absurd this (hd f hf k hk2)
      · rw [if_neg (by rw [List.mem_append]; exact fun h => h.elim hk hk2), if_neg hk, List.find?_append]
        cases h1 : pluginConfFields.find? fun n => decide (foldKey n = foldKey k) with
        | some n => simp
        | none =>
          simp only [Option.none_or]
          constructor
          · intro h
            have hm := List.mem_of_find?_eq_some h
            exact absurd rfl (hd f hf f hm)
          · intro h; cases h
  simp only [getField, key]

end Verif
