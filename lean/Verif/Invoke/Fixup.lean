/- Interpreting a plugin's output: pkg/invoke/exec.go, pkg/invoke/raw_exec.go `pluginErr`. -/
import Verif.Types.ResultJson
import Verif.Version.Version

namespace Verif

/-- pkg/invoke/exec.go:41-78 `fixupResultVersion`. -/
def fixupResultVersion (netconf result : Bytes) : Out (Bytes × Bytes) := do
  let confVersion ← decodeVersion netconf
  match Json.parse result with
  | none => .err (.text b!"failed to unmarshal raw result")
  | some j =>
    let raw : Option (GoMap Json) := match j with
      | .null => some []
      | .obj ms => match (Json.obj ms).toAny with
        | some (.obj m) => some m
        | _ => none
      | _ => none
    match raw with
    | none => .err (.text b!"failed to unmarshal raw result")
    | some m =>
      match GoMap.get? m b!"cniVersion" with
      | some (.str v) =>
        if v ≠ [] then .ok (v, result)
        else .ok (confVersion, (Json.obj (GoMap.insert m b!"cniVersion" (.str confVersion))).print)
      | _ => .ok (confVersion, (Json.obj (GoMap.insert m b!"cniVersion" (.str confVersion))).print)

/-- The tail of pkg/invoke/exec.go:121-137 `ExecPluginWithResult`, after a successful execution. -/
def resultOfOutput (netconf stdout : Bytes) : Out Result := do
  let (v, b) ← fixupResultVersion netconf stdout
  create v b

/-- pkg/types/create/create.go:53-59 `CreateFromBytes`. -/
def createFromBytes (b : Bytes) : Out Result := do
  let v ← decodeVersion b
  create v b

end Verif
