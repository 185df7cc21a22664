/- pkg/version: version numbers, comparison, reconciliation and VERSION documents. -/
import Verif.Base.Err
import Verif.Json.Decode

namespace Verif

/-- `strconv.Atoi` (64-bit `int`): optional sign, at least one decimal digit, in range. Used by
pkg/version/plugin.go:87-118 `ParseVersion`. -/
def atoi (s : Bytes) : Option Int :=
  let (neg, ds) := match s with
    | 45 :: r => (true, r)
    | 43 :: r => (false, r)
    | _ => (false, s)
  if ds = [] ∨ ds.any (fun c => !isDigit c) then none
  else
    let v : Int := if neg then -(digitsVal ds : Int) else digitsVal ds
    if -9223372036854775808 ≤ v ∧ v ≤ 9223372036854775807 then some v else none

/-- pkg/version/plugin.go:87-118 `ParseVersion`; `none` stands for any of its errors. -/
def parseVersion (v : Bytes) : Option (Int × Int × Int) :=
  if v = [] then some (0, 1, 0)
  else match splitOn 46 v with
    | [a] => (atoi a).map fun x => (x, 0, 0)
    | [a, b] => (atoi a).bind fun x => (atoi b).map fun y => (x, y, 0)
    | [a, b, c] => (atoi a).bind fun x => (atoi b).bind fun y => (atoi c).map fun z => (x, y, z)
    | _ => none

/-- The error of a failed `ParseVersion` (its text is not modelled exactly).
pkg/version/plugin.go:87-118 `ParseVersion`. -/
def badVersion (v : Bytes) : GoErr := .text (b!"invalid version " ++ v)

/-- pkg/version/plugin.go:123-144 `GreaterThanOrEqualTo`. -/
def gte (v w : Bytes) : Out Bool :=
  match parseVersion v with
  | none => .err (badVersion v)
  | some (a1, a2, a3) =>
    match parseVersion w with
    | none => .err (badVersion w)
    | some (b1, b2, b3) =>
      if a1 > b1 then .ok true
      else if a1 = b1 then
        if a2 > b2 then .ok true
        else if a2 = b2 ∧ a3 ≥ b3 then .ok true
        else .ok false
      else .ok false

/-- pkg/version/plugin.go:147-168 `GreaterThan`. -/
def gt (v w : Bytes) : Out Bool :=
  match parseVersion v with
  | none => .err (badVersion v)
  | some (a1, a2, a3) =>
    match parseVersion w with
    | none => .err (badVersion w)
    | some (b1, b2, b3) =>
      if a1 > b1 then .ok true
      else if a1 = b1 then
        if a2 > b2 then .ok true
        else if a2 = b2 ∧ a3 > b3 then .ok true
        else .ok false
      else .ok false

/-- pkg/version/version.go:26-28 `Current`. -/
def currentVersion : Bytes := b!"1.1.0"

/-- pkg/version/version.go:39 `All`. -/
def allVersions : List Bytes :=
  [b!"0.1.0", b!"0.2.0", b!"0.3.0", b!"0.3.1", b!"0.4.0", b!"1.0.0", b!"1.1.0"]

/-- pkg/version/plugin.go:36-39 `pluginInfo`. -/
structure PluginInfo where
  cniVersion : Bytes := []
  supported : List Bytes := []
  deriving DecidableEq, Repr, Inhabited

/-- pkg/version/plugin.go:54-62 `PluginSupports`: panics without versions. -/
def pluginSupports (vs : List Bytes) : Out PluginInfo :=
  if vs = [] then .panic else .ok { cniVersion := currentVersion, supported := vs }

/-- pkg/version/version.go:43-56 `VersionsStartingFrom`. -/
def versionsStartingFrom (min : Bytes) : Out PluginInfo :=
  let step : Bool × List Bytes → Bytes → Bool × List Bytes := fun st v =>
    let ok := st.1 || v == min
    (ok, if ok then st.2 ++ [v] else st.2)
  pluginSupports (allVersions.foldl step (false, [])).2

/-- pkg/version/reconcile.go:19-22 `ErrorIncompatible`. -/
structure Incompatible where
  config : Bytes
  supported : List Bytes
  deriving DecidableEq, Repr

/-- pkg/version/reconcile.go:38-49 `CheckRaw`. -/
def checkRaw (cfg : Bytes) (supported : List Bytes) : Option Incompatible :=
  let rec loop : List Bytes → Option Incompatible
    | [] => some { config := cfg, supported := supported }
    | v :: vs => if cfg = v then none else loop vs
  loop supported

/-- The JSON fields of pkg/version/plugin.go:36-39 `pluginInfo`. -/
def infoFields : List Bytes := [b!"cniVersion", b!"supportedVersions"]

/-- pkg/version/plugin.go:44-46 `pluginInfo.Encode`: one JSON line. -/
def PluginInfo.json (p : PluginInfo) : Json :=
  .obj ([(b!"cniVersion", .str p.cniVersion)] ++ jopt (p.supported ≠ []) b!"supportedVersions" (jStrList p.supported))
/-- The document written by pkg/version/plugin.go:44-46 `pluginInfo.Encode`. -/
def PluginInfo.encode (p : PluginInfo) : Bytes := p.json.print ++ [10]

/-- pkg/version/plugin.go:67-83 `PluginDecoder.Decode`. -/
def decodePluginInfo (b : Bytes) : Out PluginInfo := do
  let j ← Out.ofOption b!"decoding version info: invalid JSON" (Json.parse b)
  let ms ← Out.ofOption b!"decoding version info: not an object" (structMembers j)
  let v ← Out.ofOption b!"decoding version info: bad cniVersion" (decAll decStr [] (getField infoFields b!"cniVersion" ms))
  let s ← Out.ofOption b!"decoding version info: bad supportedVersions"
    (decAll decStrList [] (getField infoFields b!"supportedVersions" ms))
  if v = [] then .err (.text b!"decoding version info: missing field cniVersion")
  else if s = [] then
    if v = b!"0.2.0" then pluginSupports [b!"0.1.0", b!"0.2.0"]
    else .err (.text b!"decoding version info: missing field supportedVersions")
  else .ok { cniVersion := v, supported := s }

/-- pkg/types/create/create.go:30-42 `DecodeVersion`; pkg/version/conf.go:24-26 `ConfigDecoder.Decode` is the same. -/
def decodeVersion (b : Bytes) : Out Bytes :=
  match Json.parse b with
  | none => .err (.text b!"decoding version from network config: invalid JSON")
  | some j =>
    match structMembers j with
    | none => .err (.text b!"decoding version from network config: not an object")
    | some ms =>
      match decAll decStr [] (getField [b!"cniVersion"] b!"cniVersion" ms) with
      | none => .err (.text b!"decoding version from network config: bad cniVersion")
      | some v => .ok (if v = [] then b!"0.1.0" else v)

end Verif
