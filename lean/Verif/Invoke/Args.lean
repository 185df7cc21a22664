/- Plugin environment and CNI_ARGS: pkg/invoke/args.go, pkg/types/args.go, cnitool's parseArgs. -/
import Verif.Base.Err
import Verif.Base.GoMap

namespace Verif

/-- pkg/invoke/args.go:43-51 `Args`. -/
structure Args where
  command : Bytes := []
  containerID : Bytes := []
  netNS : Bytes := []
  pluginArgs : List (Bytes × Bytes) := []
  pluginArgsStr : Bytes := []
  ifName : Bytes := []
  path : Bytes := []
  deriving DecidableEq, Repr, Inhabited

/-- pkg/invoke/args.go:77-85 `stringify`. -/
def stringify (l : List (Bytes × Bytes)) : Bytes :=
  joinWith b!";" (l.map fun kv => joinWith b!"=" [kv.1, kv.2])

/-- The order in which Go enumerates a map: any permutation of its entries. The `range` over a map
in pkg/invoke/args.go:109-128 `dedupEnv`. -/
abbrev MapEnum := GoMap Bytes → List (Bytes × Bytes)

/-- The first loop of pkg/invoke/args.go:109-128 `dedupEnv`: entries without `=`, and the map of the others. -/
def dedupScan (env : List Bytes) : List Bytes × GoMap Bytes :=
  env.foldl (fun st kv =>
    match indexOf b!"=" kv with
    | none => (st.1 ++ [kv], st.2)
    | some eq => (st.1, GoMap.insert st.2 (kv.take eq) (kv.drop (eq + 1)))) ([], [])

/-- pkg/invoke/args.go:109-128 `dedupEnv`; `enum` is the iteration order over the map. -/
def dedupEnv (enum : MapEnum) (env : List Bytes) : List Bytes :=
  let st := dedupScan env
  st.1 ++ (enum st.2).map fun kv => kv.1 ++ b!"=" ++ kv.2

/-- pkg/invoke/args.go:56-74 `Args.AsEnv`; `environ` is `os.Environ()`. -/
def Args.asEnv (enum : MapEnum) (environ : List Bytes) (a : Args) : List Bytes :=
  let s := if a.pluginArgsStr = [] then stringify a.pluginArgs else a.pluginArgsStr
  dedupEnv enum (environ ++ [b!"CNI_COMMAND=" ++ a.command, b!"CNI_CONTAINERID=" ++ a.containerID,
    b!"CNI_NETNS=" ++ a.netNS, b!"CNI_ARGS=" ++ s, b!"CNI_IFNAME=" ++ a.ifName, b!"CNI_PATH=" ++ a.path])

/-- pkg/invoke/args.go:96-105 `DelegateArgs.AsEnv`. -/
def delegateAsEnv (enum : MapEnum) (environ : List Bytes) (command : Bytes) : List Bytes :=
  dedupEnv enum (environ ++ [b!"CNI_COMMAND=" ++ command])

/-- One pair in cnitool/cnitool.go:46-60 `parseArgs`. -/
def parsePair (pair : Bytes) : Option (Bytes × Bytes) :=
  match splitOn 61 pair with
  | [k, v] => if k = [] ∨ v = [] then none else some (k, v)
  | _ => none

/-- cnitool/cnitool.go:46-60 `parseArgs`; `none` is an error. -/
def parseArgs (args : Bytes) : Option (List (Bytes × Bytes)) := (splitOn 59 args).mapM parsePair

/-- A field of the struct given to `LoadArgs`: pkg/types/args.go:26 `UnmarshallableBool`,
pkg/types/args.go:45 `UnmarshallableString`, any other type with an `UnmarshalText` method that accepts the
texts `ok` (remembering the last one), or a type without one. -/
inductive ArgField where
  | bool (b : Bool)
  | str (s : Bytes)
  | custom (ok : Bytes → Bool) (last : Option Bytes)
  | noText
  deriving Inhabited

/-- `UnmarshalText` on a field (pkg/types/args.go:25-37, 44-48). -/
def ArgField.set : ArgField → Bytes → Option ArgField
  | .bool _, t =>
    let s := toLower t
    if s = b!"1" ∨ s = b!"true" then some (.bool true)
    else if s = b!"0" ∨ s = b!"false" then some (.bool false)
    else none
  | .str _, t => some (.str t)
  | .custom ok _, t => if ok t then some (.custom ok (some t)) else none
  | .noText, _ => none

/-- The struct given to `LoadArgs`: its (promoted) fields by Go name.
pkg/types/args.go:73-122 `LoadArgs`: its `container` argument (the embedded pkg/types/args.go:56-58 `CommonArgs` included).
-/
abbrev Container := GoMap ArgField

/-- The loop over the pairs in pkg/types/args.go:73-122 `LoadArgs`: the struct so far, the unknown pairs, error. -/
def loadPairs (c : Container) (unknown : List Bytes) : List Bytes → Container × List Bytes × Option GoErr
  | [] => (c, unknown, none)
  | pair :: ps =>
    match splitOn 61 pair with
    | [k, v] =>
      match GoMap.get? c k with
      | none => loadPairs c (unknown ++ [pair]) ps
      | some f =>
        match f.set v with
        | none => (c, unknown, some (.text (b!"ARGS: error parsing value of pair " ++ pair)))
        | some f' => loadPairs (GoMap.insert c k f') unknown ps
    | _ => (c, unknown, some (.text (b!"ARGS: invalid pair " ++ pair)))

/-- pkg/types/args.go:73-122 `LoadArgs`: the struct afterwards and the outcome. The struct must have a boolean
field `IgnoreUnknown` (it normally embeds pkg/types/args.go:56-58 `CommonArgs`), else reflection panics. -/
def loadArgs (args : Bytes) (c : Container) : Container × Out Unit :=
  if args = [] then (c, .ok ())
  else
    match loadPairs c [] (splitOn 59 args) with
    | (c', _, some e) => (c', .err e)
    | (c', unknown, none) =>
      match GoMap.get? c' b!"IgnoreUnknown" with
      | some (.bool ign) =>
        if unknown ≠ [] ∧ !ign then (c', .err (.text b!"ARGS: unknown args")) else (c', .ok ())
      | _ => (c', .panic)

end Verif
