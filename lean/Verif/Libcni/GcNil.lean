/- Garbage collection with a nil list of valid attachments. -/
import Verif.Libcni.Api

namespace Verif

/-- The values injected by libcni/api.go:770-842 `CNIConfig.GCNetworkList` when `args` is not nil but `args.ValidAttachments` is a
nil slice: it prints as `null`, where an empty slice prints as `[]` (libcni/api.go:824-826). -/
def gcValuesNil (name ver : Bytes) : List (Bytes × Option Json) :=
  [(b!"name", some (.str name)), (b!"cniVersion", some (.str ver)),
    (b!"cni.dev/valid-attachments", some .null), (b!"cni.dev/attachments", some .null)]

/-- The second loop of libcni/api.go:770-842 `CNIConfig.GCNetworkList` when `args.ValidAttachments` is a nil slice; see
`CNIConfig.gcLoop`. -/
def CNIConfig.gcLoopNil (c : CNIConfig) (name ver : Bytes) : List PluginConfig → List GoErr → Prog (List GoErr)
  | [], errs => .done (.ok errs)
  | p :: rest, errs =>
    match injectConf p (gcValuesNil name ver) with
    | .ok conf =>
      (c.bareNetwork1 b!"GC" conf).attempt.bind fun r =>
        c.gcLoopNil name ver rest (match r with
          | .ok _ => errs
          | .error e => errs ++ [.wrap (b!"failed to GC plugin " ++ p.network.type) e])
    | .err _ => .done .panic
    | .panic => .done .panic

/-- libcni/api.go:770-842 `CNIConfig.GCNetworkList` when `args` is not nil and `args.ValidAttachments` is a nil slice. The set of
valid attachments is empty, so the first loop is that of the empty list. -/
def CNIConfig.gcNetworkListNil (c : CNIConfig) (list : NetConfList) : Prog Unit :=
  if list.disableGC then .done (.ok ())
  else (c.getCachedAttachments []).attempt.bind fun r =>
    match r with
    | .error _ => .done (.ok ())
    | .ok atts => (c.gcDelLoop list (some []) atts []).bind fun errs =>
      if atLeast110 list.cniVersion then
        (c.gcLoopNil list.name list.cniVersion list.plugins errs).bind fun errs => Prog.lift (joinErrs errs)
      else Prog.lift (joinErrs errs)

end Verif
