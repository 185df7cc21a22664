/- libcni/api.go: the configuration a plugin is given. -/
import Verif.Libcni.Conf

namespace Verif

/-- libcni/api.go:54-68 `RuntimeConf`. Capability arguments as the JSON they marshal to; a nil map is an empty one. -/
structure RuntimeConf where
  containerID : Bytes := []
  netNS : Bytes := []
  ifName : Bytes := []
  args : List (Bytes × Bytes) := []
  capArgs : GoMap Json := []
  cacheDir : Bytes := []
  deriving DecidableEq, Inhabited

/-- The map built by the loop of libcni/api.go:191-212 `injectRuntimeConfig`. -/
def runtimeConfigMap (caps : GoMap Bool) (args : GoMap Json) : GoMap Json :=
  GoMap.ofList (caps.filterMap fun c => if c.2 then (GoMap.get? args c.1).map fun d => (c.1, d) else none)

/-- libcni/api.go:191-212 `injectRuntimeConfig`. -/
def injectRuntimeConfig (orig : PluginConfig) (rt : RuntimeConf) : Out PluginConfig :=
  let rc := runtimeConfigMap orig.network.capabilities rt.capArgs
  if rc = [] then .ok orig else injectConf orig [(b!"runtimeConfig", some (.obj rc))]

/-- The values injected by libcni/api.go:155-177 `buildOneConfig`; `prev` is the previous result's document. -/
def baseValues (name ver : Bytes) (prev : Option Json) : List (Bytes × Option Json) :=
  [(b!"name", some (Json.str name)), (b!"cniVersion", some (Json.str ver))]
    ++ (match prev with | none => [] | some j => [(b!"prevResult", some j)])

/-- The document of a previous result; `none` is a marshalling error. The `prevResult` value in
libcni/api.go:155-177 `buildOneConfig`. -/
def prevJson : Option Result → Option (Option Json)
  | none => some none
  | some r => r.json.map some

/-- libcni/api.go:155-177 `buildOneConfig`; `rt` is never nil. (A result that cannot be marshalled is reported first.) -/
def buildOneConfig (name ver : Bytes) (orig : PluginConfig) (prev : Option Result) (rt : RuntimeConf) : Out PluginConfig := do
  let j ← Out.ofOption b!"cannot marshal prevResult" (prevJson prev)
  let p ← injectConf orig (baseValues name ver j)
  injectRuntimeConfig p rt

end Verif
