/- What rewriting a configuration must do, in terms of documents only. -/
import Verif.Spec.Doc
import Verif.Types.PluginConf
import Verif.Json.Clean

namespace Verif.Spec

/-- The rewritten object says about `k` what the original says (as Go decodes it: last duplicate, numbers through
float64), or nothing if the original says nothing. -/
def Keeps (ms M : List (Bytes × Json)) (k : Bytes) : Prop :=
  (∀ v, LastMember ms k v → ∃ w, v.toAny = some w ∧ (k, w) ∈ M) ∧ (NoMember ms k → NoMember M k)

/-- `M` is the object `ms` with the values `kvs` stored into it (`clean`: invalid UTF-8 cannot be carried by JSON). -/
structure Injected (ms : List (Bytes × Json)) (kvs : List (Bytes × Json)) (M : List (Bytes × Json)) : Prop where
  nodup : (M.map Prod.fst).Nodup
  sorted : M.Pairwise fun a b => Bytes.lt a.1 b.1 = true
  given : ∀ k v, (k, v) ∈ kvs → (k, v.clean) ∈ M
  others : ∀ k, k ∉ kvs.map Prod.fst → Keeps ms M k

/-- The document enables capability `k`. -/
def CapabilityEnabled (M : List (Bytes × Json)) (k : Bytes) : Prop :=
  ∃ c, decPluginConf (.obj M) = some c ∧ (k, true) ∈ c.capabilities

/-- The capability arguments a plugin is to see: those it enables, with the values the runtime supplied. -/
def EnabledArgs (M : List (Bytes × Json)) (args : GoMap Json) (rc : List (Bytes × Json)) : Prop :=
  (rc.map Prod.fst).Nodup ∧ ∀ k v, (k, v) ∈ rc ↔ CapabilityEnabled M k ∧ ∃ a, (k, a) ∈ args ∧ v = a.clean

/-- What a plugin must be given on stdin: `orig` is the plugin's configuration, `name` and `ver` those of the list,
`prev` the previous result (as a document) if there is one, `args` the runtime's capability arguments. The document is a
well-typed plugin configuration, with its keys in order. -/
def StdinSpec (orig name ver : Bytes) (prev : Option Json) (args : GoMap Json) (stdin : Bytes) : Prop :=
  ∃ ms M rc, Json.parse orig = some (.obj ms) ∧ Json.parse stdin = some (.obj M) ∧ (M.map Prod.fst).Nodup ∧
    (M.Pairwise fun a b => Bytes.lt a.1 b.1 = true) ∧ (∃ c, decPluginConf (.obj M) = some c) ∧
    (b!"name", .str (sanitize name)) ∈ M ∧ (b!"cniVersion", .str (sanitize ver)) ∈ M ∧
    (∀ r, prev = some r → ∃ j, (b!"prevResult", j) ∈ M ∧ j.toAny = r.clean.toAny) ∧
    (prev = none → Keeps ms M b!"prevResult") ∧
    EnabledArgs M args rc ∧
    (rc ≠ [] → (b!"runtimeConfig", .obj rc) ∈ M) ∧
    (rc = [] → Keeps ms M b!"runtimeConfig") ∧
    ∀ k, k ∉ [b!"name", b!"cniVersion", b!"prevResult", b!"runtimeConfig"] → Keeps ms M k

end Verif.Spec
