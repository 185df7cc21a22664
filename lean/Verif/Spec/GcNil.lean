/- What plugins are told when the list of valid attachments is nil. -/
import Verif.Spec.Gc
import Verif.Libcni.GcNil

namespace Verif.Spec

/-- The members with the empty list under the two keys of the valid attachments. -/
def withEmptyLists (M : List (Bytes × Json)) : List (Bytes × Json) :=
  M.map fun kv => if kv.1 = b!"cni.dev/valid-attachments" ∨ kv.1 = b!"cni.dev/attachments" then (kv.1, .arr []) else kv

/-- The document `stdin` says `null` under both keys of the valid attachments where `stdin0` says `[]`. They differ in nothing
else, and the library's own plugins read the same configuration from them. -/
def NullForEmpty (stdin stdin0 : Bytes) : Prop :=
  ∃ M, Json.parse stdin = some (.obj M) ∧ Json.parse stdin0 = some (.obj (withEmptyLists M)) ∧
    (M.map Prod.fst).Nodup ∧ (b!"cni.dev/valid-attachments", .null) ∈ M ∧ (b!"cni.dev/attachments", .null) ∈ M ∧
    ∃ n, decPluginConf (.obj M) = some n ∧ decPluginConf (.obj (withEmptyLists M)) = some n

/-- The GC requests to the plugins in `tr` and in `tr0` are the same but for the `null`s. -/
inductive SameAsks (c : CNIConfig) : Trace → Trace → Prop
  | nil : SameAsks c [] []
  | notFound {type : Bytes} {g : GoErr} {tr tr0 : Trace} (h : SameAsks c tr tr0) :
      SameAsks c (⟨.find type c.path, (.error g : Except GoErr Bytes)⟩ :: tr) (⟨.find type c.path, (.error g : Except GoErr Bytes)⟩ :: tr0)
  | asked {type path stdin stdin0 : Bytes} {r : Except GoErr Bytes} {tr tr0 : Trace} (hs : NullForEmpty stdin stdin0)
      (h : SameAsks c tr tr0) :
      SameAsks c
        (⟨.find type c.path, (.ok path : Except GoErr Bytes)⟩ :: ⟨.exec path stdin (.args (attachArgs c b!"GC" {})), r⟩ :: tr)
        (⟨.find type c.path, (.ok path : Except GoErr Bytes)⟩ :: ⟨.exec path stdin0 (.args (attachArgs c b!"GC" {})), r⟩ :: tr0)

end Verif.Spec
