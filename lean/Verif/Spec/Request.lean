/- Which fields a request to a plugin has (SPEC.md 488-509), in terms of documents only. -/
import Verif.Spec.Gc

namespace Verif.Spec

/-- The text is a JSON object with a field `k`. -/
def Says (text k : Bytes) : Prop := ∃ ms, Json.parse text = some (.obj ms) ∧ ¬ NoMember ms k

/-- A capability that the request's configuration enables is supplied by the runtime. -/
def SomeCapability (args : GoMap Json) (stdin : Bytes) : Prop :=
  ∃ M k a, Json.parse stdin = some (.obj M) ∧ CapabilityEnabled M k ∧ (k, a) ∈ args

/-- The fields of the request for an attachment are those of the plugin's configuration, `name`, `cniVersion`, `prevResult` when
there is a previous result, and `runtimeConfig` when there is something to put into it: none is dropped, no other is added. -/
def AttachFields (conf : Bytes) (prev : Prop) (args : GoMap Json) (stdin : Bytes) : Prop :=
  ∀ k, Says stdin k ↔ Says conf k ∨ k = b!"name" ∨ k = b!"cniVersion" ∨ (k = b!"prevResult" ∧ prev) ∨
    (k = b!"runtimeConfig" ∧ SomeCapability args stdin)

/-- The fields of the request for no attachment. -/
def BareFields (conf : Bytes) (valid : Prop) (stdin : Bytes) : Prop :=
  ∀ k, Says stdin k ↔ Says conf k ∨ k = b!"name" ∨ k = b!"cniVersion" ∨
    ((k = b!"cni.dev/valid-attachments" ∨ k = b!"cni.dev/attachments") ∧ valid)

/-- What SPEC.md 492-505 says about the fields of a request for an attachment: `capabilities` "must not be set", and `prevResult`
"must not be set" if there is no previous result (SPEC.md says so of the first ADD of a chain). -/
def FieldRules (prev : Prop) (stdin : Bytes) : Prop :=
  ¬ Says stdin b!"capabilities" ∧ (¬ prev → ¬ Says stdin b!"prevResult")

end Verif.Spec
