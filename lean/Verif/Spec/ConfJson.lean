/- What printing a plugin configuration must keep. -/
import Verif.Spec.ResultJson
import Verif.Types.PluginConf
import Verif.Json.Any

namespace Verif.Spec

/-- A configuration that JSON can carry: text is UTF-8, the maps are maps, and the previous result is made of what `encoding/json` puts into
an `interface{}`. -/
structure ConfOk (c : PluginConf) : Prop where
  cniVersion : isUtf8 c.cniVersion = true
  name : isUtf8 c.name = true
  type : isUtf8 c.type = true
  capabilities : GoMap.Sorted c.capabilities ∧ ∀ p ∈ c.capabilities, isUtf8 p.1 = true
  ipam : isUtf8 c.ipamType = true
  dns : DnsOk c.dns
  prev : ∀ m, c.rawPrev = some m → GoMap.Sorted m ∧ ∀ p ∈ m, isUtf8 p.1 = true ∧ p.2.Normal
  attachments : ∀ a ∈ c.validAttachments, isUtf8 a.containerID = true ∧ isUtf8 a.ifName = true

/-- The keys that are printed. -/
def PrintedKey (c : PluginConf) (k : Bytes) : Prop :=
  (k = b!"cniVersion" ∧ c.cniVersion ≠ []) ∨ (k = b!"name" ∧ c.name ≠ []) ∨ (k = b!"type" ∧ c.type ≠ []) ∨
  (k = b!"capabilities" ∧ c.capabilities ≠ []) ∨ k = b!"ipam" ∨
  (k = b!"dns" ∧ c.dns ≠ {}) ∨ (k = b!"prevResult" ∧ c.rawPrev ≠ none ∧ c.rawPrev ≠ some []) ∨
  (k = b!"cni.dev/valid-attachments" ∧ c.validAttachments ≠ [])

/-- A configuration as it is read again: without the parsed previous result, and an empty one is none. -/
def reread (c : PluginConf) : PluginConf := { c with prevResult := none, rawPrev := if c.rawPrev = some [] then none else c.rawPrev }

end Verif.Spec
