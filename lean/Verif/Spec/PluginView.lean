/- How a plugin sees its configuration. -/
import Verif.Spec.Gc
import Verif.Spec.ResultJson
import Verif.Spec.Results
import Verif.Spec.Query

namespace Verif.Spec

/-- No key is repeated, and those that are among `fields` but for their capitalisation are spelled the same. -/
structure Plainly (fields : List Bytes) (ms : List (Bytes × Json)) : Prop where
  once : (ms.map Prod.fst).Nodup
  spelled : ∀ m ∈ ms, ∀ f ∈ fields, foldKey m.1 = foldKey f → m.1 = f

/-- The configuration says everything about the fields that all plugins have once, and spelled as documented. -/
def PlainConf (b : Bytes) : Prop :=
  ∀ ms, Json.parse b = some (.obj ms) →
    Plainly [b!"cniVersion", b!"name", b!"type", b!"capabilities", b!"ipam", b!"dns", b!"prevResult", b!"cni.dev/valid-attachments"] ms ∧
    (∀ is, (b!"ipam", .obj is) ∈ ms → Plainly [b!"type"] is) ∧
    (∀ ds, (b!"dns", .obj ds) ∈ ms → Plainly [b!"nameservers", b!"domain", b!"search", b!"options"] ds) ∧
    ∀ l, (b!"cni.dev/valid-attachments", .arr l) ∈ ms → ∀ as, .obj as ∈ l → Plainly [b!"containerID", b!"ifname"] as

/-- What a plugin gets that decodes `b` into a `types.PluginConf`. -/
def ReadAs (b : Bytes) (c : PluginConf) : Prop := ∃ j, Json.parse b = some j ∧ decPluginConf j = some c

/-- A plugin that has `c0` in the configuration list decodes its standard input to `c0` with the name and version of the list, and with
the previous result, if there is one: parsing it gives `prev`, provided that it is in the format of the list's version, and an error
otherwise. -/
def PluginSees (c0 : PluginConf) (name ver : Bytes) (prev : Option Result) (stdin : Bytes) : Prop :=
  ∃ c, ReadAs stdin c ∧ c = { c0 with name := sanitize name, cniVersion := sanitize ver, rawPrev := c.rawPrev } ∧
    (prev = none → c.rawPrev = c0.rawPrev) ∧
    ∀ r, prev = some r →
      (SameFormat (sanitize ver) r.version → Representable true r →
        parsePrevResult c = ({ c with rawPrev := none, prevResult := some r }, none)) ∧
      (¬ SameFormat (sanitize ver) r.version → ∃ e, parsePrevResult c = ({ c with rawPrev := none, prevResult := none }, some e))

/-- The same for GC and STATUS, with the valid attachments if they were given. -/
def PluginSeesBare (c0 : PluginConf) (name ver : Bytes) (valid : Option (List GCAttachment)) (stdin : Bytes) : Prop :=
  ReadAs stdin { c0 with
    name := sanitize name, cniVersion := sanitize ver,
    validAttachments := match valid with
      | none => c0.validAttachments
      | some l => l.map fun g => { containerID := sanitize g.containerID, ifName := sanitize g.ifName } }

end Verif.Spec
