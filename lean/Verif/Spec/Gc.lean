/- What garbage collection and the status query must do. -/
import Verif.Libcni.Api
import Verif.Spec.Attach
import Verif.Spec.Conf

namespace Verif.Spec

/-- The attachment is one of the network and is not among the valid ones. (`valid = none`: no set of valid attachments was
given at all, so none is valid.) -/
def Stale (name : Bytes) (valid : Option (List GCAttachment)) (a : Attachment) : Prop :=
  a.network = name ∧ ∀ l, valid = some l → ∀ g ∈ l, ¬ (g.containerID = a.containerID ∧ g.ifName = a.ifName)

/-- The runtime configuration with which an attachment found in the cache is deleted. -/
def rtOf (a : Attachment) : RuntimeConf :=
  { containerID := a.containerID, netNS := a.netNS, ifName := a.ifName, args := a.cniArgs, capArgs := a.capArgs }

/-- Attachments as the document plugins are given. -/
def attachmentsDoc (l : List GCAttachment) : Json :=
  .arr (l.map fun g => .obj [(b!"containerID", .str (sanitize g.containerID)), (b!"ifname", .str (sanitize g.ifName))])

/-- What a plugin must be given on stdin for GC and STATUS: its configuration `orig` with the list's name and version, and for
GC the valid attachments, if given, under both keys. The document is a well-typed plugin configuration, with its keys in order. -/
def BareStdin (orig name ver : Bytes) (valid : Option (List GCAttachment)) (stdin : Bytes) : Prop :=
  ∃ ms M, Json.parse orig = some (.obj ms) ∧ Json.parse stdin = some (.obj M) ∧ (M.map Prod.fst).Nodup ∧
    (M.Pairwise fun a b => Bytes.lt a.1 b.1 = true) ∧ (∃ c, decPluginConf (.obj M) = some c) ∧
    (b!"name", .str (sanitize name)) ∈ M ∧ (b!"cniVersion", .str (sanitize ver)) ∈ M ∧
    (∀ l, valid = some l → (b!"cni.dev/valid-attachments", attachmentsDoc l) ∈ M ∧ (b!"cni.dev/attachments", attachmentsDoc l) ∈ M) ∧
    (valid = none → Keeps ms M b!"cni.dev/valid-attachments" ∧ Keeps ms M b!"cni.dev/attachments") ∧
    ∀ k, k ∉ [b!"name", b!"cniVersion", b!"cni.dev/valid-attachments", b!"cni.dev/attachments"] → Keeps ms M k

/-- `e` is a GC of plugin `p`. -/
structure GCInvoked (c : CNIConfig) (name ver : Bytes) (valid : Option (List GCAttachment)) (p : PluginConfig) (e : ExecEv) : Prop where
  args : e.args = .args (attachArgs c b!"GC" {})
  stdin : BareStdin p.bytes name ver valid e.stdin

/-- The failure an answer stands for. -/
def failureOf : Except GoErr Bytes → Option GoErr
  | .ok _ => none
  | .error g => some g

/-- The events of a run in which each of `plugins` in turn is searched for and, if found, executed once; the failures are in
`gs`, one for each plugin. -/
inductive Asks (c : CNIConfig) (verb name ver : Bytes) (valid : Option (List GCAttachment)) :
    List PluginConfig → Trace → List (Option GoErr) → Prop
  | nil : Asks c verb name ver valid [] [] []
  | notFound {p : PluginConfig} {ps : List PluginConfig} {g : GoErr} {tr : Trace} {gs : List (Option GoErr)}
      (h : Asks c verb name ver valid ps tr gs) :
      Asks c verb name ver valid (p :: ps) (⟨.find p.network.type c.path, (.error g : Except GoErr Bytes)⟩ :: tr) (some g :: gs)
  | asked {p : PluginConfig} {ps : List PluginConfig} {stdin path : Bytes} {r : Except GoErr Bytes} {tr : Trace}
      {gs : List (Option GoErr)} (hs : BareStdin p.bytes name ver valid stdin) (h : Asks c verb name ver valid ps tr gs) :
      Asks c verb name ver valid (p :: ps)
        (⟨.find p.network.type c.path, (.ok path : Except GoErr Bytes)⟩ :: ⟨.exec path stdin (.args (attachArgs c verb {})), r⟩ :: tr)
        (failureOf r :: gs)

/-- DELs of attachments one after the other, whatever their outcomes. -/
inductive Dels (flt : Bool) (c : CNIConfig) (list : NetConfList) : List Attachment → FS → Trace → FS → List (Out Unit) → Prop
  | nil (fs : FS) : Dels flt c list [] fs [] fs []
  | cons {a : Attachment} {l : List Attachment} {fs fs1 fs2 : FS} {tr1 tr2 : Trace} {o : Out Unit} {os : List (Out Unit)}
      (h : Runs flt (c.delNetworkList list (rtOf a)) fs tr1 fs1 o) (hl : Dels flt c list l fs1 tr2 fs2 os) :
      Dels flt c list (a :: l) fs (tr1 ++ tr2) fs2 (o :: os)

/-- The failure of an outcome. -/
def outFailure : Out Unit → Option GoErr
  | .err g => some g
  | _ => none

/-- `es` are the errors `gs`, each with a description in front. -/
inductive Wrapped : List GoErr → List GoErr → Prop
  | nil : Wrapped [] []
  | cons {g e : GoErr} {gs es : List GoErr} (h : ∃ pre, e = .wrap pre g) (ht : Wrapped gs es) : Wrapped (g :: gs) (e :: es)

/-- `a` is an attachment in the cache. -/
def InCache (c : CNIConfig) (fs : FS) (a : Attachment) : Prop := ∃ n, IsComp n ∧ attachmentIn c fs n = some a

/-- The configuration, rewritten, is still one of a plugin of the same type. So it is for everything loaded from a list. -/
def Sound (p : PluginConfig) : Prop :=
  ∃ ms M c, Json.parse p.bytes = some (.obj ms) ∧ InRange (.obj ms) ∧ Injected ms [] M ∧
    decPluginConf (.obj M) = some c ∧ c.type = p.network.type ∧ c.type ≠ []

/-- Every cache entry is in the file named after its own network, container and interface. -/
def OwnNamed (c : CNIConfig) (fs : FS) : Prop :=
  ∀ n a, IsComp n → attachmentIn c fs n = some a → n = a.network ++ b!"-" ++ a.containerID ++ b!"-" ++ a.ifName

end Verif.Spec
