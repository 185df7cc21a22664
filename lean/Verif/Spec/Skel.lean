/- What a plugin's main function must check before calling the plugin, in terms of the environment and the document on stdin. -/
import Verif.Spec.AnyCase
import Verif.Spec.Names
import Verif.Spec.Version
import Verif.Skel.Skel

namespace Verif.Spec

/-- The value of CNI_COMMAND a callback is for. -/
def verbText : Callback → Bytes
  | .add => b!"ADD"
  | .check => b!"CHECK"
  | .del => b!"DEL"
  | .gc => b!"GC"
  | .status => b!"STATUS"

/-- The variables that must not be empty. -/
def requiredVars : Callback → List Bytes
  | .add | .check => [b!"CNI_CONTAINERID", b!"CNI_NETNS", b!"CNI_IFNAME", b!"CNI_PATH"]
  | .del => [b!"CNI_CONTAINERID", b!"CNI_IFNAME", b!"CNI_PATH"]
  | .gc | .status => [b!"CNI_PATH"]

/-- The command is about one attachment. -/
def OfAttachment (v : Callback) : Prop := v = .add ∨ v = .check ∨ v = .del

/-- The lowest configuration version the command is allowed with. -/
def minVersion : Callback → Option (Int × Int × Int)
  | .add | .del => none
  | .check => some (0, 4, 0)
  | .gc | .status => some (1, 1, 0)

/-- The environment is complete and valid for the command. -/
structure EnvOK (env : Bytes → Bytes) (v : Callback) : Prop where
  command : env b!"CNI_COMMAND" = verbText v
  required : ∀ k ∈ requiredVars v, env k ≠ []
  cid : OfAttachment v → ValidName (env b!"CNI_CONTAINERID")
  ifn : OfAttachment v → ValidIfName (env b!"CNI_IFNAME")

/-- `b` is a document with the members `ms` (Go reads `null` as a document without members). -/
def DocMembers (b : Bytes) (ms : List (Bytes × Json)) : Prop :=
  Json.parse b = some (.obj ms) ∨ (Json.parse b = some .null ∧ ms = [])

/-- The string Go reads for the key: keys match whatever their case, `null` counts as absent, the last one wins, nothing but
strings is allowed, and it is empty if there is none. -/
def ReadsString (ms : List (Bytes × Json)) (key s : Bytes) : Prop :=
  (∀ m ∈ ms, foldKey m.1 = foldKey key → m.2 = .null ∨ ∃ t, m.2 = .str t) ∧
    ((∃ a k b, ms = a ++ (k, .str s) :: b ∧ foldKey k = foldKey key ∧ ∀ m ∈ b, foldKey m.1 = foldKey key → m.2 = .null) ∨
      (s = [] ∧ ∀ m ∈ ms, foldKey m.1 = foldKey key → m.2 = .null))

/-- The network name in a configuration. -/
def ConfName (b n : Bytes) : Prop := ∃ ms, DocMembers b ms ∧ ReadsString ms b!"name" n

/-- The version of a configuration: 0.1.0 if it says nothing. -/
def ConfVersion (b v : Bytes) : Prop :=
  ∃ ms s, DocMembers b ms ∧ ReadsString ms b!"cniVersion" s ∧ v = if s = [] then b!"0.1.0" else s

/-- The request is valid for the command and a plugin that supports the versions `supported`. -/
structure ValidRequest (env : Bytes → Bytes) (stdin : Bytes) (supported : List Bytes) (v : Callback) : Prop where
  env : EnvOK env v
  name : ∃ n, ConfName stdin n ∧ ValidName n
  version : ∃ ver, ConfVersion stdin ver ∧ ver ∈ supported ∧ ∀ t, minVersion v = some t → AtLeast ver t

/-- What the callback must be given. -/
def requestArgs (env : Bytes → Bytes) (stdin : Bytes) : CmdArgs :=
  { containerID := env b!"CNI_CONTAINERID", netns := env b!"CNI_NETNS", ifName := env b!"CNI_IFNAME", args := env b!"CNI_ARGS",
    path := env b!"CNI_PATH", netnsOverride := env b!"CNI_NETNS_OVERRIDE", stdinData := stdin }

/-- The callback of a plugin. -/
def callbackOf (f : CNIFuncs) : Callback → Option (CmdArgs → Out Unit)
  | .add => f.add
  | .check => f.check
  | .del => f.del
  | .gc => f.gc
  | .status => f.status

/-- The namespace override: `1` or `true` in any capitalisation. -/
def Overridden (s : Bytes) : Prop := s = b!"1" ∨ AnyCase b!"true" s

/-- The plugin runs in the namespace it is told to configure. -/
def OwnNamespace (ns : Namespaces) (path : Bytes) : Prop := ∃ n, ns.at_ path = some n ∧ ns.self = some n

end Verif.Spec
