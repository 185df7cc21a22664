/- Which binaries are executed. -/
import Verif.Spec.Search
import Verif.Spec.Gc
import Verif.Invoke.Exec

namespace Verif.Spec

/-- `tr` has the calls of an execution of `p`, one that came to its end or one that was interrupted at any point. -/
def Happens {α : Type} (flt : Bool) (p : Prog α) (fs : FS) (tr : Trace) : Prop :=
  (∃ fs' o, Runs flt p fs tr fs' o) ∨ ∃ fs', Crash flt p fs tr fs'

/-- The entry points through which plugins may be executed or the cache is used, of the runtime library and for delegation. -/
inductive EntryPoint where
  | addList (c : CNIConfig) (list : NetConfList) (rt : RuntimeConf)
  | checkList (c : CNIConfig) (list : NetConfList) (rt : RuntimeConf)
  | delList (c : CNIConfig) (list : NetConfList) (rt : RuntimeConf)
  | add (c : CNIConfig) (net : PluginConfig) (rt : RuntimeConf)
  | check (c : CNIConfig) (net : PluginConfig) (rt : RuntimeConf)
  | del (c : CNIConfig) (net : PluginConfig) (rt : RuntimeConf)
  | gc (c : CNIConfig) (list : NetConfList) (valid : Option (List GCAttachment))
  | status (c : CNIConfig) (list : NetConfList)
  | validateList (c : CNIConfig) (list : NetConfList)
  | validate (c : CNIConfig) (net : PluginConfig)
  | versionInfo (c : CNIConfig) (type : Bytes)
  | cachedResult (c : CNIConfig) (list : NetConfList) (rt : RuntimeConf)
  | cachedConfig (c : CNIConfig) (list : NetConfList) (rt : RuntimeConf)
  | cachedAttachments (c : CNIConfig) (containerID : Bytes)
  | delegateAdd (environ : List Bytes) (plugin netconf : Bytes)
  | delegateCheck (environ : List Bytes) (plugin netconf : Bytes)
  | delegateDel (environ : List Bytes) (plugin netconf : Bytes)
  | delegateStatus (environ : List Bytes) (plugin netconf : Bytes)
  | delegateGC (environ : List Bytes) (plugin netconf : Bytes)

/-- The calls made when the entry point is called. -/
def EntryPoint.Happens (flt : Bool) (fs : FS) (tr : Trace) : EntryPoint → Prop
  | .addList c l rt => Spec.Happens flt (c.addNetworkList l rt) fs tr
  | .checkList c l rt => Spec.Happens flt (c.checkNetworkList l rt) fs tr
  | .delList c l rt => Spec.Happens flt (c.delNetworkList l rt) fs tr
  | .add c n rt => Spec.Happens flt (c.addNetwork n rt) fs tr
  | .check c n rt => Spec.Happens flt (c.checkNetwork n rt) fs tr
  | .del c n rt => Spec.Happens flt (c.delNetwork n rt) fs tr
  | .gc c l v => Spec.Happens flt (c.gcNetworkList l v) fs tr
  | .status c l => Spec.Happens flt (c.getStatusNetworkList l) fs tr
  | .validateList c l => Spec.Happens flt (c.validateNetworkList l) fs tr
  | .validate c n => Spec.Happens flt (c.validateNetwork n) fs tr
  | .versionInfo c t => Spec.Happens flt (c.getVersionInfo t) fs tr
  | .cachedResult c l rt => Spec.Happens flt (c.getNetworkListCachedResult l rt) fs tr
  | .cachedConfig c l rt => Spec.Happens flt (c.getNetworkListCachedConfig l rt) fs tr
  | .cachedAttachments c i => Spec.Happens flt (c.getCachedAttachments i) fs tr
  | .delegateAdd env p n => Spec.Happens flt (Verif.delegateAdd env p n) fs tr
  | .delegateCheck env p n => Spec.Happens flt (Verif.delegateCheck env p n) fs tr
  | .delegateDel env p n => Spec.Happens flt (Verif.delegateDel env p n) fs tr
  | .delegateStatus env p n => Spec.Happens flt (Verif.delegateStatus env p n) fs tr
  | .delegateGC env p n => Spec.Happens flt (Verif.delegateGC env p n) fs tr

/-- The plugin types an entry point is about. -/
def EntryPoint.types : EntryPoint → List Bytes
  | .addList _ l _ | .checkList _ l _ | .delList _ l _ | .gc _ l _ | .status _ l | .validateList _ l => l.plugins.map fun p => p.network.type
  | .add _ n _ | .check _ n _ | .del _ n _ | .validate _ n => [n.network.type]
  | .versionInfo _ t => [t]
  | .cachedResult .. | .cachedConfig .. | .cachedAttachments .. => []
  | .delegateAdd _ p _ | .delegateCheck _ p _ | .delegateDel _ p _ | .delegateStatus _ p _ | .delegateGC _ p _ => [p]

/-- The directories in which an entry point looks for plugins: those the runtime was created with, and for delegation those in
`CNI_PATH`. -/
def EntryPoint.paths : EntryPoint → List Bytes
  | .addList c _ _ | .checkList c _ _ | .delList c _ _ | .add c _ _ | .check c _ _ | .del c _ _ | .gc c _ _ | .status c _
  | .validateList c _ | .validate c _ | .versionInfo c _ | .cachedResult c _ _ | .cachedConfig c _ _ | .cachedAttachments c _ => c.path
  | .delegateAdd env _ _ | .delegateCheck env _ _ | .delegateDel env _ _ | .delegateStatus env _ _ | .delegateGC env _ _ =>
    splitList (getenv env b!"CNI_PATH")

/-- GC and STATUS take the type of a plugin from its configuration as it is rewritten, the other operations from the configuration as
it was read: these are the same for everything in a loaded list. -/
def EntryPoint.SameTypes : EntryPoint → Prop
  | .gc _ l _ | .status _ l => ∀ p ∈ l.plugins, Sound p
  | _ => True

/-- Searches are answered by the library's own search, in file systems that may change from call to call: `w i` tells what is a regular
file at call `i`. -/
def DefaultSearch (exts : List Bytes) (w : Nat → Bytes → Bool) (tr : Trace) : Prop :=
  ∀ (i : Nat) (n : Bytes) (ps : List Bytes) (r : Except GoErr Bytes), tr[i]? = some ⟨.find n ps, r⟩ → r = findInPath exts (w i) n ps

/-- Every call that executes a plugin comes directly after a search for one of `types` in `paths`, and executes what that search has
found: the first match. There are no other searches. -/
structure OnlyFound (exts : List Bytes) (w : Nat → Bytes → Bool) (types paths : List Bytes) (tr : Trace) : Prop where
  searched : ∀ (i : Nat) (n : Bytes) (ps : List Bytes) (r : Except GoErr Bytes), tr[i]? = some ⟨.find n ps, r⟩ → n ∈ types ∧ ps = paths
  executed : ∀ (i : Nat) (path stdin : Bytes) (args : PArgs) (r : Except GoErr Bytes), tr[i]? = some ⟨.exec path stdin args, r⟩ →
    ∃ j t, i = j + 1 ∧ t ∈ types ∧ tr[j]? = some ⟨.find t paths, (.ok path : Except GoErr Bytes)⟩ ∧ FoundFirst exts (w j) t paths path

end Verif.Spec
