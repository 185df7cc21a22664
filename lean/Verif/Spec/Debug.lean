/- The debug plugin in a chain. -/
import Verif.Spec.PluginView
import Verif.Spec.EndToEnd
import Verif.Plugins.Debug

namespace Verif.Spec

/-- The same result, stating another version. -/
def restated : Result → Bytes → Result
  | .v020 r, v => .v020 { r with cniVersion := v }
  | .v040 r, v => .v040 { r with cniVersion := v }
  | .v100 r, v => .v100 { r with cniVersion := v }

/-- Nothing in the result is lost by storing it in the current result type. For 0.3.x and 0.4.0: there are no null entries, and
addresses are declared to be of the family they are of. For 0.1.0 and 0.2.0: there is an address; the addresses of the two sections,
and the destinations of their routes, are of their families, and the routes have no other attributes than the two of those versions. -/
def SurvivesUpgrade : Result → Prop
  | .v100 _ => True
  | .v040 r => NoNull (.v040 r) ∧ ∀ x, some x ∈ r.ips → FamilyOk x
  | .v020 r => (r.ip4.isSome = true ∨ r.ip6.isSome = true) ∧
      (∀ i, r.ip4 = some i → Is4 i.ip.ip ∧ ∀ rt ∈ i.routes, rt = { dst := rt.dst, gw := rt.gw } ∧ Is4 rt.dst.ip) ∧
      (∀ i, r.ip6 = some i → ¬ Is4 i.ip.ip ∧ ∀ rt ∈ i.routes, rt = { dst := rt.dst, gw := rt.gw } ∧ ¬ Is4 rt.dst.ip)

/-- `b` is a configuration for the debug plugin that says everything once and spelled as documented, and it decodes to `d`. -/
structure DebugConfOf (b : Bytes) (d : DebugConf) : Prop where
  plain : PlainConf b
  own : ∀ ms, Json.parse b = some (.obj ms) → Plainly [b!"cniOutput", b!"addHooks", b!"delHooks", b!"checkHooks"] ms
  reads : debugParseConf b = some d

/-- The report of a call. -/
def debugReport (title : Bytes) (c : CNIConfig) (rt : RuntimeConf) (stdin : Bytes) : Bytes :=
  title ++ b!"\nContainerID: " ++ rt.containerID ++ b!"\nNetns: " ++ rt.netNS ++ b!"\nIfName: " ++ rt.ifName ++ b!"\nArgs: " ++
  pairsText rt.args ++ b!"\nPath: " ++ joinWith b!":" c.path ++ b!"\nStdinData: " ++ stdin ++ b!"\n----------------------\n"

/-- The hooks of a configuration for a command. -/
def hooksFor (d : DebugConf) : Callback → List (List Bytes)
  | .add => d.addHooks
  | .del => d.delHooks
  | .check => d.checkHooks
  | _ => []

/-- The first line of the report. -/
def debugTitle : Callback → Bytes
  | .add => b!"CmdAdd"
  | .del => b!"CmdDel"
  | .check => b!"CmdCheck"
  | _ => []

/-- An empty result as it is printed: 0.3.x and 0.4.0 print the DNS section even when there is nothing in it. -/
def emptyPrinted (v : Bytes) : Bytes :=
  b!"{\n    \"cniVersion\": \"" ++ v ++ (if v ∈ mid040 then b!"\",\n    \"dns\": {}\n}" else b!"\"\n}")

/-- The process `t` is the debug plugin in the world `w`, and its answer is that of execution `e`. -/
def DebugAnswers (quote : Bytes → Bytes) (w : DebugWorld) (e : ExecEv) (t : SkelProc) (about : Bytes) (ns : Namespaces) (stderr : Bytes) : Prop :=
  AnsweredBy quote e (t.mainFuncs (debugFuncs w) debugInfo about ns fun x => (debugCall w x.1 x.2).printed) stderr

/-- The process is not in the namespace it is told to configure (or the check for that is overridden). -/
def ApartFrom (ns : Namespaces) (t : SkelProc) : Prop :=
  Overridden (t.getenv b!"CNI_NETNS_OVERRIDE") ∨ ns.at_ (t.getenv b!"CNI_NETNS") = none ∨
    ∃ m, ns.self = some m ∧ ns.at_ (t.getenv b!"CNI_NETNS") ≠ some m

end Verif.Spec
