/- A chain of plugins as a composition of functions. -/
import Verif.Spec.Debug
import Verif.Spec.Errors

namespace Verif.Spec

/-- What a plugin does on ADD, between reading its configuration and printing its result: a function of the configuration, with the
previous result in it, and of what it is told about the attachment. -/
abbrev AddFn := PluginConf → CmdArgs → Except GoErr Result

/-- The callback of a plugin that follows the conventions: it decodes its standard input, parses the previous result, does its work,
and prints its result in the version of the configuration. This is what it prints. (The pattern of plugins/debug/main.go:102-116
`cmdAdd`, with every error returned.) -/
def addCallback (f : AddFn) (a : CmdArgs) : Out Bytes :=
  match (Json.parse a.stdinData).bind decPluginConf with
  | none => .err (.text b!"failed to parse network configuration")
  | some c =>
    match parsePrevResult c with
    | (_, some g) => .err g
    | (c', none) =>
      match f c' a with
      | .error g => .err g
      | .ok r => printResult r c'.cniVersion

/-- Such a callback returns whether it worked, and leaves what it printed. -/
def addReturns (f : AddFn) (a : CmdArgs) : Out Unit := (addCallback f a).bind fun _ => .ok ()

/-- What such a callback has printed. -/
def addPrinted (f : AddFn) (a : CmdArgs) : Bytes :=
  match addCallback f a with
  | .ok out => out
  | _ => []

/-- Execution `e` is of a plugin built with skel around `f`, that supports the version `ver` and does not run in the namespace of
the container. -/
def PluginOf (quote : Bytes → Bytes) (enum : MapEnum) (environ : List Bytes) (ver : Bytes) (f : AddFn) (e : ExecEv) : Prop :=
  ∃ (t : SkelProc) (funcs : CNIFuncs) (vi : PluginInfo) (about : Bytes) (ns : Namespaces) (printed : Callback × CmdArgs → Bytes) (stderr : Bytes),
    ProcessOf enum environ e t ∧ funcs.add = some (addReturns f) ∧ (∀ a, printed (.add, a) = addPrinted f a) ∧
    effective ver ∈ vi.supported ∧ ApartFrom ns t ∧ AnsweredBy quote e (t.mainFuncs funcs vi about ns printed) stderr

/-- The CNI error a plugin reports for the error `g` (texts as JSON carries them). -/
def reported (g : GoErr) : CniErr :=
  match g.asCni with
  | some ce => { code := ce.code, msg := sanitize ce.msg, details := sanitize ce.details }
  | none => { code := 999, msg := sanitize g.msg }

/-- What the plugin with the configuration `p` in the list is told: the configuration with the name and version of the list and the
previous result, the attachment, and on standard input the same. -/
structure Told (c : CNIConfig) (list : NetConfList) (rt : RuntimeConf) (p : PluginConfig) (prev : Option Result) (conf : PluginConf)
    (a : CmdArgs) : Prop where
  conf : conf = { p.network with name := list.name, cniVersion := list.cniVersion, rawPrev := none, prevResult := prev }
  attachment : SeesAttachment c rt a.stdinData a
  stdin : ∃ doc, DocOf prev doc ∧ StdinSpec p.bytes list.name list.cniVersion doc rt.capArgs a.stdinData

/-- A single network as a list of one plugin. -/
def aloneIn (net : PluginConfig) : NetConfList :=
  { name := net.network.name, cniVersion := net.network.cniVersion, plugins := [net] }

/-- A result as it is passed on: in the version of the list, and one that can be printed and read back. -/
structure Passable (ver : Bytes) (r : Result) : Prop where
  typed : WellTyped r
  version : r.version = effective ver
  rep : Representable true r

/-- Whatever the function is told for the configuration `p`, its results can be printed in the version of the list and read back, and
its CNI errors have codes that are numbers of Go. -/
structure Proper (c : CNIConfig) (list : NetConfList) (rt : RuntimeConf) (p : PluginConfig) (f : AddFn) : Prop where
  code : ∀ prev conf a, (∀ r, prev = some r → Passable list.cniVersion r) → Told c list rt p prev conf a →
    ∀ g ce, f conf a = .error g → g.asCni = some ce → ce.code < 2 ^ 64
  result : ∀ prev conf a, (∀ r, prev = some r → Passable list.cniVersion r) → Told c list rt p prev conf a →
    ∀ r, f conf a = .ok r → (r.version = [] ∨ WellTyped r) ∧ r.getAsVersion list.cniVersion ≠ .panic ∧
      ∀ r', r.getAsVersion list.cniVersion = .ok r' → Representable true (std r')

/-- What a chain of functions computes: each one is told the result of the one before, in the version of the list and with addresses
in the form the parsers give; the first error is the outcome, and so is the error of converting a result to that version. -/
inductive Computes (c : CNIConfig) (list : NetConfList) (rt : RuntimeConf) :
    List (PluginConfig × AddFn) → Option Result → Except CniErr (Option Result) → Prop
  | done (prev) : Computes c list rt [] prev (.ok prev)
  | fails {p f l prev conf a g} (told : Told c list rt p prev conf a) (h : f conf a = .error g) :
      Computes c list rt ((p, f) :: l) prev (.error (reported g))
  | inconvertible {p f l prev conf a r g} (told : Told c list rt p prev conf a) (h : f conf a = .ok r)
      (hv : r.getAsVersion list.cniVersion = .err g) : Computes c list rt ((p, f) :: l) prev (.error (reported g))
  | next {p f l prev conf a r r' out} (told : Told c list rt p prev conf a) (h : f conf a = .ok r)
      (hv : r.getAsVersion list.cniVersion = .ok r') (rest : Computes c list rt l (some (std r')) out) :
      Computes c list rt ((p, f) :: l) prev out

/-- What the functions are told about the attachment, whatever is on standard input. -/
def tellingOf (c : CNIConfig) (rt : RuntimeConf) : CmdArgs :=
  { containerID := rt.containerID, netns := rt.netNS, ifName := rt.ifName, args := pairsText rt.args, path := joinWith b!":" c.path }

/-- The function looks at nothing but the decoded configuration and the attachment. -/
def Modest (f : AddFn) : Prop :=
  ∀ conf a, f conf a = f conf { a with stdinData := [], netnsOverride := [] }

/-- The composition of such functions. -/
def composed (c : CNIConfig) (list : NetConfList) (rt : RuntimeConf) : List (PluginConfig × AddFn) → Option Result → Except CniErr (Option Result)
  | [], prev => .ok prev
  | (p, f) :: l, prev =>
    match f { p.network with name := list.name, cniVersion := list.cniVersion, rawPrev := none, prevResult := prev } (tellingOf c rt) with
    | .error g => .error (reported g)
    | .ok r =>
      match r.getAsVersion list.cniVersion with
      | .ok r' => composed c list rt l (some (std r'))
      | .err g => .error (reported g)
      | .panic => .ok none  -- `Proper` excludes it

end Verif.Spec
