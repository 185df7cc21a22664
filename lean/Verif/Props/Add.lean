/- C12, C13, C20: ADD. -/
import Verif.Libcni.Api
import Verif.Libcni.CacheLemmas
import Verif.Libcni.CachePath
import Verif.Libcni.Interp
import Verif.Props.Stdin
import Verif.Props.Names
import Verif.Spec.Api

namespace Verif
open Spec
set_option linter.unusedSimpArgs false

variable {flt : Bool} {fs fs' : FS} {tr : Trace}

/-! ### one plugin -/

theorem runs_findPlugin {type : Bytes} {paths : List Bytes} {o : Out Bytes} :
    Runs flt (findPlugin type paths) fs tr fs' o ↔
      ∃ r : Except GoErr Bytes, tr = [⟨.find type paths, r⟩] ∧ fs' = fs ∧
        o = match r with | .ok p => .ok p | .error e => .err e := by
  unfold findPlugin
  rw [runs_op]
  constructor
  · rintro ⟨r, fs1, tr', hs, rfl, hr⟩
    cases hs
    cases r <;> (obtain ⟨rfl, rfl, rfl⟩ := runs_done.1 hr; exact ⟨_, rfl, rfl, rfl⟩)
  · rintro ⟨r, rfl, rfl, rfl⟩
    refine ⟨r, fs', [], .find .., rfl, ?_⟩
    cases r <;> exact .done _ _

/-- What an execution that should print a result amounts to. -/
def addOutcome (e : ExecEv) : Out Result :=
  match e.resp with
  | .ok out => resultOfOutput e.stdin out
  | .error g => .err g

/-- What an execution without a result amounts to. -/
def runOutcome (e : ExecEv) : Out Unit :=
  match e.resp with
  | .ok _ => .ok ()
  | .error g => .err g

theorem runs_execWithResult {path netconf : Bytes} {args : PArgs} {o : Out Result} :
    Runs flt (execWithResult path netconf args) fs tr fs' o ↔
      ∃ r : Except GoErr Bytes, tr = [⟨.exec path netconf args, r⟩] ∧ fs' = fs ∧ o = addOutcome ⟨path, netconf, args, r⟩ := by
  unfold execWithResult
  rw [runs_op]
  constructor
  · rintro ⟨r, fs1, tr', hs, rfl, hr⟩
    cases hs
    cases r <;> (obtain ⟨rfl, rfl, rfl⟩ := runs_done.1 hr; exact ⟨_, rfl, rfl, rfl⟩)
  · rintro ⟨r, rfl, rfl, rfl⟩
    refine ⟨r, fs', [], .exec .., rfl, ?_⟩
    cases r <;> exact .done _ _

theorem runs_execWithoutResult {path netconf : Bytes} {args : PArgs} {o : Out Unit} :
    Runs flt (execWithoutResult path netconf args) fs tr fs' o ↔
      ∃ r : Except GoErr Bytes, tr = [⟨.exec path netconf args, r⟩] ∧ fs' = fs ∧ o = runOutcome ⟨path, netconf, args, r⟩ := by
  unfold execWithoutResult
  rw [runs_op]
  constructor
  · rintro ⟨r, fs1, tr', hs, rfl, hr⟩
    cases hs
    cases r <;> (obtain ⟨rfl, rfl, rfl⟩ := runs_done.1 hr; exact ⟨_, rfl, rfl, rfl⟩)
  · rintro ⟨r, rfl, rfl, rfl⟩
    refine ⟨r, fs', [], .exec .., rfl, ?_⟩
    cases r <;> exact .done _ _

theorem validateAdd_iff {name : Bytes} {rt : RuntimeConf} :
    (validateAdd name rt = .ok () ↔ ValidName rt.containerID ∧ ValidName name ∧ ValidIfName rt.ifName) ∧
      validateAdd name rt ≠ .panic := by
  rw [← (c43_container_id rt.containerID).1, ← (c43_network_name name).1, ← (c43_interface_name rt.ifName).1]
  unfold validateAdd
  cases validateContainerID rt.containerID <;> cases validateNetworkName name <;> cases validateInterfaceName rt.ifName <;> simp

theorem runs_lift {α : Type} {o o' : Out α} : Runs flt (Prog.lift o) fs tr fs' o' ↔ tr = [] ∧ fs' = fs ∧ o' = o := runs_done

/-- The prepared configuration meets the specification. -/
theorem build_stdin {name ver : Bytes} {orig p : PluginConfig} {prev : Option Result} {rt : RuntimeConf} (hrt : rt.OK)
    (h : buildOneConfig name ver orig prev rt = .ok p) :
    ∃ doc, DocOf prev doc ∧ StdinSpec orig.bytes name ver doc rt.capArgs p.bytes := by
  obtain ⟨h1, h2⟩ := c06_stdin name ver orig p prev rt hrt h
  cases prev with
  | none => exact ⟨none, rfl, h1 rfl⟩
  | some r =>
    obtain ⟨j, hj, hs⟩ := h2 r rfl
    exact ⟨some j, ⟨j, hj, rfl⟩, hs⟩

/-- One plugin of an ADD: at most one execution; without one it fails. -/
theorem addNetwork1_runs {c : CNIConfig} {name ver : Bytes} {net : PluginConfig} {prev : Option Result} {rt : RuntimeConf}
    (hrt : rt.OK) {o : Out Result} (h : Runs flt (c.addNetwork1 name ver net prev rt) fs tr fs' o) :
    fs' = fs ∧ ((tr.execs = [] ∧ (∀ r, o ≠ .ok r)) ∨
      ∃ e, tr.execs = [e] ∧ Invoked c b!"ADD" name ver rt net prev tr e ∧ o = addOutcome e ∧
        ValidName rt.containerID ∧ ValidName name ∧ ValidIfName rt.ifName) := by
  unfold CNIConfig.addNetwork1 at h
  simp only [prog_bind_eq] at h
  obtain ⟨tr1, tr2, fs1, o1, rfl, h1, h2⟩ := runs_bind.1 h
  obtain ⟨r, rfl, rfl, rfl⟩ := runs_findPlugin.1 h1
  cases r with
  | error g => obtain ⟨rfl, rfl, rfl⟩ := h2; exact ⟨rfl, .inl ⟨rfl, by simp⟩⟩
  | ok path =>
    obtain ⟨tr3, tr4, fs2, o2, rfl, h3, h4⟩ := runs_bind.1 h2
    obtain ⟨rfl, rfl, rfl⟩ := runs_lift.1 h3
    cases hv : validateAdd name rt with
    | panic => exact absurd hv validateAdd_iff.2
    | err g => rw [hv] at h4; obtain ⟨rfl, rfl, rfl⟩ := h4; exact ⟨rfl, .inl ⟨rfl, by simp⟩⟩
    | ok u =>
      rw [hv] at h4
      obtain ⟨tr5, tr6, fs3, o3, rfl, h5, h6⟩ := runs_bind.1 h4
      obtain ⟨rfl, rfl, rfl⟩ := runs_lift.1 h5
      cases hb : buildOneConfig name ver net prev rt with
      | panic => rw [hb] at h6; obtain ⟨rfl, rfl, rfl⟩ := h6; exact ⟨rfl, .inl ⟨rfl, by simp⟩⟩
      | err g => rw [hb] at h6; obtain ⟨rfl, rfl, rfl⟩ := h6; exact ⟨rfl, .inl ⟨rfl, by simp⟩⟩
      | ok conf =>
        rw [hb] at h6
        obtain ⟨r, rfl, rfl, rfl⟩ := runs_execWithResult.1 h6
        refine ⟨rfl, .inr ⟨⟨path, conf.bytes, c.args b!"ADD" rt, r⟩, rfl, ⟨?_, rfl, build_stdin hrt hb⟩, rfl, validateAdd_iff.1.1 hv⟩⟩
        exact List.mem_cons_self ..

/-! ### the chain -/

theorem Spec.Invoked.mono {c : CNIConfig} {verb name ver : Bytes} {rt : RuntimeConf} {p : PluginConfig} {prev : Option Result}
    {e : ExecEv} {a b d : Trace} (h : Invoked c verb name ver rt p prev b e) : Invoked c verb name ver rt p prev (a ++ b ++ d) e :=
  ⟨by rw [finds_append, finds_append]; simp [h.found], h.args, h.stdin⟩

theorem addOutcome_ok {e : ExecEv} {r : Result} : addOutcome e = .ok r ↔ Returned e r := by
  unfold addOutcome Returned
  cases he : e.resp with
  | error g => simp
  | ok out => simp

theorem addLoop_runs {c : CNIConfig} {name ver : Bytes} {rt : RuntimeConf} (hrt : rt.OK) {ps : List PluginConfig} :
    ∀ {prev : Option Result} {fs fs' : FS} {tr : Trace} {o : Out (Option Result)},
    Runs flt (c.addLoop name ver rt ps prev) fs tr fs' o →
    fs' = fs ∧ ∃ rs, AddChain c name ver rt ps prev tr rs ∧
      (∀ x, o = .ok x → rs.length = ps.length ∧ x = rs.getLast?.or prev) ∧ (rs.length = ps.length → ∃ x, o = .ok x) ∧
      (∀ e g, tr.execs[rs.length]? = some e → e.resp = .error g → ∃ pre, o = .err (.wrap pre g)) ∧
      (tr.execs ≠ [] → ValidName rt.containerID ∧ ValidName name ∧ ValidIfName rt.ifName) := by
  induction ps with
  | nil =>
    intro prev fs fs' tr o h
    obtain ⟨rfl, rfl, rfl⟩ := runs_done.1 h
    exact ⟨rfl, [], ⟨by simp, by simp, by simp, by simp⟩, by simp, by simp, by simp, by simp⟩
  | cons net rest ih =>
    intro prev fs fs' tr o h
    obtain ⟨tr1, tr2, fs1, o1, rfl, h1, h2⟩ := runs_bind.1 h
    obtain ⟨o0, h0, rfl⟩ := runs_mapErr.1 h1
    obtain ⟨rfl, hc⟩ := addNetwork1_runs hrt h0
    -- a plugin that was not executed, or failed
    have stop : ∀ (hno : ∀ r, o0 ≠ .ok r), tr2 = [] ∧ fs' = fs1 ∧ (∀ x, o ≠ .ok x) ∧
        (∀ g, o0 = .err g → ∃ pre, o = .err (.wrap pre g)) := by
      intro hno
      cases o0 with
      | ok r => exact absurd rfl (hno r)
      | err g => obtain ⟨rfl, rfl, rfl⟩ := h2; exact ⟨rfl, rfl, by simp, fun g' hg => by cases hg; exact ⟨_, rfl⟩⟩
      | panic => obtain ⟨rfl, rfl, rfl⟩ := h2; exact ⟨rfl, rfl, by simp, by simp⟩
    rcases hc with ⟨he, hno⟩ | ⟨e, he, hinv, ho, hval⟩
    · obtain ⟨rfl, rfl, hx, _⟩ := stop hno
      refine ⟨rfl, [], ⟨?_, by simp, ?_, ?_⟩, fun x h => absurd h (hx x), by simp, ?_, ?_⟩ <;>
        simp only [execs_append, he, execs_nil] <;> simp
    · by_cases hok : ∃ r, o0 = .ok r
      · obtain ⟨r, rfl⟩ := hok
        have hr : Returned e r := addOutcome_ok.1 ho.symm
        obtain ⟨rfl, rs, hch, hsucc, hall, herr, hval'⟩ := ih (prev := some r) h2
        have hex : Trace.execs (tr1 ++ tr2) = e :: tr2.execs := by rw [execs_append, he]; rfl
        refine ⟨rfl, r :: rs, ⟨?_, ?_, ?_, ?_⟩, ?_, ?_, ?_, fun _ => hval⟩
        · intro i e' hi
          rw [hex] at hi
          cases i with
          | zero =>
            simp only [List.getElem?_cons_zero, Option.some.injEq] at hi
            subst hi
            refine ⟨net, rfl, ?_⟩
            have := hinv.mono (a := []) (d := tr2)
            simpa using this
          | succ i =>
            simp only [List.getElem?_cons_succ] at hi
            obtain ⟨p, hp, hin⟩ := hch.invoked i e' hi
            refine ⟨p, by simpa using hp, ?_⟩
            have := hin.mono (a := tr1) (d := [])
            simp only [List.append_nil] at this
            cases i with
            | zero => simpa using this
            | succ i => simpa using this
        · intro i r' hi
          rw [hex]
          cases i with
          | zero =>
            simp only [List.getElem?_cons_zero, Option.some.injEq] at hi
            subst hi
            exact ⟨e, rfl, hr⟩
          | succ i => exact hch.results i r' (by simpa using hi)
        · rw [hex]; simpa using hch.atMostOneMore
        · intro e' hi
          rw [hex] at hi
          exact hch.lastFailed e' (by simpa using hi)
        · intro x hx
          obtain ⟨h3, h4⟩ := hsucc x hx
          refine ⟨by simp [h3], ?_⟩
          rw [h4]
          cases hrs : rs with
          | nil => rfl
          | cons a l => rw [List.getLast?_cons_cons, List.getLast?_eq_some_getLast (by simp)]; rfl
        · intro hl; exact hall (by simpa using hl)
        · intro e' g hi hg
          rw [hex] at hi
          exact herr e' g (by simpa using hi) hg
      · have hno : ∀ r, o0 ≠ .ok r := fun r hr => hok ⟨r, hr⟩
        obtain ⟨rfl, rfl, hx, hg⟩ := stop hno
        refine ⟨rfl, [], ⟨?_, by simp, ?_, ?_⟩, fun x h => absurd h (hx x), by simp, ?_, fun _ => hval⟩
        · intro i e' hi
          simp only [List.append_nil, he] at hi
          cases i with
          | zero =>
            simp only [List.getElem?_cons_zero, Option.some.injEq] at hi
            subst hi
            exact ⟨net, rfl, by simpa using hinv⟩
          | succ i => simp at hi
        · simp [he]
        · intro e' hi r hr
          simp only [List.append_nil, he] at hi
          simp only [List.length_nil, List.getElem?_cons_zero, Option.some.injEq] at hi
          subst hi
          exact hno r (ho.trans (addOutcome_ok.2 hr))
        · intro e' g hi he'
          simp only [List.append_nil, he] at hi
          simp only [List.length_nil, List.getElem?_cons_zero, Option.some.injEq] at hi
          subst hi
          exact hg g (by rw [ho]; simp [addOutcome, he'])

/-- The ADD of a list: chain first, then the cache. -/
theorem addNetworkList_runs {c : CNIConfig} {list : NetConfList} {rt : RuntimeConf} (hrt : rt.OK) {o : Out (Option Result)}
    (h : Runs flt (c.addNetworkList list rt) fs tr fs' o) :
    ∃ rs, AddChain c list.name list.cniVersion rt list.plugins none tr rs ∧
      (∀ x, o = .ok x → rs.length = list.plugins.length ∧ x = rs.getLast?) ∧
      (∀ e g, tr.execs[rs.length]? = some e → e.resp = .error g → ∃ pre, o = .err (.wrap pre g)) ∧
      (tr.execs ≠ [] → ValidName rt.containerID ∧ ValidName list.name ∧ ValidIfName rt.ifName) ∧
      ((fs' = fs ∧ ∀ x, o ≠ .ok x) ∨ (rs.length = list.plugins.length ∧
        ∃ info p, cachedInfoOf rs.getLast? list.bytes list.name rt = some info ∧ c.cachePath list.name rt = .ok p ∧
          ((o = .ok rs.getLast? ∧ fs' = fs.set p (some info.json.print)) ∨
            (flt = true ∧ (∃ g, o = .err g) ∧ ∃ n, fs' = fs.set p (some (info.json.print.take n)))))) := by
  unfold CNIConfig.addNetworkList at h
  simp only [prog_bind_eq] at h
  obtain ⟨tr1, tr2, fs1, o1, rfl, h1, h2⟩ := runs_bind.1 h
  obtain ⟨rfl, rs, hch, hok, hall, herr, hval⟩ := addLoop_runs hrt h1
  cases o1 with
  | err g =>
    obtain ⟨rfl, rfl, rfl⟩ := h2
    simp only [List.append_nil]
    exact ⟨rs, hch, by simp, herr, hval, .inl ⟨by trivial, by simp⟩⟩
  | panic =>
    obtain ⟨rfl, rfl, rfl⟩ := h2
    simp only [List.append_nil]
    exact ⟨rs, hch, by simp, herr, hval, .inl ⟨by trivial, by simp⟩⟩
  | ok r =>
    obtain ⟨hlen, hr⟩ := hok r rfl
    rw [Option.or_none] at hr
    subst hr
    obtain ⟨tr3, tr4, fs2, o2, rfl, h3, h4⟩ := runs_bind.1 h2
    obtain ⟨o3, h5, rfl⟩ := runs_mapErr.1 h3
    obtain ⟨hne, hc⟩ := runs_cacheAdd h5
    have hno : tr4 = [] ∧ fs' = fs2 ∧ ((o3 = .ok () ∧ o = .ok rs.getLast?) ∨ ((∀ u, o3 ≠ .ok u) ∧ ∀ x, o ≠ .ok x)) ∧
        (∀ g, o3 = .err g → ∃ g', o = .err g') := by
      cases o3 with
      | ok u => obtain ⟨rfl, rfl, rfl⟩ := runs_done.1 h4; exact ⟨rfl, rfl, .inl ⟨rfl, rfl⟩, by simp⟩
      | err g => obtain ⟨rfl, rfl, rfl⟩ := h4; exact ⟨rfl, rfl, .inr ⟨by simp, by simp⟩, fun _ _ => ⟨_, rfl⟩⟩
      | panic => obtain ⟨rfl, rfl, rfl⟩ := h4; exact ⟨rfl, rfl, .inr ⟨by simp, by simp⟩, by simp⟩
    obtain ⟨rfl, rfl, ho, hg⟩ := hno
    have hex : Trace.execs (tr1 ++ (tr3 ++ [])) = tr1.execs := by rw [execs_append, List.append_nil, hne, List.append_nil]
    refine ⟨rs, ⟨?_, ?_, ?_, ?_⟩, ?_, ?_, ?_, ?_⟩
    · intro i e hi
      rw [hex] at hi
      obtain ⟨p, hp, hin⟩ := hch.invoked i e hi
      exact ⟨p, hp, by simpa using hin.mono (a := []) (d := tr3)⟩
    · rw [hex]; exact hch.results
    · rw [hex]; exact hch.atMostOneMore
    · rw [hex]; exact hch.lastFailed
    · intro x hx
      rcases ho with ⟨_, ho⟩ | ⟨_, ho⟩
      · rw [ho] at hx; cases hx; exact ⟨hlen, rfl⟩
      · exact absurd hx (ho x)
    · intro e g hi
      rw [hex] at hi
      obtain ⟨p, hp, _⟩ := hch.invoked _ e hi
      rw [hlen] at hp
      simp at hp
    · rw [hex]; exact hval
    · rcases hc with ⟨rfl, g, rfl⟩ | ⟨info, p, hi, hp, hc⟩
      · rcases ho with ⟨h, _⟩ | ⟨_, ho⟩
        · cases h
        · exact .inl ⟨rfl, ho⟩
      · refine .inr ⟨hlen, info, p, hi, hp, ?_⟩
        rcases hc with ⟨rfl, hfs⟩ | ⟨hf, ⟨g, hg'⟩, n, hfs⟩
        · rcases ho with ⟨_, ho⟩ | ⟨ho, _⟩
          · exact .inl ⟨ho, hfs⟩
          · exact absurd rfl (ho ())
        · exact .inr ⟨hf, hg g hg', n, hfs⟩

/-- `AddNetwork` is an ADD of one plugin. -/
theorem addNetwork_runs {c : CNIConfig} {net : PluginConfig} {rt : RuntimeConf} (hrt : rt.OK) {o : Out Result}
    (h : Runs flt (c.addNetwork net rt) fs tr fs' o) :
    ∃ rs, AddChain c net.network.name net.network.cniVersion rt [net] none tr rs ∧
      (∀ x, o = .ok x → rs = [x]) ∧
      (∀ e g, tr.execs = [e] → e.resp = .error g → o = .err g) ∧
      (tr.execs ≠ [] → ValidName rt.containerID ∧ ValidName net.network.name ∧ ValidIfName rt.ifName) ∧
      ((fs' = fs ∧ ∀ x, o ≠ .ok x) ∨ (∃ r, rs = [r] ∧
        ∃ info p, cachedInfoOf (some r) net.bytes net.network.name rt = some info ∧ c.cachePath net.network.name rt = .ok p ∧
          ((o = .ok r ∧ fs' = fs.set p (some info.json.print)) ∨
            (flt = true ∧ (∃ g, o = .err g) ∧ ∃ n, fs' = fs.set p (some (info.json.print.take n)))))) := by
  unfold CNIConfig.addNetwork at h
  simp only [prog_bind_eq] at h
  obtain ⟨tr1, tr2, fs1, o1, rfl, h1, h2⟩ := runs_bind.1 h
  obtain ⟨rfl, hc⟩ := addNetwork1_runs hrt h1
  rcases hc with ⟨he, hno⟩ | ⟨e, he, hinv, ho, hval⟩
  · have hst : tr2 = [] ∧ fs' = fs1 ∧ ∀ x, o ≠ .ok x := by
      cases o1 with
      | ok r => exact absurd rfl (hno r)
      | err g => obtain ⟨rfl, rfl, rfl⟩ := h2; exact ⟨rfl, rfl, by simp⟩
      | panic => obtain ⟨rfl, rfl, rfl⟩ := h2; exact ⟨rfl, rfl, by simp⟩
    obtain ⟨rfl, rfl, hx⟩ := hst
    refine ⟨[], ⟨?_, by simp, ?_, ?_⟩, fun x h => absurd h (hx x), ?_, ?_, .inl ⟨rfl, hx⟩⟩ <;>
      simp only [execs_append, he, execs_nil] <;> simp
  · by_cases hok : ∃ r, o1 = .ok r
    · obtain ⟨r, rfl⟩ := hok
      have hr : Returned e r := addOutcome_ok.1 ho.symm
      obtain ⟨tr3, tr4, fs2, o2, rfl, h3, h4⟩ := runs_bind.1 h2
      obtain ⟨o3, h5, rfl⟩ := runs_mapErr.1 h3
      obtain ⟨hne, hc⟩ := runs_cacheAdd h5
      have hno : tr4 = [] ∧ fs' = fs2 ∧ ((o3 = .ok () ∧ o = .ok r) ∨ ((∀ u, o3 ≠ .ok u) ∧ ∀ x, o ≠ .ok x)) ∧
          (∀ g, o3 = .err g → ∃ g', o = .err g') := by
        cases o3 with
        | ok u => obtain ⟨rfl, rfl, rfl⟩ := runs_done.1 h4; exact ⟨rfl, rfl, .inl ⟨rfl, rfl⟩, by simp⟩
        | err g => obtain ⟨rfl, rfl, rfl⟩ := h4; exact ⟨rfl, rfl, .inr ⟨by simp, by simp⟩, fun _ _ => ⟨_, rfl⟩⟩
        | panic => obtain ⟨rfl, rfl, rfl⟩ := h4; exact ⟨rfl, rfl, .inr ⟨by simp, by simp⟩, by simp⟩
      obtain ⟨rfl, rfl, ho', hg⟩ := hno
      have hex : Trace.execs (tr1 ++ (tr3 ++ [])) = [e] := by rw [execs_append, List.append_nil, hne, he]; rfl
      refine ⟨[r], ⟨?_, ?_, ?_, ?_⟩, ?_, ?_, fun _ => hval, ?_⟩
      · intro i e' hi
        rw [hex] at hi
        cases i with
        | zero =>
          simp only [List.getElem?_cons_zero, Option.some.injEq] at hi
          subst hi
          exact ⟨net, rfl, by simpa using hinv.mono (a := []) (d := tr3)⟩
        | succ i => simp at hi
      · intro i r' hi
        rw [hex]
        cases i with
        | zero =>
          simp only [List.getElem?_cons_zero, Option.some.injEq] at hi
          subst hi
          exact ⟨e, rfl, hr⟩
        | succ i => simp at hi
      · rw [hex]; simp
      · rw [hex]; simp
      · intro x hx
        rcases ho' with ⟨_, ho'⟩ | ⟨_, ho'⟩
        · rw [ho'] at hx; cases hx; rfl
        · exact absurd hx (ho' x)
      · intro e' g hi he'
        rw [hex] at hi
        cases hi
        obtain ⟨out, h6, _⟩ := hr
        rw [he'] at h6; cases h6
      · rcases hc with ⟨rfl, g, rfl⟩ | ⟨info, p, hi, hp, hc⟩
        · rcases ho' with ⟨h, _⟩ | ⟨_, ho⟩
          · cases h
          · exact .inl ⟨rfl, ho⟩
        · refine .inr ⟨r, rfl, info, p, hi, hp, ?_⟩
          rcases hc with ⟨rfl, hfs⟩ | ⟨hf, ⟨g, hg'⟩, n, hfs⟩
          · rcases ho' with ⟨_, ho⟩ | ⟨ho, _⟩
            · exact .inl ⟨ho, hfs⟩
            · exact absurd rfl (ho ())
          · exact .inr ⟨hf, hg g hg', n, hfs⟩
    · have hno : ∀ r, o1 ≠ .ok r := fun r hr => hok ⟨r, hr⟩
      have hst : tr2 = [] ∧ fs' = fs1 ∧ (∀ x, o ≠ .ok x) ∧ ∀ g, o1 = .err g → o = .err g := by
        cases o1 with
        | ok r => exact absurd rfl (hno r)
        | err g => obtain ⟨rfl, rfl, rfl⟩ := h2; exact ⟨rfl, rfl, by simp, fun g h => by cases h; rfl⟩
        | panic => obtain ⟨rfl, rfl, rfl⟩ := h2; exact ⟨rfl, rfl, by simp, by simp⟩
      obtain ⟨rfl, rfl, hx, hg⟩ := hst
      simp only [List.append_nil]
      refine ⟨[], ⟨?_, by simp, by simp [he], ?_⟩, fun x h => absurd h (hx x), ?_, fun _ => hval, .inl ⟨by trivial, hx⟩⟩
      · intro i e' hi
        rw [he] at hi
        cases i with
        | zero =>
          simp only [List.getElem?_cons_zero, Option.some.injEq] at hi
          subst hi
          exact ⟨net, rfl, by simpa using hinv⟩
        | succ i => simp at hi
      · intro e' hi r hr
        simp only [he, List.length_nil, List.getElem?_cons_zero, Option.some.injEq] at hi
        subst hi
        exact hno r (ho.trans (addOutcome_ok.2 hr))
      · intro e' g hi he'
        rw [he] at hi
        cases hi
        exact hg g (by rw [ho]; simp [addOutcome, he'])

/-! ### C12 -/

/-- ADD of a list executes the plugins in order, each at most once, the first without a previous result and every other with
the result of the one before, and stops at the first that fails. On success all plugins were executed and the result is that
of the last one. The error of a plugin that failed is what is returned, with a description in front. -/
theorem c12_add_list (c : CNIConfig) (list : NetConfList) (rt : RuntimeConf) (hrt : rt.OK) (fs fs' : FS) (tr : Trace)
    (o : Out (Option Result)) (h : Runs flt (c.addNetworkList list rt) fs tr fs' o) :
    ∃ rs, AddChain c list.name list.cniVersion rt list.plugins none tr rs ∧
      (∀ x, o = .ok x → rs.length = list.plugins.length ∧ tr.execs.length = list.plugins.length ∧ x = rs.getLast?) ∧
      (∀ e g, tr.execs[rs.length]? = some e → e.resp = .error g → ∃ pre, o = .err (.wrap pre g)) := by
  obtain ⟨rs, hch, h1, h2, -⟩ := addNetworkList_runs hrt h
  refine ⟨rs, hch, fun x hx => ?_, h2⟩
  obtain ⟨hl, hx⟩ := h1 x hx
  refine ⟨hl, ?_, hx⟩
  have hle : tr.execs.length ≤ list.plugins.length := by
    rcases Nat.lt_or_ge list.plugins.length tr.execs.length with hgt | hge
    · obtain ⟨p, hp, _⟩ := hch.invoked list.plugins.length _ (List.getElem?_eq_getElem hgt)
      simp at hp
    · exact hge
  have hge : rs.length ≤ tr.execs.length := by
    rcases Nat.lt_or_ge tr.execs.length rs.length with hgt | hge
    · obtain ⟨e, he, _⟩ := hch.results tr.execs.length _ (List.getElem?_eq_getElem hgt)
      simp at he
    · exact hge
  omega

/-- ADD of a single network: the same for its one plugin. -/
theorem c12_add_network (c : CNIConfig) (net : PluginConfig) (rt : RuntimeConf) (hrt : rt.OK) (fs fs' : FS) (tr : Trace)
    (o : Out Result) (h : Runs flt (c.addNetwork net rt) fs tr fs' o) :
    ∃ rs, AddChain c net.network.name net.network.cniVersion rt [net] none tr rs ∧ (∀ x, o = .ok x → rs = [x]) ∧
      (∀ e g, tr.execs = [e] → e.resp = .error g → o = .err g) := by
  obtain ⟨rs, hch, h1, h2, -⟩ := addNetwork_runs hrt h
  exact ⟨rs, hch, h1, h2⟩

/-! ### C13 -/

/-- A failed ADD of a list changes no file. (With failing file operations it can, but only after all plugins succeeded: the
entry was being written.) -/
theorem c13_add_list (c : CNIConfig) (list : NetConfList) (rt : RuntimeConf) (hrt : rt.OK) (fs fs' : FS) (tr : Trace)
    (o : Out (Option Result)) (h : Runs flt (c.addNetworkList list rt) fs tr fs' o) (hfail : ∀ x, o ≠ .ok x) :
    fs' = fs ∨ (flt = true ∧ ∃ rs, AddChain c list.name list.cniVersion rt list.plugins none tr rs ∧
      rs.length = list.plugins.length) := by
  obtain ⟨rs, hch, -, -, -, hc⟩ := addNetworkList_runs hrt h
  rcases hc with ⟨rfl, _⟩ | ⟨hl, info, p, _, _, ⟨ho, _⟩ | ⟨hf, _⟩⟩
  · exact .inl rfl
  · exact absurd ho (hfail _)
  · exact .inr ⟨hf, rs, hch, hl⟩

/-- A failed ADD of a network changes no file. -/
theorem c13_add_network (c : CNIConfig) (net : PluginConfig) (rt : RuntimeConf) (hrt : rt.OK) (fs fs' : FS) (tr : Trace)
    (o : Out Result) (h : Runs flt (c.addNetwork net rt) fs tr fs' o) (hfail : ∀ x, o ≠ .ok x) :
    fs' = fs ∨ (flt = true ∧ ∃ r, AddChain c net.network.name net.network.cniVersion rt [net] none tr [r]) := by
  obtain ⟨rs, hch, -, -, -, hc⟩ := addNetwork_runs hrt h
  rcases hc with ⟨rfl, _⟩ | ⟨r, rfl, info, p, _, _, ⟨ho, _⟩ | ⟨hf, _⟩⟩
  · exact .inl rfl
  · exact absurd ho (hfail _)
  · exact .inr ⟨hf, r, hch⟩

/-- In particular, when file operations do not fail, a failed ADD changes nothing. -/
theorem c13_no_faults (c : CNIConfig) (list : NetConfList) (rt : RuntimeConf) (hrt : rt.OK) (fs fs' : FS) (tr : Trace)
    (o : Out (Option Result)) (h : Runs false (c.addNetworkList list rt) fs tr fs' o) (hfail : ∀ x, o ≠ .ok x) : fs' = fs := by
  rcases c13_add_list c list rt hrt fs fs' tr o h hfail with h | ⟨hf, _⟩
  · exact h
  · cases hf

/-! ### C20 -/

/-- ADD of a list with plugins changes at most the file of its attachment, which is directly inside the results directory;
whatever the names are. -/
theorem c20_add_list (c : CNIConfig) (list : NetConfList) (rt : RuntimeConf) (hrt : rt.OK) (hne : list.plugins ≠ [])
    (fs fs' : FS) (tr : Trace) (o : Out (Option Result)) (h : Runs flt (c.addNetworkList list rt) fs tr fs' o) (q : Bytes)
    (hq : fs' q ≠ fs q) : q = entryPath c list.name rt ∧ InResults c rt q := by
  obtain ⟨rs, hch, -, -, hval, hc⟩ := addNetworkList_runs hrt h
  rcases hc with ⟨rfl, _⟩ | ⟨hl, info, p, _, hp, hc⟩
  · exact absurd rfl hq
  · have hex : tr.execs ≠ [] := by
      intro hnil
      cases hr : rs with
      | nil => rw [hr] at hl; exact hne (List.length_eq_zero_iff.1 hl.symm)
      | cons r rs' =>
        obtain ⟨e, he, _⟩ := hch.results 0 r (by rw [hr]; rfl)
        rw [hnil] at he; simp at he
    have hpn := plainNames_of_valid (hval hex)
    rw [cachePath_eq hpn] at hp
    cases hp
    have : q = entryPath c list.name rt := by
      rcases hc with ⟨_, rfl⟩ | ⟨_, _, n, rfl⟩ <;>
      · by_cases he : q = entryPath c list.name rt
        · exact he
        · exact absurd (FS.set_other _ _ he) hq
    exact ⟨this, this ▸ entryPath_inResults hpn⟩

/-- The same for a single network. -/
theorem c20_add_network (c : CNIConfig) (net : PluginConfig) (rt : RuntimeConf) (hrt : rt.OK)
    (fs fs' : FS) (tr : Trace) (o : Out Result) (h : Runs flt (c.addNetwork net rt) fs tr fs' o) (q : Bytes)
    (hq : fs' q ≠ fs q) : q = entryPath c net.network.name rt ∧ InResults c rt q := by
  obtain ⟨rs, hch, -, -, hval, hc⟩ := addNetwork_runs hrt h
  rcases hc with ⟨rfl, _⟩ | ⟨r, rfl, info, p, _, hp, hc⟩
  · exact absurd rfl hq
  · have hex : tr.execs ≠ [] := by
      intro hnil
      obtain ⟨e, he, _⟩ := hch.results 0 r rfl
      rw [hnil] at he; simp at he
    have hpn := plainNames_of_valid (hval hex)
    rw [cachePath_eq hpn] at hp
    cases hp
    have : q = entryPath c net.network.name rt := by
      rcases hc with ⟨_, rfl⟩ | ⟨_, _, n, rfl⟩ <;>
      · by_cases he : q = entryPath c net.network.name rt
        · exact he
        · exact absurd (FS.set_other _ _ he) hq
    exact ⟨this, this ▸ entryPath_inResults hpn⟩

/-! ### concrete cases -/

namespace Example
/-- Two plugins; `b` reports failure when told so. -/
def plugA : PluginConfig := { network := { type := b!"a" }, bytes := b!"{\"type\":\"a\",\"x\":1}" }
def plugB : PluginConfig := { network := { type := b!"b" }, bytes := b!"{\"type\":\"b\"}" }
def list : NetConfList := { name := b!"net", cniVersion := b!"1.0.0", plugins := [plugA, plugB], bytes := b!"{}" }
def rt : RuntimeConf := { containerID := b!"c1", netNS := b!"/ns", ifName := b!"eth0", args := [(b!"K", b!"V")] }
def cfg : CNIConfig := { path := [b!"/bin"], cacheDir := b!"/cache" }
def find (n : Bytes) : Except GoErr Bytes := .ok (b!"/bin/" ++ n)
def good (p _i : Bytes) (_a : PArgs) : Except GoErr Bytes :=
  .ok (if p = b!"/bin/a" then b!"{\"cniVersion\":\"1.0.0\",\"ips\":[{\"address\":\"10.0.0.1/24\"}]}"
    else b!"{\"cniVersion\":\"1.0.0\",\"dns\":{\"domain\":\"d\"}}")
def failB (p i : Bytes) (a : PArgs) : Except GoErr Bytes := if p = b!"/bin/b" then .error (.text b!"no") else good p i a
def noFiles : FS := fun _ => none

theorem rt_ok : rt.OK := ⟨by trivial, by simp [rt]⟩

/-- A successful ADD: both plugins run, the second is given the result of the first, and one file is written. -/
example : ∃ tr fs' o, Runs false (cfg.addNetworkList list rt) noFiles tr fs' o ∧
    (tr.execs.map (fun e => (e.path, e.stdin)), (fs' b!"/cache/results/net-c1-eth0").isSome, o.toOption.map (Option.map Result.json)) =
      ([(b!"/bin/a", b!"{\"cniVersion\":\"1.0.0\",\"name\":\"net\",\"type\":\"a\",\"x\":1}"),
        (b!"/bin/b", b!"{\"cniVersion\":\"1.0.0\",\"name\":\"net\",\"prevResult\":{\"cniVersion\":\"1.0.0\",\"ips\":[{\"address\":\"10.0.0.1/24\"}]},\"type\":\"b\"}")],
       true, some (some (Json.parse b!"{\"cniVersion\":\"1.0.0\",\"dns\":{\"domain\":\"d\"}}"))) :=
  Prog.interp_exists (find := find) (exec := good) (fun tr fs' o => (tr.execs.map (fun e => (e.path, e.stdin)),
    (fs' b!"/cache/results/net-c1-eth0").isSome, o.toOption.map (Option.map Result.json))) (by decide +kernel)

/-- A failing second plugin: both are executed, the error comes back, no file is written. -/
example : ∃ tr fs' o, Runs false (cfg.addNetworkList list rt) noFiles tr fs' o ∧
    (tr.execs.map (fun e => e.path), fs' b!"/cache/results/net-c1-eth0", o.toOption) = ([b!"/bin/a", b!"/bin/b"], none, none) :=
  Prog.interp_exists (find := find) (exec := failB) (fun tr fs' o => (tr.execs.map (fun e => e.path),
    fs' b!"/cache/results/net-c1-eth0", o.toOption)) (by decide +kernel)

/-- With a list without plugins nothing is validated: such an ADD writes outside the results directory. -/
theorem _root_.Verif.c20_empty_list_escapes : ∃ tr fs' o,
    Runs false (cfg.addNetworkList { name := b!"../../etc/x", cniVersion := b!"1.0.0", plugins := [], bytes := b!"{}" }
      rt) noFiles tr fs' o ∧
    ((fs' b!"/etc/x-c1-eth0").isSome, o.toOption) = (true, some none) :=
  Prog.interp_exists (find := find) (exec := good) (fun _ fs' o => ((fs' b!"/etc/x-c1-eth0").isSome, o.toOption)) (by decide +kernel)

/-- DEL does not validate names either: it removes a file outside the results directory. -/
theorem _root_.Verif.c20_del_escapes : ∃ tr fs' o,
    Runs false (cfg.delNetworkList { list with name := b!"../../etc/x" } rt)
      (FS.set noFiles b!"/etc/x-c1-eth0" (some b!"precious")) tr fs' o ∧
    (fs' b!"/etc/x-c1-eth0", o.toOption) = (none, some ()) :=
  Prog.interp_exists (find := find) (exec := good) (fun _ fs' o => (fs' b!"/etc/x-c1-eth0", o.toOption)) (by decide +kernel)

/-- The hypotheses of `c20_add_list`: the file of the attachment is where it should be. -/
example : entryPath cfg list.name rt = b!"/cache/results/net-c1-eth0" := by decide +kernel

end Example

end Verif
