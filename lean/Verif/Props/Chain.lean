/- C66: a chain of plugins computes the composition of their functions. -/
import Verif.Spec.Chain
import Verif.Props.Debug
import Verif.Props.Progress

namespace Verif
open Spec

/-! ### the errors of a conversion are plain texts -/

/-- The outcome is no error but a plain text. Proof device: models no code. -/
def TextOnly {α : Type} (o : Out α) : Prop := ∀ g, o = .err g → ∃ s, g = .text s

theorem textOnly_mapDeref {α β : Type} (f : α → β) (l : List (Option α)) : TextOnly (mapDeref f l) := by
  induction l with
  | nil => intro g h; cases h
  | cons a l ih =>
    cases a with
    | none => intro g h; cases h
    | some a =>
      intro g h
      unfold mapDeref at h
      split at h
      · cases h
      · rename_i e he; cases h; exact ih _ he
      · cases h

theorem textOnly_pickIPs (l : List (Option Ip040)) (i4 i6 : Option Ip020) : TextOnly (pickIPs l i4 i6) := by
  induction l generalizing i4 i6 with
  | nil => intro g h; cases h
  | cons a l ih =>
    cases a with
    | none => intro g h; cases h
    | some a =>
      intro g h
      unfold pickIPs at h
      simp only at h
      generalize (if a.version = b!"4" ∧ i4 = none then _ else _ : Option Ip020 × Option Ip020) = q at h
      split at h
      · cases h
      · exact ih _ _ _ h

theorem textOnly_pickRoutes (l : List (Option Route)) (i4 i6 : Option Ip020) : TextOnly (pickRoutes l i4 i6) := by
  induction l generalizing i4 i6 with
  | nil => intro g h; cases h
  | cons a l ih =>
    cases a with
    | none => intro g h; cases h
    | some a =>
      intro g h
      unfold pickRoutes at h
      simp only at h
      split at h
      · exact ih _ _ _ h
      · split at h <;> exact ih _ _ _ h

theorem textOnly_04x (r : Result) (v : Bytes) : TextOnly (convertTo04x r v) ∧ TextOnly (convertFrom04x r v) := by
  constructor
  all_goals
    intro g h
    first | unfold convertTo04x at h | unfold convertFrom04x at h
    split at h
    · split at h
      · split at h
        · cases h
        · rename_i he; cases h; exact textOnly_mapDeref _ _ _ he
        · cases h
      · rename_i he; cases h; exact textOnly_mapDeref _ _ _ he
      · cases h
    · cases h

theorem textOnly_applyConv (again : Result → Bytes → Out Result) (ha : ∀ r v, TextOnly (again r v)) (c : Conv) (r : Result) (v : Bytes) :
    TextOnly (applyConv again c r v) := by
  intro g h
  cases c
  case c100To04x => exact (textOnly_04x r v).1 g h
  case c100From04x => exact (textOnly_04x r v).2 g h
  case c100From02x =>
    simp only [applyConv] at h
    split at h
    · exact (textOnly_04x _ v).2 g h
    · rename_i he; cases h; exact ha _ _ _ he
    · cases h
  case c100To02x =>
    simp only [applyConv] at h
    split at h
    · exact ha _ _ _ h
    · rename_i he; cases h; exact (textOnly_04x _ _).1 _ he
    · cases h
  case c040To02x =>
    simp only [applyConv, convert040To02x] at h
    split at h
    · split at h
      · split at h
        · split at h
          · cases h; exact ⟨_, rfl⟩
          · cases h
        · rename_i he; cases h; exact textOnly_pickRoutes _ _ _ _ he
        · cases h
      · rename_i he; cases h; exact textOnly_pickIPs _ _ _ _ he
      · cases h
    · cases h
  all_goals
    cases r <;> simp only [applyConv, convertFrom010, convertTo010, convert040From02x, convertInternal, convertFrom100] at h <;> first | cases h | (split at h <;> cases h)

theorem textOnly_convert (r : Result) (v : Bytes) : TextOnly (convert r v) := by
  have : ∀ n r v, TextOnly (convertN n r v) := by
    intro n
    induction n with
    | zero => intro r v g h; cases h
    | succ n ih =>
      intro r v g h
      simp only [convertN, convertStep] at h
      generalize (if v = [] then b!"0.1.0" else v) = v' at h
      split at h
      · cases h
      · split at h
        · cases h; exact ⟨_, rfl⟩
        · exact textOnly_applyConv _ ih _ _ _ _ h
  exact this 2 r v

theorem textOnly_getAsVersion (r : Result) (v : Bytes) : TextOnly (r.getAsVersion v) := by
  cases r <;> exact textOnly_convert _ _

/-! ### one execution -/

theorem sameFormat_self {v : Bytes} (hv : effective v ∈ specVersions) : SameFormat v (effective v) := by
  unfold effective at hv ⊢
  split at hv
  · rename_i h
    subst h
    exact .inl ⟨.inl rfl, by decide⟩
  · rename_i h
    rw [if_neg h]
    simp only [specVersions, List.mem_cons, List.not_mem_nil, or_false] at hv
    rcases hv with rfl | rfl | rfl | rfl | rfl | rfl | rfl
    all_goals first
      | exact .inl ⟨.inr (by decide), by decide⟩
      | exact .inr (.inl ⟨by decide, by decide⟩)
      | exact .inr (.inr ⟨by decide, by decide⟩)

theorem passable_std {ver : Bytes} {r r' : Result} (hw : r.version = [] ∨ WellTyped r) (hrep : Representable true (std r'))
    (hr : r.getAsVersion ver = .ok r') :
    Passable ver (std r') ∧ ∃ out, printResult r ver = .ok out := by
  have hver : r'.version = (if ver = [] then b!"0.1.0" else ver) ∧ WellTyped r' := by
    rw [c27_getAsVersion] at hr
    split at hr
    · rename_i hne
      have := c27_reports_requested hr
      exact ⟨this.1, this.2 (hw.resolve_left hne)⟩
    · cases r <;> (have := c27_reports_requested hr; refine ⟨this.1, this.2 ?_⟩; simp only [WellTyped]; decide)
  have hws := (wellTyped_std r').mpr hver.2
  refine ⟨⟨hws, by rw [version_std]; exact hver.1, hrep⟩, ?_⟩
  obtain ⟨j, hj, -⟩ := Result.json_reads hws hrep (fun _ => rfl)
  rw [json_std] at hj
  refine ⟨j.printIndent 0, ?_⟩
  unfold printResult
  rw [hr]
  simp [Result.printTo, hj]

/-- What the answer of such a plugin is. -/
theorem plugin_replies {c : CNIConfig} {list : NetConfList} {rt : RuntimeConf} {enum : MapEnum} {environ : List Bytes}
    {quote : Bytes → Bytes} (hv : effective list.cniVersion ∈ specVersions) {e : ExecEv}
    {p : PluginConfig} (hacc : ∀ t, ProcessOf enum environ e t → Accepted c .add list.name list.cniVersion rt p.bytes e t)
    (hplain : PlainConf p.bytes) (hread : ReadAs p.bytes p.network)
    (hraw : p.network.rawPrev = none) {f : AddFn} (hf : Proper c list rt p f)
    (hpl : PluginOf quote enum environ list.cniVersion f e) {prev : Option Result} {doc : Option Json} (hdoc : DocOf prev doc)
    (hst : StdinSpec p.bytes list.name list.cniVersion doc rt.capArgs e.stdin) (hprev : ∀ r, prev = some r → Passable list.cniVersion r) :
    ∃ conf a, Told c list rt p prev conf a ∧
      (∀ g, f conf a = .error g → e.resp = .error (.cni (reported g))) ∧
      (∀ r g, f conf a = .ok r → r.getAsVersion list.cniVersion = .err g → e.resp = .error (.cni (reported g))) ∧
      ∀ r r', f conf a = .ok r → r.getAsVersion list.cniVersion = .ok r' → ∀ x, Returned e x ↔ x = std r' := by
  obtain ⟨t, funcs, vi, about, ns, printed, stderr, hproc, hadd, hprt, hsup, hap, hans⟩ := hpl
  have hsf := sameFormat_self hv
  obtain ⟨hsan, -⟩ := sanitize_spec hsf
  have hacc := hacc t hproc
  obtain ⟨w, hcv, hweq, -⟩ := hacc.version
  have hw := hweq (plainVersion_of hplain)
  rw [hsan] at hw
  subst hw
  have hnm : sanitize list.name = list.name := validName_utf8 hacc.name.2
  obtain ⟨cf, hcf, hceq, hnone, hsome⟩ := c54_stdin hdoc hst hplain p.network hread (fun r hr => (hprev r hr).typed)
  rw [hnm, hsan] at hceq
  have hnp : p.network.prevResult = none := readAs_prevNone hread
  let conf : PluginConf := { p.network with name := list.name, cniVersion := list.cniVersion, rawPrev := none, prevResult := prev }
  have hparse : parsePrevResult cf = (conf, none) := by
    cases prev with
    | none =>
      have h1 : cf.rawPrev = none := by rw [hnone rfl, hraw]
      rw [h1] at hceq
      simp only [parsePrevResult, h1]
      rw [hceq]
      show ({ p.network with name := list.name, cniVersion := list.cniVersion, rawPrev := none }, (none : Option GoErr)) = _
      simp only [conf, ← hnp]
    | some r =>
      have hr := hprev r rfl
      rw [(hsome r rfl).1 (by rw [hsan, hr.version]; exact hsf) hr.rep]
      have : { cf with rawPrev := none, prevResult := some r } = conf := by
        rw [hceq]
      rw [this]
  have hstdin : (requestArgs t.getenv e.stdin).stdinData = e.stdin := rfl
  have hcb : addCallback f (requestArgs t.getenv e.stdin) = match f conf (requestArgs t.getenv e.stdin) with
      | .error g => .err g
      | .ok r => printResult r list.cniVersion := by
    obtain ⟨j, hj, hjd⟩ := hcf
    unfold addCallback
    rw [hstdin, hj]
    simp only [Option.bind_some, hjd, hparse]
    rfl
  have hreq : ValidRequest t.getenv e.stdin vi.supported .add :=
    ⟨hacc.env, ⟨_, hacc.name⟩, ⟨_, hcv, hsup, by intro u hu; cases hu⟩⟩
  have hnomin : minVersion .add ≠ none → ∀ s ∈ vi.supported, ∃ p, Reads s p := fun h => absurd rfl h
  have hcf' : callbackOf funcs .add = some (addReturns f) := hadd
  have hcalls := c35_valid_called t funcs vi about ns .add e.stdin _ hproc.stdin hreq hnomin hcf'
  -- an error of the callback is the answer
  have herr : ∀ g, addCallback f (requestArgs t.getenv e.stdin) = .err g → (∀ ce, g.asCni = some ce → ce.code < 2 ^ 64) →
      e.resp = .error (.cni (reported g)) := by
    intro g hg hcode
    have hret : addReturns f (requestArgs t.getenv e.stdin) = .err g := by unfold addReturns; rw [hg]; rfl
    obtain ⟨h1, h2⟩ := c36_callback_error t funcs vi about ns .add e.stdin _ g hproc.stdin hreq hnomin hcf' hret
    have hq : ∀ x ∈ (t.pluginMain funcs vi about ns).calls, printed x = [] := by
      intro x hx
      rw [hcalls, List.mem_singleton] at hx
      subst hx
      rw [hprt, addPrinted, hg]
    cases hcni : g.asCni with
    | some ce =>
      have := c46_skel_answer quote e t funcs vi about ns printed stderr hans ce (hcode ce hcni) (h1 ce hcni) hq
      rw [this, reported, hcni]
      rfl
    | none =>
      have := c46_skel_answer quote e t funcs vi about ns printed stderr hans _ (show (999 : Nat) < 2 ^ 64 by decide) (h2 hcni) hq
      rw [this, reported, hcni]
      rfl
  have htold : Told c list rt p prev conf (requestArgs t.getenv e.stdin) := ⟨rfl, hacc.sees, doc, hdoc, hst⟩
  refine ⟨conf, requestArgs t.getenv e.stdin, htold, ?_, ?_, ?_⟩
  · intro g hg
    exact herr g (by rw [hcb, hg]) (fun ce hce => hf.code _ _ _ hprev htold g ce hg hce)
  · intro r g hr hg
    refine herr g ?_ ?_
    · rw [hcb, hr]
      simp only [printResult, hg]
      rfl
    · intro ce hce
      obtain ⟨s, rfl⟩ := textOnly_getAsVersion r list.cniVersion g hg
      cases hce
  · intro r r' hr hr'
    obtain ⟨htyp, -, hrep⟩ := hf.result _ _ _ hprev htold r hr
    obtain ⟨-, out, hout⟩ := passable_std htyp (hrep r' hr') hr'
    have hcbo : addCallback f (requestArgs t.getenv e.stdin) = .ok out := by rw [hcb, hr]; exact hout
    have hret : addReturns f (requestArgs t.getenv e.stdin) = .ok () := by unfold addReturns; rw [hcbo]; rfl
    have hs := c38_success t funcs vi about ns .add e.stdin _ hproc.stdin hreq hnomin hcf' hret (.inr hap)
    have hresp := c53_skel_answer quote e t funcs vi about ns printed stderr hans .add _ hcalls (by rw [hs])
    rw [hprt, addPrinted, hcbo] at hresp
    obtain ⟨r'', h1, h2⟩ := c53_returned e r htyp list.cniVersion out hout hresp _ ((confVersion_iff _ _).2 hcv)
      hrep
    rw [hr'] at h1
    cases h1
    exact h2

/-- In an ADD of a list. -/
theorem plugin_answers {c : CNIConfig} {list : NetConfList} {rt : RuntimeConf} (hrt : rt.OK) (hns : rt.netNS ≠ [])
    (hpath : joinWith b!":" c.path ≠ []) {fs fs' : FS} {tr : Trace} {o : Out (Option Result)} {flt : Bool}
    (h : Runs flt (c.addNetworkList list rt) fs tr fs' o) {enum : MapEnum} (hen : IsMapOrder enum) {environ : List Bytes}
    {quote : Bytes → Bytes} (hv : effective list.cniVersion ∈ specVersions) {i : Nat} {e : ExecEv} (hi : tr.execs[i]? = some e)
    {p : PluginConfig} (hp : list.plugins[i]? = some p) (hplain : PlainConf p.bytes) (hread : ReadAs p.bytes p.network)
    (hraw : p.network.rawPrev = none) {f : AddFn} (hf : Proper c list rt p f)
    (hpl : PluginOf quote enum environ list.cniVersion f e) {prev : Option Result} {doc : Option Json} (hdoc : DocOf prev doc)
    (hst : StdinSpec p.bytes list.name list.cniVersion doc rt.capArgs e.stdin) (hprev : ∀ r, prev = some r → Passable list.cniVersion r) :
    ∃ conf a, Told c list rt p prev conf a ∧
      (∀ g, f conf a = .error g → e.resp = .error (.cni (reported g))) ∧
      (∀ r g, f conf a = .ok r → r.getAsVersion list.cniVersion = .err g → e.resp = .error (.cni (reported g))) ∧
      ∀ r r', f conf a = .ok r → r.getAsVersion list.cniVersion = .ok r' → ∀ x, Returned e x ↔ x = std r' := by
  refine plugin_replies hv (fun t ht => ?_) hplain hread hraw hf hpl hdoc hst hprev
  obtain ⟨p', hp', hacc⟩ := c39_add_list c list rt hrt hns hpath fs fs' tr o h enum hen environ i e hi t ht
  rw [hp] at hp'
  cases hp'
  exact hacc

/-! ### configurations that need not come from a list -/

/-- C63: a configuration of a single plugin that names its type, says everything about the common fields once and spelled as
documented, and has no number that cannot be stored, is one the theorems of C63 are about, wherever it comes from. (Those loaded from a
list always are: `c24_loaded_sound`.) -/
theorem c63_plain_sound (p : PluginConfig) (hp : PlainConf p.bytes) (hr : ReadAs p.bytes p.network) (ht : p.network.type ≠ [])
    (ms : List (Bytes × Json)) (hms : Json.parse p.bytes = some (.obj ms)) (hrange : InRange (.obj ms)) : Sound p := by
  obtain ⟨m, hm⟩ := (members_inRange (Json.parse_WF hms)).2 hrange
  obtain ⟨j, hj, hd⟩ := hr
  rw [hms] at hj
  cases hj
  obtain ⟨hpl', hi, hdn, ha⟩ := hp ms hms
  have hpl : Plainly pluginConfFields ms := hpl'
  have hP := plainly_toAny hm hpl
  have says : ∀ f, Says ms (GoMap.ofList m) f := fun f => says_of_toAny hm hpl.once
  have hd' := hd
  simp only [decPluginConf, structMembers, Option.bind_eq_bind, Option.bind_some, Option.bind_eq_some_iff] at hd'
  obtain ⟨v0, hv0, n0, hn0, t0, ht0, ca0, hca0, ip0, hip0, d0, hd0, p0, hp0, a0, ha0, he0⟩ := hd'
  refine sound_intro hms hm (c := p.network) ?_ rfl ht
  rw [← hd]
  simp only [decPluginConf, structMembers, Option.bind_eq_bind, Option.bind_some]
  rw [decField_same (dec := decStr) (i := []) (f := b!"cniVersion") hpl hP (by decide) (says _) (fun _ _ _ h => decStr_toAny h),
    decField_same (dec := decStr) (i := []) (f := b!"name") hpl hP (by decide) (says _) (fun _ _ _ h => decStr_toAny h),
    decField_same (dec := decStr) (i := []) (f := b!"type") hpl hP (by decide) (says _) (fun _ _ _ h => decStr_toAny h),
    decField_same (dec := decBoolMap) (i := []) hpl hP (by decide) (says _) (fun v w hm h => decBoolMap_toAny_eq h (by
      rw [getField_plain hpl (by decide), GoMap.get?_of_nodup hpl.once hm] at hca0
      rw [show decBoolMap [] v = some ca0 by simpa [decAll_one] using hca0]; rfl)),
    decField_same (dec := decIpam) (i := []) hpl hP (by decide) (says _)
      (fun v w hm h => decIpam_toAny (fun is e => hi is (by rw [← e]; exact hm)) h),
    decField_same (dec := decDns) (i := {}) hpl hP (by decide) (says _)
      (fun v w hm h => decDns_toAny (fun is e => hdn is (by rw [← e]; exact hm)) h),
    decField_same (dec := decAnyMap) (i := none) hpl hP (by decide) (says _) (fun v w hm h => decAnyMap_toAny h),
    decField_same (dec := decList decAttachment) (i := []) hpl hP (by decide) (says _)
      (fun v w hm h => decAttachments_toAny (fun l e => ha l (by rw [← e]; exact hm)) h)]

/-! ### the chain -/

theorem zip_getElem? {α β : Type} {l : List α} {m : List β} {i : Nat} {a : α} {b : β} (ha : l[i]? = some a) (hb : m[i]? = some b) :
    (l.zip m)[i]? = some (a, b) := by
  rw [List.getElem?_zip_eq_some]
  exact ⟨ha, hb⟩

theorem drop_of_getElem? {α : Type} {l : List α} {i : Nat} {a : α} (h : l[i]? = some a) : l.drop i = a :: l.drop (i + 1) := by
  obtain ⟨hlt, rfl⟩ := List.getElem?_eq_some_iff.1 h
  exact List.drop_eq_getElem_cons hlt

/-- C66: ADD of a list computes the composition of what its plugins do. If every plugin of the list is found, and the executions are
of plugins built with skel around the functions `F`, then the outcome of ADD is one that the chain of functions computes: its last
result, or the first error. -/
theorem c66_add_list (c : CNIConfig) (list : NetConfList) (rt : RuntimeConf) (hrt : rt.OK) (hns : rt.netNS ≠ [])
    (hpath : joinWith b!":" c.path ≠ [])
    (hnames : ValidName rt.containerID ∧ ValidName list.name ∧ ValidIfName rt.ifName) (hv : effective list.cniVersion ∈ specVersions)
    (hne : list.plugins ≠ [])
    (hs : ∀ p ∈ list.plugins, Sound p ∧ PlainConf p.bytes ∧ ReadAs p.bytes p.network ∧ p.network.rawPrev = none)
    (F : List AddFn) (hlen : F.length = list.plugins.length) (hF : ∀ x ∈ list.plugins.zip F, Proper c list rt x.1 x.2)
    (fs fs' : FS) (tr : Trace) (o : Out (Option Result)) (h : Runs false (c.addNetworkList list rt) fs tr fs' o) (hfound : AllFound tr)
    (enum : MapEnum) (hen : IsMapOrder enum) (environ : List Bytes) (quote : Bytes → Bytes)
    (hex : ∀ (i : Nat) (e : ExecEv) (f : AddFn), tr.execs[i]? = some e → F[i]? = some f → PluginOf quote enum environ list.cniVersion f e) :
    ∃ out, Computes c list rt (list.plugins.zip F) none out ∧
      match out with
      | .ok r => o = .ok r
      | .error ce => FailedWith o ce := by
  obtain ⟨rs, hch, hok, -, -, -⟩ := addNetworkList_runs hrt h
  -- what happens at position `i`
  have hat : ∀ (i : Nat) (e : ExecEv), tr.execs[i]? = some e → ∃ p f, list.plugins[i]? = some p ∧ F[i]? = some f ∧
      Proper c list rt p f ∧
      ∀ prev, prev = (if i = 0 then none else rs[i - 1]?) → (∀ r, prev = some r → Passable list.cniVersion r) →
      ∃ conf a, Told c list rt p prev conf a ∧
        (∀ g, f conf a = .error g → e.resp = .error (.cni (reported g))) ∧
        (∀ r g, f conf a = .ok r → r.getAsVersion list.cniVersion = .err g → e.resp = .error (.cni (reported g))) ∧
        ∀ r r', f conf a = .ok r → r.getAsVersion list.cniVersion = .ok r' → ∀ x, Returned e x ↔ x = std r' := by
    intro i e hi
    obtain ⟨p, hp, hinv⟩ := hch.invoked i e hi
    have hilt : i < F.length := by rw [hlen]; exact (List.getElem?_eq_some_iff.1 hp).1
    have hf := List.getElem?_eq_getElem hilt
    obtain ⟨-, h2, h3, h4⟩ := hs p (List.mem_of_getElem? hp)
    have hpf := hF _ (List.mem_of_getElem? (zip_getElem? hp hf))
    refine ⟨p, F[i], hp, hf, hpf, ?_⟩
    intro prev hpe hgood
    obtain ⟨doc, hdoc, hst⟩ := hinv.stdin
    rw [← hpe] at hdoc
    exact plugin_answers hrt hns hpath h hen hv hi hp h2 h3 h4 hpf (hex i e _ hi hf) hdoc hst hgood
  -- up to the last result
  have hup : ∀ k, k ≤ rs.length → (∀ r, (if k = 0 then none else rs[k - 1]?) = some r → Passable list.cniVersion r) ∧
      ∀ out, Computes c list rt ((list.plugins.zip F).drop k) (if k = 0 then none else rs[k - 1]?) out →
        Computes c list rt (list.plugins.zip F) none out := by
    intro k
    induction k with
    | zero => intro _; exact ⟨by simp, fun out h => by simpa using h⟩
    | succ k ih =>
      intro hk
      obtain ⟨hgood, hcomp⟩ := ih (by omega)
      have hrk := List.getElem?_eq_getElem (show k < rs.length by omega)
      obtain ⟨e, hi, hret⟩ := hch.results k _ hrk
      obtain ⟨p, f, hp, hf, hpr, hrest⟩ := hat k e hi
      obtain ⟨conf, a, htold, h1, h2, h3⟩ := hrest _ rfl hgood
      have : ∃ r r', f conf a = .ok r ∧ r.getAsVersion list.cniVersion = .ok r' ∧ rs[k] = std r' := by
        obtain ⟨out, ho, hro⟩ := hret
        cases hfa : f conf a with
        | error g => rw [h1 g hfa] at ho; cases ho
        | ok r =>
          cases hga : r.getAsVersion list.cniVersion with
          | ok r' => exact ⟨r, r', rfl, hga, (h3 r r' hfa hga _).1 ⟨out, ho, hro⟩⟩
          | err g => rw [h2 r g hfa hga] at ho; cases ho
          | panic => exact absurd hga (hpr.result _ _ _ hgood htold r hfa).2.1
      obtain ⟨r, r', hfa, hga, hrs⟩ := this
      have hstep : (if k + 1 = 0 then none else rs[k + 1 - 1]?) = some (std r') := by simp [hrk, hrs]
      rw [hstep]
      refine ⟨?_, ?_⟩
      · intro x hx
        cases hx
        obtain ⟨htyp, -, hrep⟩ := hpr.result _ _ _ hgood htold r hfa
        exact (passable_std htyp (hrep r' hga) hga).1
      · intro out hout
        refine hcomp out ?_
        rw [drop_of_getElem? (zip_getElem? hp hf)]
        exact .next htold hfa hga hout
  obtain ⟨hgood, hcomp⟩ := hup rs.length (Nat.le_refl _)
  by_cases hdone : ∃ x, o = .ok x
  · obtain ⟨x, rfl⟩ := hdone
    obtain ⟨h1, h2⟩ := hok x rfl
    subst h2
    refine ⟨.ok rs.getLast?, hcomp _ ?_, rfl⟩
    have hz : (list.plugins.zip F).drop rs.length = [] := by
      rw [List.drop_eq_nil_iff, List.length_zip, hlen, h1]
      simp
    rw [hz]
    have : (if rs.length = 0 then none else rs[rs.length - 1]?) = rs.getLast? := by
      rw [List.getLast?_eq_getElem?]
      split
      · rename_i h0
        rw [List.length_eq_zero_iff.1 h0]; rfl
      · rfl
    rw [this]
    exact .done _
  · -- some plugin did not return a result: it is the last one
    have hnot : ¬ AllReturned tr := by
      intro hall
      exact hdone ((c63_add_list c list rt hrt (fun p hp => (hs p hp).1) hne fs fs' tr o h).2 ⟨hnames, hfound, hall⟩)
    have : ∃ (i : Nat) (e : ExecEv), tr.execs[i]? = some e ∧ ∀ r, ¬ Returned e r := by
      apply Classical.byContradiction
      intro hno
      apply hnot
      intro e he
      obtain ⟨i, hi, rfl⟩ := List.mem_iff_getElem.1 he
      apply Classical.byContradiction
      intro hnr
      exact hno ⟨i, _, List.getElem?_eq_getElem hi, fun r hr => hnr ⟨r, hr⟩⟩
    obtain ⟨i, e, hi, hnr⟩ := this
    have hil : i = rs.length := by
      have h1 := hch.atMostOneMore
      have h2 := (List.getElem?_eq_some_iff.1 hi).1
      by_cases hlt : i < rs.length
      · obtain ⟨e', he', hr'⟩ := hch.results i _ (List.getElem?_eq_getElem hlt)
        rw [hi] at he'
        cases he'
        exact absurd hr' (hnr _)
      · omega
    subst hil
    obtain ⟨p, f, hp, hf, hpr, hrest⟩ := hat _ e hi
    obtain ⟨conf, a, htold, h1, h2, h3⟩ := hrest _ rfl hgood
    have hzip := drop_of_getElem? (zip_getElem? hp hf)
    have hfail : ∀ ce, e.resp = .error (.cni ce) → FailedWith o ce :=
      fun ce hce => c46_add_list c list rt hrt fs fs' tr o h e (List.mem_of_getElem? hi) _ hce ce rfl
    cases hfa : f conf a with
    | error g =>
      refine ⟨.error (reported g), hcomp _ ?_, hfail _ (h1 g hfa)⟩
      rw [hzip]
      exact .fails htold hfa
    | ok r =>
      cases hga : r.getAsVersion list.cniVersion with
      | ok r' => exact absurd ((h3 r r' hfa hga _).2 rfl) (hnr _)
      | err g =>
        refine ⟨.error (reported g), hcomp _ ?_, hfail _ (h2 r g hfa hga)⟩
        rw [hzip]
        exact .inconvertible htold hfa hga
      | panic => exact absurd hga (hpr.result _ _ _ hgood htold r hfa).2.1

theorem told_args {c : CNIConfig} {list : NetConfList} {rt : RuntimeConf} {p : PluginConfig} {prev : Option Result} {conf : PluginConf}
    {a : CmdArgs} (h : Told c list rt p prev conf a) : { a with stdinData := [], netnsOverride := [] } = tellingOf c rt := by
  obtain ⟨h1, h2, h3, h4, h5, -⟩ := h.attachment
  unfold tellingOf
  rw [← h1, ← h2, ← h3, ← h4, ← h5]

theorem computes_composed {c : CNIConfig} {list : NetConfList} {rt : RuntimeConf} {l : List (PluginConfig × AddFn)} {prev : Option Result}
    {out : Except CniErr (Option Result)} (h : Computes c list rt l prev out) (hm : ∀ x ∈ l, Modest x.2) :
    out = composed c list rt l prev := by
  induction h with
  | done prev => rfl
  | fails told h =>
    have hx := hm _ List.mem_cons_self
    dsimp only at hx
    rw [hx, told_args told, told.conf] at h
    simp only [composed, h]
  | inconvertible told h hv =>
    have hx := hm _ List.mem_cons_self
    dsimp only at hx
    rw [hx, told_args told, told.conf] at h
    simp only [composed, h, hv]
  | next told h hv rest ih =>
    have hx := hm _ List.mem_cons_self
    dsimp only at hx
    rw [hx, told_args told, told.conf] at h
    simp only [composed, h, hv]
    exact ih fun x hx => hm x (List.mem_cons_of_mem _ hx)

/-- C66: so if the functions look at nothing but the decoded configuration and the attachment, ADD returns exactly their composition,
whatever the environment, the stderr of the plugins and the cache are. -/
theorem c66_composed (c : CNIConfig) (list : NetConfList) (rt : RuntimeConf) (hrt : rt.OK) (hns : rt.netNS ≠ [])
    (hpath : joinWith b!":" c.path ≠ [])
    (hnames : ValidName rt.containerID ∧ ValidName list.name ∧ ValidIfName rt.ifName) (hv : effective list.cniVersion ∈ specVersions)
    (hne : list.plugins ≠ [])
    (hs : ∀ p ∈ list.plugins, Sound p ∧ PlainConf p.bytes ∧ ReadAs p.bytes p.network ∧ p.network.rawPrev = none)
    (F : List AddFn) (hlen : F.length = list.plugins.length) (hF : ∀ x ∈ list.plugins.zip F, Proper c list rt x.1 x.2 ∧ Modest x.2)
    (fs fs' : FS) (tr : Trace) (o : Out (Option Result)) (h : Runs false (c.addNetworkList list rt) fs tr fs' o) (hfound : AllFound tr)
    (enum : MapEnum) (hen : IsMapOrder enum) (environ : List Bytes) (quote : Bytes → Bytes)
    (hex : ∀ (i : Nat) (e : ExecEv) (f : AddFn), tr.execs[i]? = some e → F[i]? = some f → PluginOf quote enum environ list.cniVersion f e) :
    match composed c list rt (list.plugins.zip F) none with
    | .ok r => o = .ok r
    | .error ce => FailedWith o ce := by
  obtain ⟨out, h1, h2⟩ := c66_add_list c list rt hrt hns hpath hnames hv hne hs F hlen (fun x hx => (hF x hx).1) fs fs' tr o h hfound
    enum hen environ quote hex
  rw [← computes_composed h1 fun x hx => (hF x hx).2]
  exact h2

/-- C66 for a single network: its ADD gives what the function of its plugin gives, in the version of the network. -/
theorem c66_add_network (c : CNIConfig) (net : PluginConfig) (rt : RuntimeConf) (hrt : rt.OK) (hns : rt.netNS ≠ [])
    (hpath : joinWith b!":" c.path ≠ [])
    (hnames : ValidName rt.containerID ∧ ValidName net.network.name ∧ ValidIfName rt.ifName)
    (hv : effective net.network.cniVersion ∈ specVersions)
    (hs : Sound net ∧ PlainConf net.bytes ∧ ReadAs net.bytes net.network ∧ net.network.rawPrev = none)
    (f : AddFn) (hF : Proper c (aloneIn net) rt net f)
    (fs fs' : FS) (tr : Trace) (o : Out Result) (h : Runs false (c.addNetwork net rt) fs tr fs' o) (hfound : AllFound tr)
    (enum : MapEnum) (hen : IsMapOrder enum) (environ : List Bytes) (quote : Bytes → Bytes)
    (hex : ∀ e ∈ tr.execs, PluginOf quote enum environ net.network.cniVersion f e) :
    ∃ conf a, Told c (aloneIn net) rt net none conf a ∧
      ((∃ g, f conf a = .error g ∧ o = .err (.cni (reported g))) ∨
       (∃ r g, f conf a = .ok r ∧ r.getAsVersion net.network.cniVersion = .err g ∧ o = .err (.cni (reported g))) ∨
       ∃ r r', f conf a = .ok r ∧ r.getAsVersion net.network.cniVersion = .ok r' ∧ o = .ok (std r')) := by
  obtain ⟨rs, hch, hok, herr⟩ := c12_add_network c net rt hrt fs fs' tr o h
  have h63 := c63_add_network c net rt hrt hs.1 fs fs' tr o h
  have hone : ∃ e, tr.execs = [e] := by
    match hx : tr.execs with
    | [] =>
      obtain ⟨x, hxo⟩ := h63.2 ⟨hnames, hfound, fun e he => by rw [hx] at he; cases he⟩
      have hrs := hok x hxo
      obtain ⟨e, he, -⟩ := hch.results 0 x (by rw [hrs]; rfl)
      rw [hx] at he
      cases he
    | [e] => exact ⟨e, rfl⟩
    | e1 :: e2 :: l =>
      obtain ⟨_, hp, -⟩ := hch.invoked 1 e2 (by rw [hx]; rfl)
      cases hp
  obtain ⟨e, hone⟩ := hone
  obtain ⟨p, hp, hin⟩ := hch.invoked 0 e (by rw [hone]; rfl)
  cases hp
  obtain ⟨doc, hdoc, hst⟩ := hin.stdin
  have hmem : e ∈ tr.execs := by rw [hone]; simp
  obtain ⟨conf, a, htold, h1, h2, h3⟩ := plugin_replies (list := aloneIn net) (p := net) hv
    (fun t ht => c39_add_network c net rt hrt hns hpath fs fs' tr o h enum hen environ e hmem t ht) hs.2.1 hs.2.2.1 hs.2.2.2 hF
    (hex e hmem) hdoc hst (fun r hr => by cases hr)
  refine ⟨conf, a, htold, ?_⟩
  cases hfa : f conf a with
  | error g => exact .inl ⟨g, rfl, herr e _ hone (h1 g hfa)⟩
  | ok r =>
    cases hga : r.getAsVersion net.network.cniVersion with
    | err g => exact .inr (.inl ⟨r, g, rfl, hga, herr e _ hone (h2 r g hfa hga)⟩)
    | panic => exact absurd hga (hF.result _ _ _ (fun r hr => by cases hr) htold r hfa).2.1
    | ok r' =>
      have hret := h3 r r' hfa hga
      obtain ⟨x, hxo⟩ := h63.2 ⟨hnames, hfound, fun e' he' => by
        rw [hone, List.mem_singleton] at he'
        subst he'
        exact ⟨_, (hret _).2 rfl⟩⟩
      have hrs := hok x hxo
      obtain ⟨e', he', hr⟩ := hch.results 0 x (by rw [hrs]; rfl)
      rw [hone] at he'
      cases he'
      exact .inr (.inr ⟨r, r', rfl, hga, by rw [hxo, (hret x).1 hr]⟩)

/-! ### a concrete case -/

namespace Example

/-- Assigns an address. -/
def assign : AddFn := fun _ _ => .ok (.v100 { ips := [some { address := ⟨[10,0,0,1], [255,255,255,0]⟩ }] })

/-- Adds the name of the interface as a DNS domain to the previous result, which there must be. -/
def annotate : AddFn := fun conf a =>
  match conf.prevResult with
  | some (.v100 r) => .ok (.v100 { r with dns := { r.dns with domain := a.ifName } })
  | _ => .error (.cni { code := 7, msg := b!"no previous result" })

/-- A plugin around the function, as the runtime executes it. -/
def runFn (f : AddFn) (e : ExecEv) : Except GoErr Bytes :=
  match rawExec id (fun _ => ((proc e).mainFuncs { add := some (addReturns f) } vinfo [] nowhere fun x => addPrinted f x.2).runResult []) with
  | .ok (out, _) => .ok out
  | .error ce => .error (.cni ce)

/-- The two plugins. -/
def chainExec (f g : AddFn) (p i : Bytes) (a : PArgs) : Except GoErr Bytes :=
  runFn (if p = b!"/bin/a" then f else g) { path := p, stdin := i, args := a, resp := .ok [] }

theorem pluginOf_run (f : AddFn) (e : ExecEv) (h : e.resp = runFn f e) :
    PluginOf id List.reverse [b!"HOME=/root", b!"CNI_IFNAME=old", b!"CNI_NETNS_OVERRIDE=1"] list.cniVersion f e :=
  ⟨proc e, { add := some (addReturns f) }, vinfo, [], nowhere, fun x => addPrinted f x.2, [], proc_of e, rfl, fun _ => rfl, by decide,
    .inr (.inl rfl), h⟩

theorem assign_proper : Proper cfg list rt plugA assign := by
  constructor
  · intro _ _ _ _ _ g ce h; cases h
  · intro _ _ _ _ _ r h
    cases h
    have e : (Result.v100 { ips := [some { address := ⟨[10,0,0,1], [255,255,255,0]⟩ }] }).getAsVersion list.cniVersion =
        .ok (.v100 { cniVersion := b!"1.0.0", ips := [some { address := ⟨[10,0,0,1], [255,255,255,0]⟩ }] }) := by rfl
    refine ⟨.inl rfl, ?_, ?_⟩
    · rw [e]; intro h; cases h
    · intro r' h
      rw [e] at h
      cases h
      decide

theorem annotate_proper : Proper cfg list rt plugB annotate := by
  constructor
  · intro prev conf a _ _ g ce h hce
    unfold annotate at h
    split at h
    · cases h
    · cases h
      cases hce
      decide
  · intro prev conf a hprev told r h
    unfold annotate at h
    split at h
    · rename_i r0 hp
      cases h
      have hp' : prev = some (.v100 r0) := by rw [told.conf] at hp; exact hp
      obtain ⟨hw, hv, hrep⟩ := hprev _ hp'
      have hif : a.ifName = b!"eth0" := told.attachment.ifName
      have hver : r0.cniVersion = b!"1.0.0" := hv
      have e : (Result.v100 { r0 with dns := { r0.dns with domain := a.ifName } }).getAsVersion list.cniVersion =
          .ok (.v100 { r0 with dns := { r0.dns with domain := a.ifName } }) := by
        have hne : (Result.v100 { r0 with dns := { r0.dns with domain := a.ifName } }).version = b!"1.0.0" := hver
        rw [c27_getAsVersion, if_pos (by rw [hne]; decide)]
        show convert _ b!"1.0.0" = _
        rw [← hne]
        exact convert_same _ (by rw [hne]; decide)
      refine ⟨.inr hw, (by rw [e]; intro h; cases h), ?_⟩
      intro r' hr'
      rw [e] at hr'
      cases hr'
      have : Representable true (.v100 { r0 with dns := { r0.dns with domain := a.ifName } }) := by
        obtain ⟨h1, h2, h3, h4, -, h6⟩ := hrep
        exact ⟨h1, h2, h3, h4, by rw [hif]; show TextOk b!"eth0"; decide, h6⟩
      rw [std_id this]
      exact this
    · cases h

theorem modest_both : Modest assign ∧ Modest annotate := ⟨fun _ _ => rfl, fun _ _ => rfl⟩

/-- The result of the chain: the address, with the domain. -/
def chained : Result :=
  .v100 { cniVersion := b!"1.0.0", ips := [some { address := ⟨[0,0,0,0, 0,0,0,0, 0,0,0xff,0xff, 10,0,0,1], [255,255,255,0]⟩ }],
          dns := { domain := b!"eth0" } }

example : composed cfg list rt (list.plugins.zip [assign, annotate]) none = .ok (some chained) := by decide +kernel
example : (composed cfg list rt (list.plugins.zip [annotate, assign]) none) = .error { code := 7, msg := b!"no previous result" } := by
  decide +kernel

/-- Whether the answers are those of the plugins, and all are found. -/
def playedBy (f g : AddFn) (tr : Trace) : List Bool × List Bool :=
  (tr.execs.zipIdx.map fun x => decide (∃ out ∈ x.1.resp.toOption, (runFn (if x.2 = 0 then f else g) x.1).toOption = some out),
   tr.finds.map fun f => f.resp.toOption.isSome)

/-- There is such a run, and it has that result. -/
example : ∃ tr fs' o, Runs false (cfg.addNetworkList list rt) noFiles tr fs' o ∧
    (playedBy assign annotate tr, o.toOption) = (([true, true], [true, true]), some (some chained)) :=
  Prog.interp_exists (find := find) (exec := chainExec assign annotate) (fun tr _ o => (playedBy assign annotate tr, o.toOption)) (by decide +kernel)

/-- The other way round it fails. -/
example : ∃ tr fs' o, Runs false (cfg.addNetworkList list rt) noFiles tr fs' o ∧
    (tr.execs.map (fun e => e.resp.toOption), o.toOption) = ([none], none) :=
  Prog.interp_exists (find := find) (exec := chainExec annotate assign) (fun tr _ o => (tr.execs.map (fun e => e.resp.toOption), o.toOption)) (by decide +kernel)

/-- The other hypotheses of C66. -/
example : rt.OK ∧ rt.netNS ≠ [] ∧ joinWith b!":" cfg.path ≠ [] ∧ (ValidName rt.containerID ∧ ValidName list.name ∧ ValidIfName rt.ifName) ∧
    effective list.cniVersion ∈ specVersions ∧ list.plugins ≠ [] ∧
    (∀ p ∈ list.plugins, Sound p ∧ PlainConf p.bytes ∧ ReadAs p.bytes p.network ∧ p.network.rawPrev = none) ∧
    (∀ x ∈ list.plugins.zip [assign, annotate], Proper cfg list rt x.1 x.2 ∧ Modest x.2) := by
  refine ⟨rt_ok, by decide, by decide, ?_, by decide, by decide, ?_, ?_⟩
  · exact ⟨(cniReg_iff _).1 (by decide), (cniReg_iff _).1 (by decide), (c43_interface_name _).1.1 (by decide)⟩
  · intro p hp
    refine ⟨list11_sound p hp, (plug_plain p hp).1, (plug_plain p hp).2, ?_⟩
    simp only [list, List.mem_cons, List.not_mem_nil, or_false] at hp
    rcases hp with rfl | rfl <;> rfl
  · intro x hx
    simp only [list, List.zip_cons_cons, List.zip_nil_right, List.mem_cons, List.not_mem_nil, or_false] at hx
    rcases hx with rfl | rfl
    · exact ⟨assign_proper, modest_both.1⟩
    · exact ⟨annotate_proper, modest_both.2⟩

/-- A configuration of a single plugin, as it could be in a `.conf` file. -/
example : Sound plugA := by
  have hp : Json.parse plugA.bytes = some (.obj [(b!"type", .str b!"a"), (b!"x", .num b!"1")]) := by decide +kernel
  exact c63_plain_sound plugA (plug_plain _ (by simp [list])).1 (plug_plain _ (by simp [list])).2 (by decide) _ hp
    ((members_inRange (Json.parse_WF hp)).1 ⟨[(b!"type", .str b!"a"), (b!"x", .num b!"1")], by decide +kernel⟩)

/-- A single network. Test data; models no code. -/
def solo : PluginConfig :=
  { network := { name := b!"net", cniVersion := b!"1.0.0", type := b!"a" }, bytes := b!"{\"cniVersion\":\"1.0.0\",\"name\":\"net\",\"type\":\"a\"}" }

theorem solo_read : Sound solo ∧ PlainConf solo.bytes ∧ ReadAs solo.bytes solo.network ∧ solo.network.rawPrev = none := by
  have hA : Json.parse solo.bytes = some (.obj [(b!"cniVersion", .str b!"1.0.0"), (b!"name", .str b!"net"), (b!"type", .str b!"a")]) := by decide +kernel
  refine ⟨sound_intro hA (m := [(b!"cniVersion", .str b!"1.0.0"), (b!"name", .str b!"net"), (b!"type", .str b!"a")]) (c := solo.network)
    (by decide +kernel) (by decide +kernel) rfl (by decide), ?_, ⟨_, hA, by decide +kernel⟩, rfl⟩
  intro ms h
  rw [hA] at h
  simp only [Option.some.injEq, Json.obj.injEq] at h
  subst h
  exact ⟨⟨by decide, by decide⟩, by simp, by simp, by simp⟩

theorem assign_solo : Proper cfg (aloneIn solo) rt solo assign := by
  constructor
  · intro _ _ _ _ _ g ce h; cases h
  · intro _ _ _ _ _ r h
    cases h
    have e : (Result.v100 { ips := [some { address := ⟨[10,0,0,1], [255,255,255,0]⟩ }] }).getAsVersion b!"1.0.0" =
        .ok (.v100 { cniVersion := b!"1.0.0", ips := [some { address := ⟨[10,0,0,1], [255,255,255,0]⟩ }] }) := by rfl
    refine ⟨.inl rfl, ?_, ?_⟩
    · show Result.getAsVersion _ b!"1.0.0" ≠ _
      rw [e]; intro h; cases h
    · intro r' h
      change Result.getAsVersion _ b!"1.0.0" = _ at h
      rw [e] at h
      cases h
      decide

/-- C66 for a single network: its ADD returns the address that its plugin assigns. -/
example : ∃ tr fs' o, Runs false (cfg.addNetwork solo rt) noFiles tr fs' o ∧
    (playedBy assign assign tr, o.toOption) = (([true], [true]), some (.v100 { cniVersion := b!"1.0.0", ips := [some { address := ⟨[0,0,0,0, 0,0,0,0, 0,0,0xff,0xff, 10,0,0,1], [255,255,255,0]⟩ }] })) :=
  Prog.interp_exists (find := find) (exec := chainExec assign assign) (fun tr _ o => (playedBy assign assign tr, o.toOption)) (by decide +kernel)

end Example

end Verif
