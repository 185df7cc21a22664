/- C68: what is found to be valid is accepted by the plugins. -/
import Verif.Spec.Validated
import Verif.Props.VersionInfo
import Verif.Props.OnlyFound
import Verif.Props.Debug

namespace Verif
open Spec

variable {flt : Bool}

/-! ### searches -/

theorem finds_event {tr : Trace} {n : Bytes} {ps : List Bytes} {r : Except GoErr Bytes} (h : ⟨n, ps, r⟩ ∈ tr.finds) :
    ∃ i : Nat, tr[i]? = some ⟨.find n ps, r⟩ := by
  obtain ⟨ev, hev, he⟩ := List.mem_filterMap.1 h
  obtain ⟨i, hi⟩ := List.mem_iff_getElem?.1 hev
  obtain ⟨a, r'⟩ := ev
  cases a <;> simp only [Event.find?, Option.some.injEq, reduceCtorEq] at he
  obtain ⟨rfl, rfl, rfl⟩ := he
  exact ⟨i, hi⟩

theorem execs_event {tr : Trace} {e : ExecEv} (h : e ∈ tr.execs) :
    ∃ i : Nat, tr[i]? = some ⟨.exec e.path e.stdin e.args, e.resp⟩ := by
  obtain ⟨ev, hev, he⟩ := List.mem_filterMap.1 h
  obtain ⟨i, hi⟩ := List.mem_iff_getElem?.1 hev
  have hev' : ev = ⟨.exec e.path e.stdin e.args, e.resp⟩ := by
    obtain ⟨a, r⟩ := ev
    cases a <;> simp only [Event.exec?, Option.some.injEq, reduceCtorEq] at he
    subst he
    rfl
  exact ⟨i, hev' ▸ hi⟩

/-- What is executed is what the search finds for one of the types. -/
theorem executed_found {op : EntryPoint} (hs : op.SameTypes) {fs : FS} {tr : Trace} (h : op.Happens flt fs tr) {exts : List Bytes}
    {w : Bytes → Bool} (hw : DefaultSearch exts (fun _ => w) tr) {e : ExecEv} (he : e ∈ tr.execs) :
    ∃ t ∈ op.types, findInPath exts w t op.paths = .ok e.path := by
  obtain ⟨i, hi⟩ := execs_event he
  obtain ⟨j, t, -, ht', -, hf⟩ := (c67_only_found op hs fs tr h _ _ hw).executed i _ _ _ _ hi
  exact ⟨t, ht', (c44_find_iff _ _ _ _ _).2 hf⟩

/-- The plugins of a valid list support its version. -/
theorem valid_supports {exts : List Bytes} {w : Bytes → Bool} {sup : Bytes → List Bytes} {c : CNIConfig} {list : NetConfList}
    (h : FoundValid exts w sup c list) {t path : Bytes} (ht : t ∈ list.plugins.map fun p => p.network.type)
    (hf : findInPath exts w t c.path = .ok path) : effective list.cniVersion ∈ sup path := by
  obtain ⟨flt, fs, tr, fs', caps, enum, environ, hr, hen, hsk⟩ := h
  obtain ⟨p, hp, rfl⟩ := List.mem_map.1 ht
  obtain ⟨i, hi⟩ := List.mem_iff_getElem?.1 hp
  obtain ⟨path', h1, h2⟩ := (c57_validate c list fs fs' tr _ hr enum hen environ sup hsk.plugins).1 ⟨caps, rfl⟩ i p hi
  obtain ⟨j, hj⟩ := finds_event (List.mem_of_getElem? h1)
  have := hsk.search j _ _ _ hj
  simp only at this
  rw [hf] at this
  cases this
  exact h2

theorem readable_sanitize {ver : Bytes} (h : ∃ p, Reads (effective ver) p) : sanitize ver = ver := by
  by_cases h0 : ver = []
  · subst h0; rfl
  · obtain ⟨p, hp⟩ := h
    rw [effective, if_neg h0] at hp
    exact reads_ascii hp

/-- A validation searches for every plugin. -/
theorem probes_find {c : CNIConfig} {ps : List PluginConfig} {tr : Trace} {as : List (Option (Except GoErr Bytes))}
    (h : Probes c ps tr as) : ∀ (i : Nat) p, ps[i]? = some p → ∃ r, tr.finds[i]? = some ⟨p.network.type, c.path, r⟩ := by
  induction h with
  | nil => simp
  | notFound _ ih =>
    intro i p hp
    rw [finds_cons_find]
    cases i with
    | zero => cases hp; exact ⟨_, rfl⟩
    | succ i => exact ih i p hp
  | asked _ ih =>
    intro i p hp
    rw [finds_cons_find, finds_cons_exec]
    cases i with
    | zero => cases hp; exact ⟨_, rfl⟩
    | succ i => exact ih i p hp

/-- Requests that are accepted get through if the version is supported. -/
theorem passed_through {t : SkelProc} {v : Callback} {ver : Bytes} {a : CmdArgs} (h : Passed t v ver a) {vs : List Bytes}
    (hread : ∀ s ∈ vs, ∃ p, Reads s p) (hm : ver ∈ vs) : GetsThrough vs t v a := by
  intro funcs f vi about ns hf hvi
  unfold pluginSupports at hvi
  split at hvi
  · cases hvi
  · cases hvi
    exact h.called funcs _ about ns f hf hread hm

/-- C68: if a list was found to be valid, every plugin executed in an ADD of it gets to its callback, whatever the plugin does there. -/
theorem c68_add (c : CNIConfig) (list : NetConfList) (rt : RuntimeConf) (hrt : rt.OK) (hns : rt.netNS ≠ [])
    (hpath : joinWith b!":" c.path ≠ []) (hplain : ∀ p ∈ list.plugins, PlainVersion p.bytes) (exts : List Bytes) (w : Bytes → Bool)
    (sup : Bytes → List Bytes) (hread : ∀ path, ∀ s ∈ sup path, ∃ p, Reads s p) (hval : FoundValid exts w sup c list)
    (fs fs' : FS) (tr : Trace) (o : Out (Option Result)) (h : Runs flt (c.addNetworkList list rt) fs tr fs' o)
    (hw : DefaultSearch exts (fun _ => w) tr) (enum : MapEnum) (hen : IsMapOrder enum) (environ : List Bytes)
    (e : ExecEv) (he : e ∈ tr.execs) (t : SkelProc) (ht : ProcessOf enum environ e t) :
    GetsThrough (sup e.path) t .add (requestArgs t.getenv e.stdin) ∧ SeesAttachment c rt e.stdin (requestArgs t.getenv e.stdin) := by
  obtain ⟨type, hty, hf⟩ := executed_found (op := .addList c list rt) trivial (.inl ⟨fs', o, h⟩) hw he
  have hm := valid_supports hval hty hf
  obtain ⟨i, hi⟩ := List.mem_iff_getElem?.1 he
  obtain ⟨p, hp, hacc⟩ := c39_add_list c list rt hrt hns hpath fs fs' tr o h enum hen environ i e hi t ht
  obtain ⟨v, -, hv, hpass⟩ := hacc.version
  have hv := hv (hplain p (List.mem_of_getElem? hp))
  rw [readable_sanitize (hread _ _ hm)] at hv
  subst hv
  exact ⟨passed_through (hpass (by intro u hu; cases hu)) (hread _) hm, hacc.sees⟩

/-- C68 for CHECK, which does not validate names itself. -/
theorem c68_check (c : CNIConfig) (list : NetConfList) (rt : RuntimeConf) (hrt : rt.OK) (hcid : ValidName rt.containerID)
    (hname : ValidName list.name) (hif : ValidIfName rt.ifName) (hns : rt.netNS ≠ [])
    (hpath : joinWith b!":" c.path ≠ []) (hplain : ∀ p ∈ list.plugins, PlainVersion p.bytes) (exts : List Bytes) (w : Bytes → Bool)
    (sup : Bytes → List Bytes) (hread : ∀ path, ∀ s ∈ sup path, ∃ p, Reads s p) (hval : FoundValid exts w sup c list)
    (fs fs' : FS) (tr : Trace) (o : Out Unit) (h : Runs flt (c.checkNetworkList list rt) fs tr fs' o)
    (hw : DefaultSearch exts (fun _ => w) tr) (enum : MapEnum) (hen : IsMapOrder enum) (environ : List Bytes)
    (e : ExecEv) (he : e ∈ tr.execs) (t : SkelProc) (ht : ProcessOf enum environ e t) :
    GetsThrough (sup e.path) t .check (requestArgs t.getenv e.stdin) ∧ SeesAttachment c rt e.stdin (requestArgs t.getenv e.stdin) := by
  obtain ⟨type, hty, hf⟩ := executed_found (op := .checkList c list rt) trivial (.inl ⟨fs', o, h⟩) hw he
  have hm := valid_supports hval hty hf
  obtain ⟨i, hi⟩ := List.mem_iff_getElem?.1 he
  obtain ⟨p, hp, hacc, hpass⟩ := c39_check_list c list rt hrt hcid hname hif hns hpath fs fs' tr o h enum hen environ i e hi t ht
  have hne : list.cniVersion ≠ [] := by
    rintro h0
    have ha : ¬ AtLeast list.cniVersion (0, 4, 0) := by
      rw [h0]
      rintro ⟨q, hq, hle⟩
      have : q = (0, 1, 0) := c01_reads_unique hq .empty
      subst this
      revert hle
      simp [LexLe, LexLt]
    rw [((c15_check_list c list rt hrt fs fs' tr o h).2.1 ha).1] at he
    cases he
  rw [effective, if_neg hne] at hm
  exact ⟨passed_through (hpass (hplain p (List.mem_of_getElem? hp))) (hread _) hm, hacc.sees⟩

/-- C68 for DEL, which does not validate names itself. -/
theorem c68_del (c : CNIConfig) (list : NetConfList) (rt : RuntimeConf) (hrt : rt.OK) (hcid : ValidName rt.containerID)
    (hname : ValidName list.name) (hif : ValidIfName rt.ifName)
    (hpath : joinWith b!":" c.path ≠ []) (hplain : ∀ p ∈ list.plugins, PlainVersion p.bytes) (exts : List Bytes) (w : Bytes → Bool)
    (sup : Bytes → List Bytes) (hread : ∀ path, ∀ s ∈ sup path, ∃ p, Reads s p) (hval : FoundValid exts w sup c list)
    (fs fs' : FS) (tr : Trace) (o : Out Unit) (h : Runs flt (c.delNetworkList list rt) fs tr fs' o)
    (hw : DefaultSearch exts (fun _ => w) tr) (enum : MapEnum) (hen : IsMapOrder enum) (environ : List Bytes)
    (e : ExecEv) (he : e ∈ tr.execs) (t : SkelProc) (ht : ProcessOf enum environ e t) :
    GetsThrough (sup e.path) t .del (requestArgs t.getenv e.stdin) ∧ SeesAttachment c rt e.stdin (requestArgs t.getenv e.stdin) := by
  obtain ⟨type, hty, hf⟩ := executed_found (op := .delList c list rt) trivial (.inl ⟨fs', o, h⟩) hw he
  have hm := valid_supports hval hty hf
  obtain ⟨i, hi⟩ := List.mem_iff_getElem?.1 he
  obtain ⟨p, hp, hacc⟩ := c39_del_list c list rt hrt hcid hname hif hpath fs fs' tr o h enum hen environ i e hi t ht
  obtain ⟨v, -, hv, hpass⟩ := hacc.version
  have hv := hv (hplain p (List.mem_reverse.1 (List.mem_of_getElem? hp)))
  rw [readable_sanitize (hread _ _ hm)] at hv
  subst hv
  exact ⟨passed_through (hpass (by intro u hu; cases hu)) (hread _) hm, hacc.sees⟩

theorem atLeast110_effective {ver : Bytes} (ha : AtLeast ver (1, 1, 0)) : effective ver = ver := by
  have := atLeast_effective ha (by simp [LexLt])
  obtain ⟨q, hq, -⟩ := ha
  rwa [reads_ascii hq] at this

/-- C68 for STATUS. -/
theorem c68_status (c : CNIConfig) (list : NetConfList) (hname : ValidName list.name) (hsound : ∀ p ∈ list.plugins, Sound p)
    (hpath : joinWith b!":" c.path ≠ []) (hplain : ∀ p ∈ list.plugins, PlainVersion p.bytes) (exts : List Bytes) (w : Bytes → Bool)
    (sup : Bytes → List Bytes) (hread : ∀ path, ∀ s ∈ sup path, ∃ p, Reads s p) (hval : FoundValid exts w sup c list)
    (fs fs' : FS) (tr : Trace) (o : Out Unit) (h : Runs flt (c.getStatusNetworkList list) fs tr fs' o)
    (hw : DefaultSearch exts (fun _ => w) tr) (enum : MapEnum) (hen : IsMapOrder enum) (environ : List Bytes)
    (e : ExecEv) (he : e ∈ tr.execs) (t : SkelProc) (ht : ProcessOf enum environ e t) :
    GetsThrough (sup e.path) t .status (requestArgs t.getenv e.stdin) := by
  obtain ⟨type, hty, hf⟩ := executed_found (op := .status c list) hsound (.inl ⟨fs', o, h⟩) hw he
  have hm := valid_supports hval hty hf
  obtain ⟨p, hp, hacc, hpass⟩ := c39_status c list hname hpath fs fs' tr o h enum hen environ e he t ht
  by_cases hat : AtLeast list.cniVersion (1, 1, 0)
  · rw [atLeast110_effective hat] at hm
    exact passed_through (hpass (hplain p hp)) (hread _) hm
  · rw [(c25_old c list hat fs fs' tr o h).1] at he
    cases he

/-- C68 for GC, and for each DEL that it makes for an attachment with valid names. -/
theorem c68_gc (c : CNIConfig) (list : NetConfList) (valid : Option (List GCAttachment)) (hname : ValidName list.name)
    (hsound : ∀ p ∈ list.plugins, Sound p)
    (hpath : joinWith b!":" c.path ≠ []) (hplain : ∀ p ∈ list.plugins, PlainVersion p.bytes) (exts : List Bytes) (w : Bytes → Bool)
    (sup : Bytes → List Bytes) (hread : ∀ path, ∀ s ∈ sup path, ∃ p, Reads s p) (hval : FoundValid exts w sup c list)
    (fs fs' : FS) (tr : Trace) (o : Out Unit) (h : Runs flt (c.gcNetworkList list valid) fs tr fs' o)
    (hw : DefaultSearch exts (fun _ => w) tr) (enum : MapEnum) (hen : IsMapOrder enum) (environ : List Bytes)
    (e : ExecEv) (he : e ∈ tr.execs) (t : SkelProc) (ht : ProcessOf enum environ e t) :
    (e.args = .args (attachArgs c b!"GC" {}) ∧ GetsThrough (sup e.path) t .gc (requestArgs t.getenv e.stdin)) ∨
    ∃ rt, e.args = .args (attachArgs c b!"DEL" rt) ∧
      (ValidName rt.containerID → ValidIfName rt.ifName → GetsThrough (sup e.path) t .del (requestArgs t.getenv e.stdin)) := by
  obtain ⟨type, hty, hf⟩ := executed_found (op := .gc c list valid) hsound (.inl ⟨fs', o, h⟩) hw he
  have hm := valid_supports hval hty hf
  rcases c22_execs c list valid fs fs' tr o h e he with ⟨a, _, _, p, hp, prev, hinv⟩ | ⟨hat, p, hp, hg⟩
  · refine .inr ⟨_, hinv.args, fun hc hi => ?_⟩
    obtain ⟨v, -, hv, hpass⟩ := (invoked_accepted hen ht (v := .del) (.inr (.inr rfl)) hinv hc hname hi (.inl rfl) hpath).version
    have hv := hv (hplain p hp)
    rw [readable_sanitize (hread _ _ hm)] at hv
    subst hv
    exact passed_through (hpass (by intro u hu; cases hu)) (hread _) hm
  · refine .inl ⟨hg.args, ?_⟩
    rw [atLeast110_effective hat] at hm
    exact passed_through ((bare_accepted hen ht (v := .gc) (by simp [OfAttachment]) hg.args hg.stdin hname hpath hat).2 (hplain p hp)) (hread _) hm

/-- C68, the converse: if an ADD of a list succeeds, the list is valid. -/
theorem c68_added_is_valid (c : CNIConfig) (list : NetConfList) (hutf : isUtf8 list.cniVersion = true) (rt : RuntimeConf) (hrt : rt.OK)
    (hns : rt.netNS ≠ []) (hpath : joinWith b!":" c.path ≠ []) (hplain : ∀ p ∈ list.plugins, PlainVersion p.bytes) (exts : List Bytes)
    (w : Bytes → Bool) (sup : Bytes → List Bytes) (hread : ∀ path, ∀ s ∈ sup path, ∃ p, Reads s p)
    (enum : MapEnum) (hen : IsMapOrder enum) (environ : List Bytes)
    (fs fs' : FS) (tr : Trace) (r : Option Result) (h : Runs flt (c.addNetworkList list rt) fs tr fs' (.ok r))
    (hsk : SkelRuns exts w sup enum environ tr)
    (fv fv' : FS) (trv : Trace) (ov : Out (List Bytes)) (hv : Runs flt (c.validateNetworkList list) fv trv fv' ov)
    (hskv : SkelRuns exts w sup enum environ trv) : ∃ caps, ov = .ok caps := by
  rw [c57_validate c list fv fv' trv ov hv enum hen environ sup hskv.plugins]
  obtain ⟨-, as, hpr, -⟩ := c26_validate c list fv fv' trv ov hv
  obtain ⟨rs, hch, hok, -⟩ := addNetworkList_runs hrt h
  obtain ⟨hlen, -⟩ := hok r rfl
  intro i p hp
  have hi : i < rs.length := by
    rw [hlen]
    exact (List.getElem?_eq_some_iff.1 hp).1
  obtain ⟨e, he, hret⟩ := hch.results i _ (List.getElem?_eq_getElem hi)
  obtain ⟨p', hp', hinv⟩ := hch.invoked i e he
  have : p' = p := by rw [hp] at hp'; exact (Option.some.inj hp').symm
  subst this
  obtain ⟨j, hj⟩ := finds_event hinv.found
  have hfound : (.ok e.path : Except GoErr Bytes) = findInPath exts w p'.network.type c.path := hsk.search j _ _ _ hj
  refine ⟨e.path, ?_, ?_⟩
  · obtain ⟨r', hr'⟩ := probes_find hpr i p' hp
    obtain ⟨k, hk⟩ := finds_event (List.mem_of_getElem? hr')
    have : r' = findInPath exts w p'.network.type c.path := hskv.search k _ _ _ hk
    rw [hr', this, hfound]
  · obtain ⟨quote, t, funcs, vi, about, ns, printed, stderr, ht, -, hvi, -, hans⟩ := hsk.plugins e (List.mem_of_getElem? he)
    obtain ⟨q, hq, hacc⟩ := c39_add_list c list rt hrt hns hpath fs fs' tr _ h enum hen environ i e he t ht
    have : q = p' := by rw [hp] at hq; exact (Option.some.inj hq).symm
    subst this
    obtain ⟨v, -, hv', hpass⟩ := hacc.version
    have hv' := hv' (hplain q (List.mem_of_getElem? hp))
    rw [sanitize_of_isUtf8 hutf] at hv'
    subst hv'
    have hvs : vi.supported = sup e.path := by
      unfold pluginSupports at hvi
      split at hvi
      · cases hvi
      · cases hvi; rfl
    refine Decidable.byContradiction fun hm => ?_
    obtain ⟨er, her, -⟩ := (hpass (by intro u hu; cases hu)).refused funcs vi about ns (by rw [hvs]; exact hread _) (by rw [hvs]; exact hm)
    obtain ⟨g, hg⟩ := answered_fails hans (by rw [her]; intro h; cases h)
    obtain ⟨out, hout, -⟩ := hret
    rw [hg] at hout
    cases hout

/-! ### concrete cases -/

/-- In runs of examples every execution is answered by the given plugins. -/
theorem interp_execs {α : Type} {find : Bytes → Except GoErr Bytes} {exec : Bytes → Bytes → PArgs → Except GoErr Bytes}
    (p : Prog α) : ∀ {fs : FS} {x : Trace × FS × Out α}, p.interp find exec fs = some x →
      ∀ e ∈ x.1.execs, e.resp = exec e.path e.stdin e.args := by
  have other : ∀ {ev : Event} {tr : Trace}, ev.exec? = none → ∀ {e}, e ∈ Trace.execs (ev :: tr) → e ∈ tr.execs := by
    intro ev tr h e he
    simpa [Trace.execs, h] using he
  induction p with
  | done o => intro fs x h e he; cases h; cases he
  | op a k ih =>
    intro fs x h e he
    cases a with
    | find n ps =>
      simp only [Prog.interp, Option.map_eq_some_iff] at h
      obtain ⟨y, hy, rfl⟩ := h
      exact ih _ hy e (other (by rfl) he)
    | exec p i a =>
      simp only [Prog.interp, Option.map_eq_some_iff] at h
      obtain ⟨y, hy, rfl⟩ := h
      rw [execs_cons_exec] at he
      rcases List.mem_cons.1 he with rfl | he
      · rfl
      · exact ih _ hy e he
    | readFile p =>
      simp only [Prog.interp, Option.map_eq_some_iff] at h
      obtain ⟨y, hy, rfl⟩ := h
      exact ih _ hy e (other (by rfl) he)
    | readDir p => cases h
    | mkdirAll p =>
      simp only [Prog.interp, Option.map_eq_some_iff] at h
      obtain ⟨y, hy, rfl⟩ := h
      exact ih _ hy e (other (by rfl) he)
    | writeFile p c =>
      simp only [Prog.interp, Option.map_eq_some_iff] at h
      obtain ⟨y, hy, rfl⟩ := h
      exact ih _ hy e (other (by rfl) he)
    | remove p =>
      simp only [Prog.interp] at h
      split at h
      · obtain ⟨y, hy, rfl⟩ := Option.map_eq_some_iff.1 h
        exact ih _ hy e (other (by rfl) he)
      · obtain ⟨y, hy, rfl⟩ := Option.map_eq_some_iff.1 h
        exact ih _ hy e (other (by rfl) he)

namespace Example

/-- What is left by a plugin built with skel for 0.4.0 and 1.0.0. Test data; models no code. -/
def skelExit (p i : Bytes) (a : PArgs) : PluginExit :=
  (proc ⟨p, i, a, .ok []⟩).mainFuncs plugin { cniVersion := currentVersion, supported := [b!"0.4.0", b!"1.0.0"] } b!"about" nowhere
    fun _ => b!"{\"cniVersion\":\"1.0.0\"}"

/-- Its answer. Test data; models no code. -/
def skelAnswer (p i : Bytes) (a : PArgs) : Except GoErr Bytes :=
  match rawExec id (fun _ => (skelExit p i a).runResult []) with
  | .ok (out, _) => .ok out
  | .error ce => .error (.cni ce)

/-- Test data; models no code. -/
def builtFor : Bytes → List Bytes := fun _ => [b!"0.4.0", b!"1.0.0"]

/-- Test data; models no code. -/
def homeEnv : List Bytes := [b!"HOME=/root", b!"CNI_IFNAME=old", b!"CNI_NETNS_OVERRIDE=1"]

theorem skelAnswer_plugin {e : ExecEv} (h : e.resp = skelAnswer e.path e.stdin e.args) : SkelPlugin List.reverse homeEnv e (builtFor e.path) := by
  refine ⟨id, proc ⟨e.path, e.stdin, e.args, .ok []⟩, plugin, _, b!"about", nowhere, fun _ => b!"{\"cniVersion\":\"1.0.0\"}", [], ⟨rfl, rfl⟩, rfl, rfl, by simp only [builtFor]; decide +kernel, ?_⟩
  unfold AnsweredBy
  rw [h]
  rfl

/-- Runs of the example, with the library's own search. -/
theorem skel_runs {α β : Type} {p : Prog α} {fs : FS} (f : Out α → β) {b : β}
    (h : (p.interp (fun n => findInPath unixExtensions isBin n [b!"/bin"]) skelAnswer fs).map
      (fun x => (ownSearch x.1, x.1.execs.map (·.path), f x.2.2)) = some (true, [b!"/bin/a", b!"/bin/b"], b)) :
    ∃ tr fs' o, Runs false p fs tr fs' o ∧ SkelRuns unixExtensions isBin builtFor List.reverse homeEnv tr ∧
      tr.execs.map (·.path) = [b!"/bin/a", b!"/bin/b"] ∧ f o = b := by
  obtain ⟨x, hx, he⟩ := Option.map_eq_some_iff.1 h
  simp only [Prod.mk.injEq] at he
  exact ⟨_, _, _, p.interp_runs hx, ⟨ownSearch_default he.1, fun e hm => skelAnswer_plugin (interp_execs p hx e hm)⟩, he.2.1, he.2.2⟩

/-- C68: the list of two plugins for 0.4.0 and 1.0.0 is found to be valid. -/
theorem list_valid : FoundValid unixExtensions isBin builtFor cfg list := by
  obtain ⟨tr, fs', o, h, hsk, -, ho⟩ := skel_runs (p := cfg.validateNetworkList list) (fs := noFiles) (fun o => o.toOption) (b := some []) (by decide +kernel)
  exact ⟨false, noFiles, tr, fs', [], List.reverse, homeEnv, toOption_some.2 ho ▸ h, fun m => List.reverse_perm m, hsk⟩

/-- C68: an ADD of it executes both, and each gets to its callback. -/
example : ∃ tr fs' r, Runs false (cfg.addNetworkList list rt) noFiles tr fs' (.ok r) ∧
    SkelRuns unixExtensions isBin builtFor List.reverse homeEnv tr ∧ tr.execs.length = 2 ∧
    ∀ e ∈ tr.execs, ∀ t, ProcessOf List.reverse homeEnv e t → GetsThrough (builtFor e.path) t .add (requestArgs t.getenv e.stdin) := by
  obtain ⟨tr, fs', o, h, hsk, hp, ho⟩ := skel_runs (p := cfg.addNetworkList list rt) (fs := noFiles) (fun o => o.toOption.isSome) (b := true) (by decide +kernel)
  have hread : ∀ path, ∀ s ∈ builtFor path, ∃ p, Reads s p := by
    intro path s hs
    simp only [builtFor, List.mem_cons, List.not_mem_nil, or_false] at hs
    rcases hs with rfl | rfl
    · exact ⟨_, (parseVersion_iff b!"0.4.0" (0, 4, 0)).1 (by decide)⟩
    · exact ⟨_, (parseVersion_iff b!"1.0.0" (1, 0, 0)).1 (by decide)⟩
  have hplain : ∀ p ∈ list.plugins, PlainVersion p.bytes := by
    intro p hp ms h
    simp only [list, List.mem_cons, List.not_mem_nil, or_false] at hp
    rcases hp with rfl | rfl
    · have e : Json.parse plugA.bytes = some (.obj [(b!"type", .str b!"a"), (b!"x", .num b!"1")]) := by decide +kernel
      rw [e] at h
      cases h
      decide +kernel
    · have e : Json.parse plugB.bytes = some (.obj [(b!"type", .str b!"b")]) := by decide +kernel
      rw [e] at h
      cases h
      decide +kernel
  obtain ⟨r, hr⟩ := Option.isSome_iff_exists.1 ho
  refine ⟨tr, fs', r, toOption_some.2 hr ▸ h, hsk, ?_, fun e he t ht => ?_⟩
  · rw [← List.length_map (f := fun e : ExecEv => e.path), hp]; rfl
  · exact (c68_add cfg list rt rt_ok (by decide) (by decide) hplain _ _ _ hread list_valid noFiles fs' tr o h hsk.search _
      (fun m => List.reverse_perm m) _ e he t ht).1

/-- C68: in version 1.1.0 the list is not valid, and an ADD of it fails; the plugins refuse the version. -/
example : (∃ tr fs' o, Runs false (cfg.validateNetworkList { list with cniVersion := b!"1.1.0" }) noFiles tr fs' o ∧
      (ownSearch tr, o.toOption.isSome) = (true, false)) ∧
    ∃ tr fs' o, Runs false (cfg.addNetworkList { list with cniVersion := b!"1.1.0" } rt) noFiles tr fs' o ∧
      (ownSearch tr, tr.execs.map (·.path), o.toOption.isSome) = (true, [b!"/bin/a"], false) :=
  ⟨Prog.interp_exists (find := fun n => findInPath unixExtensions isBin n [b!"/bin"]) (exec := skelAnswer)
      (fun tr _ o => (ownSearch tr, o.toOption.isSome)) (by decide +kernel),
    Prog.interp_exists (find := fun n => findInPath unixExtensions isBin n [b!"/bin"]) (exec := skelAnswer)
      (fun tr _ o => (ownSearch tr, tr.execs.map (·.path), o.toOption.isSome)) (by decide +kernel)⟩

/-- C68: a plugin that says its version in another spelling is valid, but refuses what the runtime gives it: so `PlainVersion` is needed. -/
theorem _root_.Verif.c68_other_spelling :
    (∃ tr fs' o, Runs false (cfg.validateNetworkList { list with plugins := [{ network := { type := b!"a" }, bytes := b!"{\"type\":\"a\",\"cniversion\":\"0.2.0\"}" }] })
      noFiles tr fs' o ∧ (ownSearch tr, o.toOption.isSome) = (true, true)) ∧
    ∃ tr fs' o, Runs false (cfg.addNetworkList { list with plugins := [{ network := { type := b!"a" }, bytes := b!"{\"type\":\"a\",\"cniversion\":\"0.2.0\"}" }] } rt)
      noFiles tr fs' o ∧ (ownSearch tr, o.toOption.isSome) = (true, false) :=
  ⟨Prog.interp_exists (find := fun n => findInPath unixExtensions isBin n [b!"/bin"]) (exec := skelAnswer)
      (fun tr _ o => (ownSearch tr, o.toOption.isSome)) (by decide +kernel),
    Prog.interp_exists (find := fun n => findInPath unixExtensions isBin n [b!"/bin"]) (exec := skelAnswer)
      (fun tr _ o => (ownSearch tr, o.toOption.isSome)) (by decide +kernel)⟩

end Example

end Verif
