/- C46: plugin errors reach the caller of the runtime library. -/
import Verif.Spec.Errors
import Verif.Props.Add
import Verif.Props.Gc
import Verif.Props.Query
import Verif.Props.Delegate
import Verif.Props.Exec

namespace Verif
open Spec
variable {flt : Bool} {fs fs' : FS} {tr : Trace}

theorem asCni_wrap {pre : Bytes} {g : GoErr} {ce : CniErr} (h : g.asCni = some ce) : (GoErr.wrap pre g).asCni = some ce := by
  rw [GoErr.asCni]; exact h

/-- In a sweep, an execution that failed is the last. -/
theorem sweep_failed {c : CNIConfig} {verb name ver : Bytes} {rt : RuntimeConf} {ps : List PluginConfig} {prev : Option Result}
    (h : Sweep c verb name ver rt ps prev tr) {e : ExecEv} {g : GoErr} (he : e ∈ tr.execs) (hg : e.resp = .error g) :
    tr.execs.getLast? = some e := by
  obtain ⟨i, hi, rfl⟩ := List.mem_iff_getElem.1 he
  by_cases hl : i + 1 < tr.execs.length
  · obtain ⟨out, ho⟩ := h.succeeded i _ (List.getElem?_eq_getElem hi) hl
    rw [ho] at hg; cases hg
  · rw [List.getLast?_eq_getElem?, show tr.execs.length - 1 = i by omega]
    exact List.getElem?_eq_getElem hi

/-- In an ADD, an execution that failed comes after all the results. -/
theorem addChain_failed {c : CNIConfig} {name ver : Bytes} {rt : RuntimeConf} {ps : List PluginConfig} {first : Option Result}
    {rs : List Result} (h : AddChain c name ver rt ps first tr rs) {e : ExecEv} {g : GoErr} (he : e ∈ tr.execs)
    (hg : e.resp = .error g) : tr.execs[rs.length]? = some e := by
  obtain ⟨i, hi, rfl⟩ := List.mem_iff_getElem.1 he
  have h1 := h.atMostOneMore
  by_cases hl : i < rs.length
  · obtain ⟨e, he', out, ho, _⟩ := h.results i _ (List.getElem?_eq_getElem hl)
    rw [List.getElem?_eq_getElem hi, Option.some.injEq] at he'
    rw [he', ho] at hg; cases hg
  · rw [show rs.length = i by omega]
    exact List.getElem?_eq_getElem hi

/-! ### ADD, CHECK, DEL, STATUS: the error returned is the plugin's -/

theorem c46_add_list (c : CNIConfig) (list : NetConfList) (rt : RuntimeConf) (hrt : rt.OK) (fs fs' : FS) (tr : Trace)
    (o : Out (Option Result)) (h : Runs flt (c.addNetworkList list rt) fs tr fs' o) (e : ExecEv) (he : e ∈ tr.execs) (g : GoErr)
    (hg : e.resp = .error g) (ce : CniErr) (hce : g.asCni = some ce) : FailedWith o ce := by
  obtain ⟨rs, hch, -, herr, -⟩ := addNetworkList_runs hrt h
  obtain ⟨pre, rfl⟩ := herr e g (addChain_failed hch he hg) hg
  exact ⟨_, rfl, asCni_wrap hce⟩

theorem c46_add_network (c : CNIConfig) (net : PluginConfig) (rt : RuntimeConf) (hrt : rt.OK) (fs fs' : FS) (tr : Trace)
    (o : Out Result) (h : Runs flt (c.addNetwork net rt) fs tr fs' o) (e : ExecEv) (he : e ∈ tr.execs) (g : GoErr)
    (hg : e.resp = .error g) (ce : CniErr) (hce : g.asCni = some ce) : FailedWith o ce := by
  obtain ⟨rs, hch, hok, herr, -⟩ := addNetwork_runs hrt h
  have hone : tr.execs = [e] := by
    have hi := hch.invoked
    match hx : tr.execs, he with
    | [a], he => simp only [List.mem_singleton] at he; rw [he]
    | a :: b :: l, _ =>
      obtain ⟨p, hp, _⟩ := hi 1 b (by rw [hx]; rfl)
      simp at hp
  exact ⟨g, herr e g hone hg, hce⟩

theorem c46_check_list (c : CNIConfig) (list : NetConfList) (rt : RuntimeConf) (hrt : rt.OK) (fs fs' : FS) (tr : Trace)
    (o : Out Unit) (h : Runs flt (c.checkNetworkList list rt) fs tr fs' o) (e : ExecEv) (he : e ∈ tr.execs) (g : GoErr)
    (hg : e.resp = .error g) (ce : CniErr) (hce : g.asCni = some ce) : FailedWith o ce := by
  obtain ⟨-, h1, h2, h3⟩ := c15_check_list c list rt hrt fs fs' tr o h
  by_cases hv : AtLeast list.cniVersion (0, 4, 0)
  · cases hd : list.disableCheck with
    | true => rw [(h2 hv hd).1] at he; cases he
    | false =>
      rcases h3 hv hd with ⟨_, _, _, hsw, _, herr⟩ | ⟨hn, _⟩
      · exact ⟨g, herr e g (sweep_failed hsw he hg) hg, hce⟩
      · rw [hn] at he; cases he
  · rw [(h1 hv).1] at he; cases he

theorem c46_check_network (c : CNIConfig) (net : PluginConfig) (rt : RuntimeConf) (hrt : rt.OK) (fs fs' : FS) (tr : Trace)
    (o : Out Unit) (h : Runs flt (c.checkNetwork net rt) fs tr fs' o) (e : ExecEv) (he : e ∈ tr.execs) (g : GoErr)
    (hg : e.resp = .error g) (ce : CniErr) (hce : g.asCni = some ce) : FailedWith o ce := by
  obtain ⟨-, h1, h3⟩ := c15_check_network c net rt hrt fs fs' tr o h
  by_cases hv : AtLeast net.network.cniVersion (0, 4, 0)
  · rcases h3 hv with ⟨_, _, _, hsw, _, herr⟩ | ⟨hn, _⟩
    · exact ⟨g, herr e g (sweep_failed hsw he hg) hg, hce⟩
    · rw [hn] at he; cases he
  · rw [(h1 hv).1] at he; cases he

theorem del_list_error {c : CNIConfig} {list : NetConfList} {rt : RuntimeConf} (hrt : rt.OK) {o : Out Unit}
    (h : Runs flt (c.delNetworkList list rt) fs tr fs' o) {e : ExecEv} (he : e ∈ tr.execs) {g : GoErr} (hg : e.resp = .error g) :
    ∃ pre, o = .err (.wrap pre g) := by
  rcases delNetworkList_runs hrt h with ⟨_, rfl, _⟩ | ⟨_, hn, _⟩ | ⟨_, _, hsw, _, herr, _⟩
  · cases he
  · rw [hn] at he; cases he
  · exact herr e g (sweep_failed hsw he hg) hg

theorem c46_del_list (c : CNIConfig) (list : NetConfList) (rt : RuntimeConf) (hrt : rt.OK) (fs fs' : FS) (tr : Trace)
    (o : Out Unit) (h : Runs flt (c.delNetworkList list rt) fs tr fs' o) (e : ExecEv) (he : e ∈ tr.execs) (g : GoErr)
    (hg : e.resp = .error g) (ce : CniErr) (hce : g.asCni = some ce) : FailedWith o ce := by
  obtain ⟨pre, rfl⟩ := del_list_error hrt h he hg
  exact ⟨_, rfl, asCni_wrap hce⟩

theorem c46_del_network (c : CNIConfig) (net : PluginConfig) (rt : RuntimeConf) (hrt : rt.OK) (fs fs' : FS) (tr : Trace)
    (o : Out Unit) (h : Runs flt (c.delNetwork net rt) fs tr fs' o) (e : ExecEv) (he : e ∈ tr.execs) (g : GoErr)
    (hg : e.resp = .error g) (ce : CniErr) (hce : g.asCni = some ce) : FailedWith o ce := by
  rcases delNetwork_runs hrt h with ⟨hn, _⟩ | ⟨_, hsw, _, herr, _⟩
  · rw [hn] at he; cases he
  · exact ⟨g, herr e g (sweep_failed hsw he hg) hg, hce⟩

theorem queried_error {c : CNIConfig} {name ver : Bytes} {ps : List PluginConfig} {o : Out Unit} (h : Queried c name ver ps tr o)
    {e : ExecEv} (he : e ∈ tr.execs) {g : GoErr} (hg : e.resp = .error g) : o = .err g := by
  induction h with
  | nil => cases he
  | unsound => cases he
  | crash => cases he
  | notFound => cases he
  | fails =>
    simp only [Trace.execs, List.filterMap_cons, Event.exec?, List.filterMap_nil, List.mem_singleton] at he
    subst he; cases hg; rfl
  | next _ _ _ ih =>
    simp only [Trace.execs, List.filterMap_cons, Event.exec?, List.mem_cons] at he
    rcases he with rfl | he
    · cases hg
    · exact ih he

theorem c46_status (c : CNIConfig) (list : NetConfList) (fs fs' : FS) (tr : Trace)
    (o : Out Unit) (h : Runs flt (c.getStatusNetworkList list) fs tr fs' o) (e : ExecEv) (he : e ∈ tr.execs) (g : GoErr)
    (hg : e.resp = .error g) (ce : CniErr) (hce : g.asCni = some ce) : FailedWith o ce := by
  by_cases hv : AtLeast list.cniVersion (1, 1, 0)
  · exact ⟨g, queried_error (c25_status c list hv fs fs' tr o h).2 he hg, hce⟩
  · rw [(c25_old c list hv fs fs' tr o h).1] at he; cases he

/-! ### GC: all the errors are in the one returned -/

theorem dels_errors {c : CNIConfig} {list : NetConfList} {l : List Attachment} {os : List (Out Unit)}
    (h : Dels flt c list l fs tr fs' os) (hok : ∀ a ∈ l, (rtOf a).OK) {e : ExecEv} (he : e ∈ tr.execs) {g : GoErr}
    (hg : e.resp = .error g) : ∃ pre, .wrap pre g ∈ os.filterMap outFailure := by
  induction h with
  | nil => cases he
  | cons h hl ih =>
    rw [execs_append, List.mem_append] at he
    rcases he with he | he
    · obtain ⟨pre, rfl⟩ := del_list_error (hok _ (List.mem_cons_self ..)) h he hg
      exact ⟨pre, by simp [outFailure]⟩
    · obtain ⟨pre, hp⟩ := ih (fun a ha => hok a (by simp [ha])) he
      refine ⟨pre, ?_⟩
      rw [List.mem_filterMap] at hp ⊢
      obtain ⟨x, hx, hx'⟩ := hp
      exact ⟨x, by simp [hx], hx'⟩

theorem wrapped_within {gs es : List GoErr} (h : Wrapped gs es) {g : GoErr} (hg : g ∈ gs) : ∃ e ∈ es, ∃ pre, e = .wrap pre g := by
  induction h with
  | nil => cases hg
  | cons h _ ih =>
    rcases List.mem_cons.1 hg with rfl | hg
    · obtain ⟨pre, rfl⟩ := h; exact ⟨_, by simp, pre, rfl⟩
    · obtain ⟨e, he, hp⟩ := ih hg; exact ⟨e, by simp [he], hp⟩

theorem gcLoop_errors {c : CNIConfig} {name ver : Bytes} {valid : Option (List GCAttachment)} {ps : List PluginConfig} :
    ∀ {errs : List GoErr} {fs fs' : FS} {tr : Trace} {o : Out (List GoErr)}, Runs flt (c.gcLoop name ver valid ps errs) fs tr fs' o →
    o = .panic ∨ ∃ es, o = .ok (errs ++ es) ∧ ∀ e ∈ tr.execs, ∀ g, e.resp = .error g → ∃ pre, .wrap pre g ∈ es := by
  induction ps with
  | nil =>
    intro errs fs fs' tr o h
    obtain ⟨rfl, rfl, rfl⟩ := runs_done.1 h
    exact .inr ⟨[], by simp, by simp [Trace.execs]⟩
  | cons p ps ih =>
    intro errs fs fs' tr o h
    unfold CNIConfig.gcLoop at h
    split at h
    · obtain ⟨tr1, tr2, fs1, o1, rfl, h1, h2⟩ := runs_bind.1 h
      obtain ⟨o0, h0, rfl⟩ := runs_attempt.1 h1
      obtain ⟨rfl, ⟨g, rfl, rfl⟩ | ⟨path, r, rfl, rfl⟩⟩ := bareNetwork1_runs h0
      · rcases ih h2 with rfl | ⟨es, rfl, hes⟩
        · exact .inl rfl
        · refine .inr ⟨_ :: es, by rw [List.append_assoc]; rfl, fun e he g hg => ?_⟩
          rw [execs_append] at he
          obtain ⟨pre, hp⟩ := hes e (by simpa [Trace.execs, Event.exec?] using he) g hg
          exact ⟨pre, by simp [hp]⟩
      · cases r with
        | ok out =>
          rcases ih h2 with rfl | ⟨es, rfl, hes⟩
          · exact .inl rfl
          · refine .inr ⟨es, rfl, fun e he g hg => ?_⟩
            rw [execs_append, List.mem_append] at he
            rcases he with he | he
            · simp only [Trace.execs, List.filterMap_cons, Event.exec?, List.filterMap_nil, List.mem_singleton] at he
              subst he; cases hg
            · exact hes e he g hg
        | error g0 =>
          rcases ih h2 with rfl | ⟨es, rfl, hes⟩
          · exact .inl rfl
          · refine .inr ⟨_ :: es, by rw [List.append_assoc]; rfl, fun e he g hg => ?_⟩
            rw [execs_append, List.mem_append] at he
            rcases he with he | he
            · simp only [Trace.execs, List.filterMap_cons, Event.exec?, List.filterMap_nil, List.mem_singleton] at he
              subst he; cases hg
              exact ⟨_, List.mem_cons_self ..⟩
            · obtain ⟨pre, hp⟩ := hes e he g hg
              exact ⟨pre, by simp [hp]⟩
    · exact .inl (runs_done.1 h).2.2
    · exact .inl (runs_done.1 h).2.2

/-- Whatever plugin fails during a GC, its error is in the error returned. (When a configuration or a cache entry makes GC panic
there is no error to return; see C24 and C50.) -/
theorem gc_errors (c : CNIConfig) (list : NetConfList) (valid : Option (List GCAttachment)) (fs fs' : FS) (tr : Trace) (o : Out Unit)
    (h : Runs flt (c.gcNetworkList list valid) fs tr fs' o) (e : ExecEv) (he : e ∈ tr.execs) (g : GoErr) (hg : e.resp = .error g) :
    o = .panic ∨ ∃ G, o = .err G ∧ Within g G := by
  cases hd : list.disableGC with
  | true => rw [(c22_disabled c list valid hd fs fs' tr o h).1] at he; cases he
  | false =>
    obtain ⟨tr0, o0, h0, hx⟩ := gcNetworkList_runs hd h
    obtain ⟨-, hne, -, hmem⟩ := getCachedAttachments_mem h0
    rcases hx with ⟨-, rfl, rfl, -⟩ | ⟨atts, l, trd, os, fs1, rfl, hdl, hx⟩
    · rw [hne] at he; cases he
    · rcases hx with ⟨_, _, _, _, rfl⟩ | ⟨rfl, hnp, trg, es, rfl, hw, hx⟩
      · exact .inl rfl
      · have hok : ∀ a ∈ atts.filter (isStale list.name valid), (rtOf a).OK := by
          intro a ha
          obtain ⟨n, -, hn⟩ := hmem atts rfl a (List.mem_filter.1 ha).1
          exact (attachmentIn_ok hn).1
        rw [execs_append, execs_append, hne, List.nil_append, List.mem_append] at he
        have hjoin : ∀ {es : List GoErr} {pre : Bytes}, GoErr.wrap pre g ∈ es → ∃ G, joinErrs es = .err G ∧ Within g G := by
          intro es pre hm
          unfold joinErrs
          rw [if_neg (by rintro rfl; cases hm)]
          exact ⟨_, rfl, .joined hm (.wrap .here)⟩
        have hdel : e ∈ trd.execs → ∃ pre pre', GoErr.wrap pre' (.wrap pre g) ∈ es := by
          intro he
          obtain ⟨pre, hp⟩ := dels_errors hdl hok he hg
          obtain ⟨e', he', pre', rfl⟩ := wrapped_within hw hp
          exact ⟨pre, pre', he'⟩
        have hjoin2 : ∀ {es : List GoErr} {pre pre' : Bytes}, GoErr.wrap pre' (.wrap pre g) ∈ es → ∃ G, joinErrs es = .err G ∧ Within g G := by
          intro es pre pre' hm
          unfold joinErrs
          rw [if_neg (by rintro rfl; cases hm)]
          exact ⟨_, rfl, .joined hm (.wrap (.wrap .here))⟩
        rcases hx with ⟨_, rfl, _, rfl⟩ | ⟨_, o1, hgc, rfl⟩
        · rcases he with he | he
          · obtain ⟨pre, pre', hm⟩ := hdel he
            exact .inr (hjoin2 hm)
          · cases he
        · rcases gcLoop_errors hgc with rfl | ⟨es2, rfl, hes⟩
          · exact .inl rfl
          · refine .inr ?_
            rcases he with he | he
            · obtain ⟨pre, pre', hm⟩ := hdel he
              exact hjoin2 (es := es ++ es2) (List.mem_append_left _ hm)
            · obtain ⟨pre, hm⟩ := hes e he g hg
              exact hjoin (es := es ++ es2) (pre := pre) (List.mem_append_right _ hm)

theorem c46_gc (c : CNIConfig) (list : NetConfList) (valid : Option (List GCAttachment)) (fs fs' : FS) (tr : Trace) (o : Out Unit)
    (h : Runs flt (c.gcNetworkList list valid) fs tr fs' o) (e : ExecEv) (he : e ∈ tr.execs) (ce : CniErr)
    (hg : e.resp = .error (.cni ce)) : o = .panic ∨ FailureHas o ce := gc_errors c list valid fs fs' tr o h e he _ hg

/-! ### delegation -/

theorem delegated_execs {environ : List Bytes} {verb plugin netconf : Bytes} {x : Except GoErr ExecEv}
    (h : Delegated environ verb plugin netconf tr x) {e : ExecEv} (he : e ∈ tr.execs) : x = .ok e := by
  obtain ⟨_, _, _, _, h⟩ := h
  cases x with
  | error g => rw [h.2] at he; cases he
  | ok e' => rw [h.2.1, List.mem_singleton] at he; rw [he]

theorem c46_delegate_add (environ : List Bytes) (plugin netconf : Bytes) (fs fs' : FS) (tr : Trace) (o : Out Result)
    (h : Runs flt (delegateAdd environ plugin netconf) fs tr fs' o) (e : ExecEv) (he : e ∈ tr.execs) (g : GoErr)
    (hg : e.resp = .error g) : o = .err g := by
  obtain ⟨-, x, hd, -, hx⟩ := c41_add environ plugin netconf fs fs' tr o h
  exact (hx e (delegated_execs hd he)).2 g hg

/-- CHECK, DEL, STATUS and GC. -/
theorem c46_delegate (environ : List Bytes) (plugin netconf : Bytes) (fs fs' : FS) (tr : Trace) (o : Out Unit)
    (h : Runs flt (delegateCheck environ plugin netconf) fs tr fs' o ∨ Runs flt (delegateDel environ plugin netconf) fs tr fs' o ∨
      Runs flt (delegateStatus environ plugin netconf) fs tr fs' o ∨ Runs flt (delegateGC environ plugin netconf) fs tr fs' o)
    (e : ExecEv) (he : e ∈ tr.execs) (g : GoErr) (hg : e.resp = .error g) : o = .err g := by
  rcases h with h | h | h | h
  · obtain ⟨-, x, hd, -, hx⟩ := c41_check environ plugin netconf fs fs' tr o h
    exact (hx e (delegated_execs hd he)).2 g hg
  · obtain ⟨-, x, hd, -, hx⟩ := c41_del environ plugin netconf fs fs' tr o h
    exact (hx e (delegated_execs hd he)).2 g hg
  · obtain ⟨-, x, hd, -, hx⟩ := c41_status environ plugin netconf fs fs' tr o h
    exact (hx e (delegated_execs hd he)).2 g hg
  · obtain ⟨-, x, hd, -, hx⟩ := c41_gc environ plugin netconf fs fs' tr o h
    exact (hx e (delegated_execs hd he)).2 g hg

/-! ### the hypotheses can be met -/

namespace Example
/-- Plugin `b` fails with a CNI error. -/
def failCni (p i : Bytes) (a : PArgs) : Except GoErr Bytes :=
  if p = b!"/bin/b" then .error (.cni { code := 11, msg := b!"later", details := b!"lock" }) else good p i a

def failCode : Out α → Option CniErr
  | .err g => g.asCni
  | _ => none

example : ∃ tr fs' o, Runs false (cfg.addNetworkList list rt) noFiles tr fs' o ∧
    (tr.execs.map (fun e => e.path), failCode o) = ([b!"/bin/a", b!"/bin/b"], some { code := 11, msg := b!"later", details := b!"lock" }) :=
  Prog.interp_exists (find := find) (exec := failCni) (fun tr _ o => (tr.execs.map (fun e => e.path), failCode o)) (by decide +kernel)

example : ∃ tr fs' o, Runs false (cfg.delNetworkList list rt) noFiles tr fs' o ∧
    (tr.execs.map (fun e => e.path), failCode o) = ([b!"/bin/b"], some { code := 11, msg := b!"later", details := b!"lock" }) :=
  Prog.interp_exists (find := find) (exec := failCni) (fun tr _ o => (tr.execs.map (fun e => e.path), failCode o)) (by decide +kernel)

example : ∃ tr fs' o, Runs false (cfg.getStatusNetworkList list11) noFiles tr fs' o ∧
    (tr.execs.map (fun e => e.path), failCode o) = ([b!"/bin/a", b!"/bin/b"], some { code := 11, msg := b!"later", details := b!"lock" }) :=
  Prog.interp_exists (find := find) (exec := failCni) (fun tr _ o => (tr.execs.map (fun e => e.path), failCode o)) (by decide +kernel)

end Example

end Verif
