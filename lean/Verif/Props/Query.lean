/- STATUS and validation (C25, C26). -/
import Verif.Props.Panic
import Verif.Spec.Query

namespace Verif

open Spec

variable {flt : Bool} {fs fs' : FS} {tr : Trace}

theorem execs_cons_find {n : Bytes} {ps : List Bytes} {r : Except GoErr Bytes} {tr : Trace} :
    Trace.execs (⟨.find n ps, r⟩ :: tr) = Trace.execs tr := rfl
theorem execs_cons_exec {p i : Bytes} {a : PArgs} {r : Except GoErr Bytes} {tr : Trace} :
    Trace.execs (⟨.exec p i a, r⟩ :: tr) = ⟨p, i, a, r⟩ :: Trace.execs tr := rfl
theorem finds_cons_find {n : Bytes} {ps : List Bytes} {r : Except GoErr Bytes} {tr : Trace} :
    Trace.finds (⟨.find n ps, r⟩ :: tr) = ⟨n, ps, r⟩ :: Trace.finds tr := rfl
theorem finds_cons_exec {p i : Bytes} {a : PArgs} {r : Except GoErr Bytes} {tr : Trace} :
    Trace.finds (⟨.exec p i a, r⟩ :: tr) = Trace.finds tr := rfl

/-! ### C25 -/

theorem statusLoop_runs {c : CNIConfig} {name ver : Bytes} {ps : List PluginConfig} :
    ∀ {fs fs' : FS} {tr : Trace} {o : Out Unit}, Runs flt (c.statusLoop name ver ps) fs tr fs' o →
    fs' = fs ∧ Queried c name ver ps tr o := by
  induction ps with
  | nil =>
    intro fs fs' tr o h
    obtain ⟨rfl, rfl, rfl⟩ := runs_done.1 h
    exact ⟨rfl, .nil⟩
  | cons p ps ih =>
    intro fs fs' tr o h
    unfold CNIConfig.statusLoop at h
    obtain ⟨tr1, tr2, fs1, o1, rfl, h1, h2⟩ := runs_bind.1 h
    obtain ⟨rfl, rfl, rfl⟩ := runs_done.1 h1
    cases hc : injectConf p (gcValues name ver none) with
    | err g =>
      rw [hc] at h2
      obtain ⟨rfl, rfl, rfl⟩ := h2
      refine ⟨rfl, .unsound fun hs => ?_⟩
      obtain ⟨conf, h, -⟩ := Sound_inject hs name ver none
      rw [hc] at h
      cases h
    | panic =>
      rw [hc] at h2
      obtain ⟨rfl, rfl, rfl⟩ := h2
      exact ⟨rfl, .crash fun ho => injectConf_ne_panic ho _ hc⟩
    | ok conf =>
      rw [hc] at h2
      have ht : Sound p → conf.network.type = p.network.type := by
        intro hs
        obtain ⟨conf', h, h'⟩ := Sound_inject hs name ver none
        rw [hc] at h
        cases h
        exact h'
      obtain ⟨tr3, tr4, fs3, o3, rfl, h3, h4⟩ := runs_bind.1 h2
      obtain ⟨rfl, ⟨g, rfl, rfl⟩ | ⟨path, r, rfl, rfl⟩⟩ := bareNetwork1_runs h3
      · obtain ⟨rfl, rfl, rfl⟩ := h4
        exact ⟨rfl, .notFound ht⟩
      · cases r with
        | error g =>
          obtain ⟨rfl, rfl, rfl⟩ := h4
          exact ⟨rfl, .fails ht (inject_bare hc)⟩
        | ok out =>
          obtain ⟨rfl, hq⟩ := ih h4
          exact ⟨rfl, .next ht (inject_bare hc) hq⟩

/-- The plugins are asked for their status one after the other, up to the first failure, which is returned unchanged. -/
theorem c25_status (c : CNIConfig) (list : NetConfList) (hv : AtLeast list.cniVersion (1, 1, 0)) (fs fs' : FS) (tr : Trace) (o : Out Unit)
    (h : Runs flt (c.getStatusNetworkList list) fs tr fs' o) :
    fs' = fs ∧ Queried c list.name list.cniVersion list.plugins tr o := by
  unfold CNIConfig.getStatusNetworkList at h
  rw [if_pos (atLeast110_iff.2 hv)] at h
  exact statusLoop_runs h

/-- Below 1.1.0, and with a malformed version, nothing is executed and success is reported. -/
theorem c25_old (c : CNIConfig) (list : NetConfList) (hv : ¬ AtLeast list.cniVersion (1, 1, 0)) (fs fs' : FS) (tr : Trace) (o : Out Unit)
    (h : Runs flt (c.getStatusNetworkList list) fs tr fs' o) : tr = [] ∧ fs' = fs ∧ o = .ok () := by
  unfold CNIConfig.getStatusNetworkList at h
  rw [if_neg (fun hh => hv (atLeast110_iff.1 hh))] at h
  exact runs_done.1 h

/-- Success means every plugin was found and succeeded; a failure is that of the last call made. -/
theorem c25_outcome (c : CNIConfig) (name ver : Bytes) (ps : List PluginConfig) (hs : ∀ p ∈ ps, Sound p) (tr : Trace) (o : Out Unit)
    (h : Queried c name ver ps tr o) :
    (o = .ok () ↔ tr.execs.length = ps.length ∧ ∀ e ∈ tr.execs, ∃ out, e.resp = .ok out) ∧
    tr.finds.map FindEv.name = (ps.map fun p => p.network.type).take tr.finds.length ∧
    (∀ e ∈ tr.execs, e.args = .args (attachArgs c b!"STATUS" {})) ∧
    ∀ g, o = .err g → (∃ e, tr.execs.getLast? = some e ∧ e.resp = .error g) ∨ (∃ e, tr.finds.getLast? = some e ∧ e.resp = .error g) := by
  induction h with
  | nil => simp
  | unsound hn => exact absurd (hs _ (List.mem_cons_self ..)) hn
  | crash hn => exact absurd (Sound_isObject (hs _ (List.mem_cons_self ..))) hn
  | @notFound p ps type g ht =>
    cases ht (hs p (by simp))
    rw [execs_cons_find, finds_cons_find]
    refine ⟨by simp, by simp, by simp, fun g' hg' => ?_⟩
    cases hg'
    exact .inr ⟨_, rfl, rfl⟩
  | @fails p ps stdin type path g ht hb =>
    cases ht (hs p (by simp))
    rw [execs_cons_find, finds_cons_find, execs_cons_exec, finds_cons_exec]
    refine ⟨by simp, by simp, by simp, fun g' hg' => ?_⟩
    cases hg'
    exact .inl ⟨_, rfl, rfl⟩
  | @next p ps stdin type path out tr o ht hb h ih =>
    cases ht (hs p (by simp))
    obtain ⟨h1, h2, h3, h4⟩ := ih fun q hq => hs q (by simp [hq])
    rw [execs_cons_find, finds_cons_find, execs_cons_exec, finds_cons_exec]
    refine ⟨by simpa using h1, by simpa using h2, by simpa using h3, fun g hg => ?_⟩
    rcases h4 g hg with ⟨e, he, hr⟩ | ⟨e, he, hr⟩
    · exact .inl ⟨e, by rw [List.getLast?_cons, he]; rfl, hr⟩
    · exact .inr ⟨e, by rw [List.getLast?_cons, he]; rfl, hr⟩

/-! ### C26 -/

theorem versionInfoOf_ne_panic (r : Except GoErr Bytes) : versionInfoOf r ≠ .panic := by
  unfold versionInfoOf
  cases r with
  | error e =>
    simp only
    split
    · simp [pluginSupports]
    · simp
  | ok out =>
    simp only
    intro h
    unfold decodePluginInfo at h
    cases h1 : Json.parse out with
    | none => rw [h1] at h; simp at h
    | some j =>
      rw [h1] at h
      simp only [Out.ofOption_some, Out.bind_ok] at h
      cases h2 : structMembers j with
      | none => rw [h2] at h; simp at h
      | some ms =>
        rw [h2] at h
        simp only [Out.ofOption_some, Out.bind_ok] at h
        cases h3 : decAll decStr [] (getField infoFields b!"cniVersion" ms) with
        | none => rw [h3] at h; simp at h
        | some v =>
          rw [h3] at h
          simp only [Out.ofOption_some, Out.bind_ok] at h
          cases h4 : decAll decStrList [] (getField infoFields b!"supportedVersions" ms) with
          | none => rw [h4] at h; simp at h
          | some s =>
            rw [h4] at h
            simp only [Out.ofOption_some, Out.bind_ok] at h
            repeat' split at h
            all_goals simp [pluginSupports] at h

theorem versionInfoOf_supports {r : Except GoErr Bytes} {v : Bytes} :
    (∃ info, versionInfoOf r = .ok info ∧ v ∈ info.supported) ↔ Supports r v := by
  unfold versionInfoOf Supports
  cases r with
  | ok out => rfl
  | error g =>
    simp only
    split
    · rename_i h
      simp [pluginSupports, h]
    · rename_i h
      simp [h]

theorem validatePlugin_runs {c : CNIConfig} {type ver : Bytes} {o : Out Unit}
    (h : Runs flt (c.validatePlugin type ver) fs tr fs' o) :
    fs' = fs ∧ ((∃ g, tr = [⟨.find type c.path, (.error g : Except GoErr Bytes)⟩] ∧ o = .err g) ∨
      ∃ path r, tr = [⟨.find type c.path, (.ok path : Except GoErr Bytes)⟩,
          ⟨.exec path b!"{\"cniVersion\":\"1.1.0\"}" versionRequest, r⟩] ∧
        ((o = .ok () ∧ Supports r (effective ver)) ∨ ((∃ g, o = .err g) ∧ ¬ Supports r (effective ver)))) := by
  unfold CNIConfig.validatePlugin at h
  simp only [prog_bind_eq] at h
  obtain ⟨tr1, tr2, fs1, o1, rfl, h1, h2⟩ := runs_bind.1 h
  obtain ⟨r, rfl, rfl, rfl⟩ := runs_findPlugin.1 h1
  cases r with
  | error g => obtain ⟨rfl, rfl, rfl⟩ := h2; exact ⟨rfl, .inl ⟨g, rfl, rfl⟩⟩
  | ok path =>
    obtain ⟨tr3, tr4, fs3, o3, rfl, h3, h4⟩ := runs_bind.1 h2
    unfold getVersionInfoAt at h3
    obtain ⟨r, fs4, tr5, hs, rfl, h5⟩ := runs_op.1 h3
    obtain ⟨rfl, rfl, rfl⟩ := runs_done.1 h5
    cases hs
    cases hv : versionInfoOf r with
    | panic => exact absurd hv (versionInfoOf_ne_panic r)
    | err g =>
      rw [hv] at h4
      obtain ⟨rfl, rfl, rfl⟩ := h4
      refine ⟨rfl, .inr ⟨path, r, rfl, .inr ⟨⟨g, rfl⟩, fun hs => ?_⟩⟩⟩
      obtain ⟨info, hi, -⟩ := versionInfoOf_supports.2 hs
      rw [hv] at hi
      cases hi
    | ok info =>
      rw [hv] at h4
      obtain ⟨rfl, rfl, rfl⟩ := runs_done.1 h4
      refine ⟨rfl, .inr ⟨path, r, rfl, ?_⟩⟩
      have hsc : supportsCheck type ver info = if effective ver ∈ info.supported then .ok () else
        .err (.text (b!"plugin " ++ type ++ b!" does not support config version " ++ effective ver)) := rfl
      rw [hsc]
      split
      · rename_i hm
        exact .inl ⟨rfl, versionInfoOf_supports.1 ⟨info, hv, hm⟩⟩
      · rename_i hm
        refine .inr ⟨⟨_, rfl⟩, fun hs => ?_⟩
        obtain ⟨info', hi, hm'⟩ := versionInfoOf_supports.2 hs
        rw [hv] at hi
        cases hi
        exact hm hm'

theorem supports_cons {as : List (Option (Except GoErr Bytes))} {r : Except GoErr Bytes} {v : Bytes} (h : Supports r v) :
    (∀ a ∈ some r :: as, ∃ r, a = some r ∧ Supports r v) ↔ ∀ a ∈ as, ∃ r, a = some r ∧ Supports r v := by
  simp [h]
theorem not_supports_cons {as : List (Option (Except GoErr Bytes))} {r : Except GoErr Bytes} {v : Bytes} (h : ¬ Supports r v) :
    ¬ ∀ a ∈ some r :: as, ∃ r, a = some r ∧ Supports r v := by
  simp [h]

theorem validateLoop_runs {c : CNIConfig} {ver : Bytes} {ps : List PluginConfig} :
    ∀ {errs : List GoErr} {caps : GoMap Unit} {fs fs' : FS} {tr : Trace} {o : Out (List GoErr × GoMap Unit)},
    GoMap.Sorted caps → Runs flt (c.validateLoop ver ps errs caps) fs tr fs' o →
    fs' = fs ∧ ∃ as es m, Probes c ps tr as ∧ o = .ok (errs ++ es, m) ∧
      (es = [] ↔ ∀ a ∈ as, ∃ r, a = some r ∧ Supports r (effective ver)) ∧ GoMap.Sorted m ∧
      ∀ k, k ∈ m.map Prod.fst ↔ k ∈ caps.map Prod.fst ∨ ∃ p ∈ ps, (k, true) ∈ p.network.capabilities := by
  induction ps with
  | nil =>
    intro errs caps fs fs' tr o hs h
    obtain ⟨rfl, rfl, rfl⟩ := runs_done.1 h
    exact ⟨rfl, [], [], caps, .nil, by simp, by simp, hs, by simp⟩
  | cons p ps ih =>
    intro errs caps fs fs' tr o hs h
    unfold CNIConfig.validateLoop at h
    obtain ⟨tr1, tr2, fs1, o1, rfl, h1, h2⟩ := runs_bind.1 h
    obtain ⟨o0, h0, rfl⟩ := runs_attempt.1 h1
    have hs' : GoMap.Sorted (GoMap.insertAll caps ((enabledCaps p.network.capabilities).map fun k => (k, ()))) :=
      GoMap.sorted_insertAll hs _
    have hcaps : ∀ k, k ∈ (GoMap.insertAll caps ((enabledCaps p.network.capabilities).map fun k => (k, ()))).map Prod.fst ↔
        k ∈ caps.map Prod.fst ∨ (k, true) ∈ p.network.capabilities := by
      intro k
      have hmem : ∀ m : GoMap Unit, k ∈ m.map Prod.fst ↔ GoMap.get? m k ≠ none := by
        intro m
        rw [Ne, GoMap.get?_none_iff]
        simp
      have hen : k ∈ (((enabledCaps p.network.capabilities).map fun k => (k, ())).reverse : GoMap Unit).map Prod.fst ↔
          (k, true) ∈ p.network.capabilities := by
        simp [enabledCaps]
      rw [hmem, hmem, GoMap.get?_insertAll, ← hen, hmem]
      cases GoMap.get? (((enabledCaps p.network.capabilities).map fun k => (k, ())).reverse : GoMap Unit) k <;> simp
    obtain ⟨rfl, ⟨g, rfl, rfl⟩ | ⟨path, r, rfl, ⟨rfl, hsup⟩ | ⟨⟨g, rfl⟩, hsup⟩⟩⟩ := validatePlugin_runs h0
    · obtain ⟨rfl, as, es, m, hp, rfl, he, hm, hk⟩ := ih hs' h2
      refine ⟨rfl, _, g :: es, m, .notFound hp, by rw [List.append_assoc]; rfl, by simp, hm, fun k => ?_⟩
      rw [hk, hcaps]; simp [or_assoc, List.mem_cons]
    · obtain ⟨rfl, as, es, m, hp, rfl, he, hm, hk⟩ := ih hs' h2
      refine ⟨rfl, _, es, m, .asked hp, rfl, he.trans (supports_cons hsup).symm, hm, fun k => ?_⟩
      rw [hk, hcaps]; simp [or_assoc, List.mem_cons]
    · obtain ⟨rfl, as, es, m, hp, rfl, he, hm, hk⟩ := ih hs' h2
      refine ⟨rfl, _, g :: es, m, .asked hp, by rw [List.append_assoc]; rfl,
        ⟨fun h => (by cases h), fun h => absurd h (not_supports_cons hsup)⟩, hm, fun k => ?_⟩
      rw [hk, hcaps]; simp [or_assoc, List.mem_cons]

/-- Every plugin is asked, whatever the others answer; validation succeeds iff every plugin was found and supports the version,
and then it returns the capabilities enabled by some plugin, each once. -/
theorem c26_validate (c : CNIConfig) (list : NetConfList) (fs fs' : FS) (tr : Trace) (o : Out (List Bytes))
    (h : Runs flt (c.validateNetworkList list) fs tr fs' o) :
    fs' = fs ∧ ∃ answers, Probes c list.plugins tr answers ∧
      ((∃ caps, o = .ok caps) ↔ ∀ a ∈ answers, ∃ r, a = some r ∧ Supports r (effective list.cniVersion)) ∧
      (∀ caps, o = .ok caps → caps.Nodup ∧ ∀ k, k ∈ caps ↔ ∃ p ∈ list.plugins, (k, true) ∈ p.network.capabilities) ∧
      ((∃ caps, o = .ok caps) ∨ ∃ g, o = .err g) := by
  unfold CNIConfig.validateNetworkList at h
  obtain ⟨tr1, tr2, fs1, o1, rfl, h1, h2⟩ := runs_bind.1 h
  obtain ⟨rfl, as, es, m, hp, rfl, he, hm, hk⟩ := validateLoop_runs (caps := []) (by trivial) h1
  simp only [List.nil_append] at h2
  change Runs _ _ _ _ _ _ at h2
  simp only at h2
  split at h2
  · rename_i hne
    obtain ⟨rfl, rfl, rfl⟩ := runs_done.1 h2
    refine ⟨rfl, as, by simpa using hp, ⟨fun ⟨_, h⟩ => (by cases h), fun h => absurd (he.2 h) hne⟩, by simp, .inr ⟨_, rfl⟩⟩
  · rename_i hne
    obtain ⟨rfl, rfl, rfl⟩ := runs_done.1 h2
    refine ⟨rfl, as, by simpa using hp, ⟨fun _ => he.1 (by simpa using hne), fun _ => ⟨_, rfl⟩⟩, ?_, .inl ⟨_, rfl⟩⟩
    intro caps hcaps
    cases hcaps
    exact ⟨GoMap.sorted_nodup hm, by simpa using hk⟩

/-- Validation of a single plugin configuration. -/
theorem c26_validate_network (c : CNIConfig) (net : PluginConfig) (hn : (net.network.capabilities.map Prod.fst).Nodup) (fs fs' : FS)
    (tr : Trace) (o : Out (List Bytes)) (h : Runs flt (c.validateNetwork net) fs tr fs' o) :
    fs' = fs ∧ ∃ answer, Probes c [net] tr [answer] ∧
      ((∃ caps, o = .ok caps) ↔ ∃ r, answer = some r ∧ Supports r (effective net.network.cniVersion)) ∧
      (∀ caps, o = .ok caps → caps.Nodup ∧ ∀ k, k ∈ caps ↔ (k, true) ∈ net.network.capabilities) ∧
      ((∃ caps, o = .ok caps) ∨ ∃ g, o = .err g) := by
  unfold CNIConfig.validateNetwork at h
  obtain ⟨tr1, tr2, fs1, o1, rfl, h1, h2⟩ := runs_bind.1 h
  obtain ⟨rfl, ⟨g, rfl, rfl⟩ | ⟨path, r, rfl, ⟨rfl, hsup⟩ | ⟨⟨g, rfl⟩, hsup⟩⟩⟩ := validatePlugin_runs h1
  · obtain ⟨rfl, rfl, rfl⟩ := h2
    exact ⟨rfl, none, .notFound .nil, by simp, by simp, .inr ⟨g, rfl⟩⟩
  · obtain ⟨rfl, rfl, rfl⟩ := runs_done.1 h2
    refine ⟨rfl, some (r : Except GoErr Bytes), .asked .nil, ⟨fun _ => ⟨_, rfl, hsup⟩, fun _ => ⟨_, rfl⟩⟩, ?_, .inl ⟨_, rfl⟩⟩
    intro caps hc
    cases hc
    refine ⟨(hn.sublist (List.Sublist.map _ List.filter_sublist)), by simp [enabledCaps]⟩
  · obtain ⟨rfl, rfl, rfl⟩ := h2
    exact ⟨rfl, some (r : Except GoErr Bytes), .asked .nil,
      ⟨fun ⟨_, h⟩ => (by cases h), fun ⟨_, h, h'⟩ => by cases h; exact absurd h' hsup⟩, by simp, .inr ⟨g, rfl⟩⟩

/-! ### examples -/

namespace Example

/-- Two plugins asked for their status, with name and version added. -/
example : ∃ tr fs' o, Runs false (cfg.getStatusNetworkList list11) noFiles tr fs' o ∧
    (tr.execs.map (fun e => (e.path, e.stdin)), o.toOption) =
      ([(b!"/bin/a", b!"{\"cniVersion\":\"1.1.0\",\"name\":\"net\",\"type\":\"a\",\"x\":1}"),
        (b!"/bin/b", b!"{\"cniVersion\":\"1.1.0\",\"name\":\"net\",\"type\":\"b\"}")], some ()) :=
  Prog.interp_exists (find := find) (exec := good) (fun tr _ o => (tr.execs.map (fun e => (e.path, e.stdin)), o.toOption)) (by decide +kernel)
/-- The first fails: the second is not asked. -/
example : ∃ tr fs' o, Runs false (cfg.getStatusNetworkList list11) noFiles tr fs' o ∧
    (tr.execs.map (fun e => e.path), o.toOption) = ([b!"/bin/a"], none) :=
  Prog.interp_exists (find := find) (exec := failA) (fun tr _ o => (tr.execs.map (fun e => e.path), o.toOption)) (by decide +kernel)
example : AtLeast list11.cniVersion (1, 1, 0) ∧ ¬ AtLeast list.cniVersion (1, 1, 0) :=
  ⟨atLeast110_iff.1 (by decide +kernel), fun h => absurd (atLeast110_iff.2 h) (by decide +kernel)⟩

/-- Plugins that say which versions they support. -/
def versions (_ _ : Bytes) (_ : PArgs) : Except GoErr Bytes := .ok b!"{\"cniVersion\":\"1.1.0\",\"supportedVersions\":[\"0.4.0\",\"1.0.0\"]}"
def capList (ver : Bytes) : NetConfList :=
  { name := b!"net", cniVersion := ver, plugins := [
      { network := { type := b!"a", capabilities := [(b!"bandwidth", true), (b!"portMappings", false)] }, bytes := [] },
      { network := { type := b!"b", capabilities := [(b!"bandwidth", true), (b!"mac", true)] }, bytes := [] }] }
example : ∃ tr fs' o, Runs false (cfg.validateNetworkList (capList b!"1.0.0")) noFiles tr fs' o ∧
    (tr.execs.map (fun e => e.path), o.toOption) = ([b!"/bin/a", b!"/bin/b"], some [b!"bandwidth", b!"mac"]) :=
  Prog.interp_exists (find := find) (exec := versions) (fun tr _ o => (tr.execs.map (fun e => e.path), o.toOption)) (by decide +kernel)
/-- A version neither supports; both are asked. -/
example : ∃ tr fs' o, Runs false (cfg.validateNetworkList (capList b!"1.1.0")) noFiles tr fs' o ∧
    (tr.execs.map (fun e => e.path), o.toOption) = ([b!"/bin/a", b!"/bin/b"], none) :=
  Prog.interp_exists (find := find) (exec := versions) (fun tr _ o => (tr.execs.map (fun e => e.path), o.toOption)) (by decide +kernel)
/-- No version is 0.1.0. -/
example : Supports (.error (.text b!"unknown CNI_COMMAND: VERSION")) (effective []) := ⟨by decide, by decide⟩

end Example

end Verif
