/- What a runtime learns about the versions a plugin supports (C57), and the versions of this library (C58). -/
import Verif.Props.EndToEnd
import Verif.Props.PluginPrint
import Verif.Props.PluginView
import Verif.Spec.VersionInfo

namespace Verif

open Spec

variable {flt : Bool}

/-! ### C57 -/

/-- C57: the plugin is searched for on all of the path and, if found, executed once, with a VERSION request. The versions reported are
those of its answer; a failure other than not knowing the request is passed on as it is. Nothing is written. -/
theorem c57_asks (c : CNIConfig) (type : Bytes) (fs fs' : FS) (tr : Trace) (o : Out PluginInfo)
    (h : Runs flt (c.getVersionInfo type) fs tr fs' o) :
    fs' = fs ∧ o ≠ .panic ∧
    ((∃ g, tr = [⟨.find type c.path, (.error g : Except GoErr Bytes)⟩] ∧ o = .err g) ∨
      ∃ path r, tr = [⟨.find type c.path, (.ok path : Except GoErr Bytes)⟩,
          ⟨.exec path b!"{\"cniVersion\":\"1.1.0\"}" versionRequest, r⟩] ∧
        (∀ v, (∃ info, o = .ok info ∧ v ∈ info.supported) ↔ Supports r v) ∧
        ∀ g, r = .error g → g.msg ≠ b!"unknown CNI_COMMAND: VERSION" → o = .err g) := by
  unfold CNIConfig.getVersionInfo at h
  simp only [prog_bind_eq] at h
  obtain ⟨tr1, tr2, fs1, o1, rfl, h1, h2⟩ := runs_bind.1 h
  obtain ⟨r, rfl, rfl, rfl⟩ := runs_findPlugin.1 h1
  cases r with
  | error g =>
    obtain ⟨rfl, rfl, rfl⟩ := h2
    exact ⟨rfl, (by intro h; cases h), .inl ⟨g, rfl, rfl⟩⟩
  | ok path =>
    unfold getVersionInfoAt at h2
    obtain ⟨r, fs4, tr5, hs, rfl, h5⟩ := runs_op.1 h2
    obtain ⟨rfl, rfl, rfl⟩ := runs_done.1 h5
    cases hs
    refine ⟨rfl, versionInfoOf_ne_panic r, .inr ⟨path, r, rfl, fun v => versionInfoOf_supports, ?_⟩⟩
    rintro g rfl hg
    simp only [versionInfoOf, hg, if_false]

theorem ofOption_ok {α : Type} {m : Bytes} {x : Option α} {a : α} (h : Out.ofOption m x = .ok a) : x = some a := by
  cases x with
  | none => cases h
  | some b => cases h; rfl

/-- Answers that are plainly spelled: a plugin supports exactly the versions it declares. -/
theorem c57_document (b : Bytes) (ms : List (Bytes × Json)) (hb : Json.parse b = some (.obj ms)) (hp : PlainInfo ms) (vs : List Bytes) :
    (∃ info, decodePluginInfo b = .ok info ∧ info.supported = vs) ↔ Declares ms vs := by
  obtain ⟨hpl, hnn⟩ := hp
  have g1 := getField_plain (f := b!"cniVersion") hpl (by simp)
  have g2 := getField_plain (f := b!"supportedVersions") hpl (by simp)
  have mem : ∀ k j, (k, j) ∈ ms ↔ GoMap.get? ms k = some j :=
    fun k j => ⟨GoMap.get?_of_nodup hpl.once, GoMap.get?_some_mem⟩
  have hstr : ∀ l : List Json, .null ∉ l → ∀ s, decStrElems l = some s → l = s.map .str := by
    intro l
    induction l with
    | nil => intro _ s h; cases h; rfl
    | cons x l ih =>
      intro hn s h
      have hx : x ≠ .null := fun he => hn (by simp [he])
      cases x <;> simp [decStrElems] at h hx
      obtain ⟨s', h', rfl⟩ := h
      simp [ih (fun he => hn (by simp [he])) s' h']
  constructor
  · rintro ⟨info, hd, rfl⟩
    unfold decodePluginInfo at hd
    rw [hb] at hd
    simp only [Out.ofOption_some, Out.bind_ok, structMembers, infoFields, g1, g2] at hd
    obtain ⟨v, hv, hd⟩ := Out.bind_eq_ok hd
    obtain ⟨s, hs, hd⟩ := Out.bind_eq_ok hd
    have hv' := ofOption_ok hv
    have hs' := ofOption_ok hs
    split at hd
    · cases hd
    · rename_i hne
      have hcv : (b!"cniVersion", .str v) ∈ ms := by
        rw [mem]
        cases hg : GoMap.get? ms b!"cniVersion" with
        | none => rw [hg] at hv'; cases hv'; exact absurd rfl hne
        | some j =>
          rw [hg] at hv'
          simp only [Option.toList_some, decAll_one] at hv'
          cases j <;> simp [decStr] at hv'
          · exact absurd hv' hne
          · rw [hv']
      split at hd
      · rename_i hse
        split at hd
        · rename_i h02
          cases hd
          refine .old (h02 ▸ hcv) fun j hj => ?_
          have hj' := (mem _ _).1 hj
          rw [hj'] at hs'
          simp only [Option.toList_some, decAll_one, hse] at hs'
          cases j <;> simp [decStrList] at hs'
          · simp
          · rw [hstr _ (hnn _ hj) _ hs']
            simp
        · cases hd
      · rename_i hse
        cases hd
        refine .listed hcv hne ?_ hse
        rw [mem]
        cases hg : GoMap.get? ms b!"supportedVersions" with
        | none => rw [hg] at hs'; cases hs'; exact absurd rfl hse
        | some j =>
          rw [hg] at hs'
          simp only [Option.toList_some, decAll_one] at hs'
          cases j with
          | null => simp [decStrList] at hs'; exact absurd hs' hse
          | arr l =>
            simp only [decStrList] at hs'
            rw [hstr l (hnn l ((mem _ _).2 hg)) _ hs']
          | _ => simp [decStrList] at hs'
  · intro hd
    unfold decodePluginInfo
    rw [hb]
    simp only [Out.ofOption_some, Out.bind_ok, structMembers, infoFields, g1, g2]
    cases hd with
    | listed hv hne hs hvs =>
      rw [(mem _ _).1 hv, (mem _ _).1 hs]
      simp [decAll_one, decStr, decStrList, hne, hvs]
    | old hv hs =>
      rw [(mem _ _).1 hv]
      have : decAll decStrList [] (GoMap.get? ms b!"supportedVersions").toList = some [] := by
        cases hg : GoMap.get? ms b!"supportedVersions" with
        | none => rfl
        | some j =>
          rcases hs j ((mem _ _).2 hg) with rfl | rfl <;> simp [decAll_one, decStrList, decStrElems]
      rw [this]
      simp [decAll_one, decStr, pluginSupports]

/-- Anything that is not an object is an error. -/
theorem c57_not_document (b : Bytes) (hb : ∀ ms, Json.parse b ≠ some (.obj ms)) (info : PluginInfo) : decodePluginInfo b ≠ .ok info := by
  intro hd
  unfold decodePluginInfo at hd
  obtain ⟨j, hj, hd⟩ := Out.bind_eq_ok hd
  have hj := ofOption_ok hj
  obtain ⟨ms, hm, hd⟩ := Out.bind_eq_ok hd
  have hm := ofOption_ok hm
  cases j <;> simp [structMembers] at hm
  · subst hm
    simp only [getField_nil, decAll_nil, Out.ofOption_some, Out.bind_ok] at hd
    simp at hd
  · exact hb _ hj

/-- The process of a VERSION request is told so. -/
theorem version_command {enum : MapEnum} (hen : IsMapOrder enum) {environ : List Bytes} {e : ExecEv} {t : SkelProc}
    (ht : ProcessOf enum environ e t) (ha : e.args = versionRequest) : t.getenv b!"CNI_COMMAND" = b!"VERSION" := by
  have e1 := ht.env
  rw [e1, ha]
  exact (getenv_asEnv hen environ _).1

/-- The answer of a plugin built with skel to a VERSION request is decoded to its versions. -/
theorem skelPlugin_answer {enum : MapEnum} (hen : IsMapOrder enum) {environ : List Bytes} {e : ExecEv} {vs : List Bytes}
    (h : SkelPlugin enum environ e vs) (ha : e.args = versionRequest) :
    ∃ info, versionInfoOf e.resp = .ok info ∧ info.supported = vs := by
  obtain ⟨quote, t, funcs, vi, about, ns, printed, stderr, ht, ho, hvi, hu, han⟩ := h
  have hc := version_command hen ht ha
  obtain ⟨info, hi, hs, -⟩ := c37_decodes t funcs vs vi about ns hc ho hvi hu
  have hv := c37_version t funcs vi about ns hc ho
  rw [hv] at hi
  refine ⟨info, ?_, hs⟩
  have : e.resp = .ok vi.encode := by
    unfold AnsweredBy at han
    have hm : t.mainFuncs funcs vi about ns printed = { stdout := vi.encode, status := 0 } := by
      unfold SkelProc.mainFuncs
      simp only [hv]
      rfl
    rw [hm] at han
    simpa [PluginExit.runResult, rawExec, rawExecLoop] using han
  rw [this]
  exact hi

/-- C57: asked about a plugin that was built with skel, `GetVersionInfo` reports exactly the versions the plugin was built for,
in the same order. -/
theorem c57_skel (c : CNIConfig) (type : Bytes) (fs fs' : FS) (tr : Trace) (o : Out PluginInfo)
    (h : Runs flt (c.getVersionInfo type) fs tr fs' o) (enum : MapEnum) (hen : IsMapOrder enum) (environ : List Bytes)
    (e : ExecEv) (he : e ∈ tr.execs) (vs : List Bytes) (hsk : SkelPlugin enum environ e vs) :
    ∃ info, o = .ok info ∧ info.supported = vs := by
  unfold CNIConfig.getVersionInfo at h
  simp only [prog_bind_eq] at h
  obtain ⟨tr1, tr2, fs1, o1, rfl, h1, h2⟩ := runs_bind.1 h
  obtain ⟨r, rfl, rfl, rfl⟩ := runs_findPlugin.1 h1
  cases r with
  | error g =>
    obtain ⟨rfl, rfl, rfl⟩ := h2
    cases he
  | ok path =>
    unfold getVersionInfoAt at h2
    obtain ⟨r, fs4, tr5, hs, rfl, h5⟩ := runs_op.1 h2
    obtain ⟨rfl, rfl, rfl⟩ := runs_done.1 h5
    cases hs
    have : e = ⟨path, versionStdin, versionArgs, r⟩ := by
      rw [List.cons_append, List.nil_append, execs_cons_find] at he
      exact List.mem_singleton.1 he
    subst this
    exact skelPlugin_answer hen hsk rfl

theorem skelPlugin_supports {enum : MapEnum} (hen : IsMapOrder enum) {environ : List Bytes} {e : ExecEv} {vs : List Bytes}
    (h : SkelPlugin enum environ e vs) (ha : e.args = versionRequest) (v : Bytes) : Supports e.resp v ↔ v ∈ vs := by
  obtain ⟨info, hi, rfl⟩ := skelPlugin_answer hen h ha
  rw [← versionInfoOf_supports, hi]
  simp

theorem probes_skel {c : CNIConfig} {ps : List PluginConfig} {tr : Trace} {as : List (Option (Except GoErr Bytes))}
    (h : Probes c ps tr as) {enum : MapEnum} (hen : IsMapOrder enum) {environ : List Bytes} {sup : Bytes → List Bytes} {v : Bytes}
    (hsk : ∀ e ∈ tr.execs, SkelPlugin enum environ e (sup e.path)) :
    (∀ a ∈ as, ∃ r, a = some r ∧ Supports r v) ↔
      ∀ (i : Nat) p, ps[i]? = some p → ∃ path, tr.finds[i]? = some ⟨p.network.type, c.path, .ok path⟩ ∧ v ∈ sup path := by
  induction h with
  | nil => simp
  | @notFound p ps g tr as h ih =>
    rw [finds_cons_find]
    refine ⟨fun ha => ?_, fun hf => ?_⟩
    · obtain ⟨r, hr, -⟩ := ha none (by simp)
      cases hr
    · obtain ⟨path, hp, -⟩ := hf 0 p rfl
      cases hp
  | @asked p ps path r tr as h ih =>
    rw [execs_cons_find, execs_cons_exec] at hsk
    rw [finds_cons_find, finds_cons_exec]
    have h0 := skelPlugin_supports hen (hsk _ (List.mem_cons_self ..)) rfl v
    have ih' := ih fun e he => hsk e (List.mem_cons_of_mem _ he)
    simp only at h0
    constructor
    · intro ha i q hq
      cases i with
      | zero =>
        cases hq
        obtain ⟨r', hr, hs⟩ := ha (some r) (by simp)
        cases hr
        exact ⟨path, rfl, h0.1 hs⟩
      | succ i => exact ih'.1 (fun a hm => ha a (List.mem_cons_of_mem _ hm)) i q hq
    · intro hf a ha
      rcases List.mem_cons.1 ha with rfl | ha
      · obtain ⟨path', hp, hv⟩ := hf 0 p rfl
        cases hp
        exact ⟨r, rfl, h0.2 hv⟩
      · exact ih'.2 (fun i q hq => hf (i + 1) q hq) a ha

/-- C57: a list of plugins that were built with skel, the one at path `p` for the versions `sup p`, is valid if and only if each of them is
found and was built for the version of the list. -/
theorem c57_validate (c : CNIConfig) (list : NetConfList) (fs fs' : FS) (tr : Trace) (o : Out (List Bytes))
    (h : Runs flt (c.validateNetworkList list) fs tr fs' o) (enum : MapEnum) (hen : IsMapOrder enum) (environ : List Bytes)
    (sup : Bytes → List Bytes) (hsk : ∀ e ∈ tr.execs, SkelPlugin enum environ e (sup e.path)) :
    (∃ caps, o = .ok caps) ↔ ∀ (i : Nat) p, list.plugins[i]? = some p →
      ∃ path, tr.finds[i]? = some ⟨p.network.type, c.path, .ok path⟩ ∧ effective list.cniVersion ∈ sup path := by
  obtain ⟨-, as, hp, hiff, -⟩ := c26_validate c list fs fs' tr o h
  rw [hiff]
  exact probes_skel hp hen hsk

/-! ### C58 -/

theorem toOption_some {α : Type} {o : Out α} {a : α} : o = .ok a ↔ o.toOption = some a := by
  cases o <;> simp [Out.toOption]

/-- C58: `VersionsStartingFrom` gives the versions that are not older than the given one, oldest first and each once. A version that is not
one of the library's makes it panic. -/
theorem c58_starting_from (min : Bytes) :
    (min ∈ allVersions → ∃ info, versionsStartingFrom min = .ok info ∧
      info.supported.Sublist allVersions ∧ ∀ v, v ∈ info.supported ↔ v ∈ allVersions ∧ gte v min = .ok true) ∧
    (min ∉ allVersions → versionsStartingFrom min = .panic) := by
  rw [versionsStartingFrom_eq]
  constructor
  · intro h
    rw [if_pos h]
    refine ⟨_, rfl, List.dropWhile_sublist _, fun v => ?_⟩
    by_cases hv : v ∈ allVersions
    · simp only [toOption_some]
      revert v
      simp only [allVersions, List.mem_cons, List.not_mem_nil, or_false] at h
      rcases h with rfl | rfl | rfl | rfl | rfl | rfl | rfl <;> decide +kernel
    · simp only [hv, false_and, iff_false]
      exact fun hm => hv ((List.dropWhile_sublist _).subset hm)
  · intro h
    rw [if_neg h]

/-- C58: the library's versions, which are also those of its results, are in ascending order, and the last is the current one. -/
theorem c58_all : allVersions.Pairwise (fun v w => gt w v = .ok true) ∧ allVersions.getLast? = some currentVersion := by
  constructor
  · simp only [toOption_some]
    decide +kernel
  · rfl

/-! ### concrete cases -/

namespace Example

/-- The answer of a plugin built with skel for 0.4.0 and 1.0.0. -/
def versionAnswer : Bytes → Bytes → PArgs → Except GoErr Bytes := fun _ _ _ => .ok b!"{\"cniVersion\":\"1.1.0\",\"supportedVersions\":[\"0.4.0\",\"1.0.0\"]}\n"

/-- C57: asked for its versions, the plugin is found and executed, and the versions get back. -/
example : ∃ tr fs' o, Runs false (cfg.getVersionInfo b!"a") noFiles tr fs' o ∧
    (tr.execs.map (fun e => (e.path, e.stdin)), o.toOption) =
      ([(b!"/bin/a", b!"{\"cniVersion\":\"1.1.0\"}")], some ⟨b!"1.1.0", [b!"0.4.0", b!"1.0.0"]⟩) :=
  Prog.interp_exists (find := find) (exec := versionAnswer) (fun tr _ o => (tr.execs.map (fun e => (e.path, e.stdin)), o.toOption)) (by decide +kernel)

/-- C57: it is that of such a plugin. -/
example : SkelPlugin List.reverse [b!"HOME=/root", b!"CNI_IFNAME=old", b!"CNI_NETNS_OVERRIDE=1"]
    ⟨b!"/bin/a", versionStdin, versionRequest, versionAnswer b!"/bin/a" versionStdin versionRequest⟩ [b!"0.4.0", b!"1.0.0"] := by
  refine ⟨id, proc ⟨b!"/bin/a", versionStdin, versionRequest, versionAnswer b!"/bin/a" versionStdin versionRequest⟩, plugin, _, b!"about", nowhere,
    fun _ => [], [], proc_of _, rfl, rfl, by decide +kernel, ?_⟩
  unfold AnsweredBy
  have : rawExec id (fun _ => ((proc ⟨b!"/bin/a", versionStdin, versionRequest, versionAnswer b!"/bin/a" versionStdin versionRequest⟩).mainFuncs plugin
      ⟨currentVersion, [b!"0.4.0", b!"1.0.0"]⟩ b!"about" nowhere fun _ => []).runResult []) =
      .ok (b!"{\"cniVersion\":\"1.1.0\",\"supportedVersions\":[\"0.4.0\",\"1.0.0\"]}\n", []) := by rfl
  rw [this]
  rfl

/-- C57: a plain answer, and one of version 0.2.0. -/
example : PlainInfo [(b!"supportedVersions", .arr [.str b!"0.4.0"]), (b!"cniVersion", .str b!"1.0.0"), (b!"x", .null)] ∧
    Declares [(b!"supportedVersions", .arr [.str b!"0.4.0"]), (b!"cniVersion", .str b!"1.0.0"), (b!"x", .null)] [b!"0.4.0"] ∧
    PlainInfo [(b!"cniVersion", .str b!"0.2.0")] ∧ Declares [(b!"cniVersion", .str b!"0.2.0")] [b!"0.1.0", b!"0.2.0"] := by
  refine ⟨⟨⟨by decide, by decide +kernel⟩, ?_⟩, .listed (v := b!"1.0.0") (vs := [b!"0.4.0"]) (by simp) (by decide) (by simp) (by decide),
    ⟨⟨by decide, by decide +kernel⟩, by simp⟩, .old (by simp) (by simp)⟩
  intro l hl
  simp at hl
  subst hl
  simp

/-- C57: an answer that gives no list is an error, if it is not of version 0.2.0; so is one without a version. -/
example : (decodePluginInfo b!"{\"cniVersion\":\"0.3.0\"}").toOption = none ∧ (decodePluginInfo b!"{\"supportedVersions\":[\"0.3.0\"]}").toOption = none := by
  decide +kernel

/-- C58. -/
example : (versionsStartingFrom b!"0.4.0").toOption = some ⟨b!"1.1.0", [b!"0.4.0", b!"1.0.0", b!"1.1.0"]⟩ := by decide +kernel

end Example

end Verif
