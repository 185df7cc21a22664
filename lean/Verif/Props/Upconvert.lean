/- A single plugin configuration and the one-plugin list made of it are interchangeable (C77). -/
import Verif.Spec.Same
import Verif.Props.Lookup
import Verif.Props.CacheUse
import Verif.Props.Query
import Verif.Props.Del
import Verif.Libcni.Interp

namespace Verif
open Spec

variable {flt : Bool} {c : CNIConfig} {net : PluginConfig} {L : NetConfList} {rt : RuntimeConf}

/-! ### the configuration the plugin is given -/

theorem injectConf_same {b : Bytes} {orig p : PluginConfig} {ms : List (Bytes × Json)} (h : pluginConfFromBytes b = .ok orig)
    (hp : Json.parse b = some (.obj ms)) (hm : ∃ m, Json.toAnyMembers ms = some m) (hl : PluginLoads (.obj ms) p)
    (kvs : List (Bytes × Option Json)) : injectConf p kvs = injectConf orig kvs := by
  obtain ⟨hb, -⟩ := loaded_obj h
  obtain ⟨m, hm⟩ := hm
  obtain ⟨ms', M, e0, hpM, hinj, -, -⟩ := hl
  cases e0
  have eM : M = GoMap.ofList m := injected_unique hinj (injected_insertAll (kvs := []) hm (by simp))
  have hMa : Json.toAnyMembers M = some M := by
    rw [eM]
    exact toAnyMembers_normal fun x hx => Json.toAnyMembers_idem _ _ hm x (ofList_mem x hx)
  have hs : GoMap.ofList M = M := by rw [eM]; exact GoMap.ofList_of_sorted (GoMap.sorted_ofList m)
  unfold injectConf
  rw [hpM, hb, hp]
  simp only [rawMap_obj, hMa, hm, Option.map_some, hs, ← eM]

theorem buildOneConfig_same {b : Bytes} {orig p : PluginConfig} {ms : List (Bytes × Json)} (h : pluginConfFromBytes b = .ok orig)
    (hp : Json.parse b = some (.obj ms)) (hm : ∃ m, Json.toAnyMembers ms = some m) (hl : PluginLoads (.obj ms) p)
    (name ver : Bytes) (prev : Option Result) (rt : RuntimeConf) :
    buildOneConfig name ver p prev rt = buildOneConfig name ver orig prev rt := by
  unfold buildOneConfig
  cases Out.ofOption b!"cannot marshal prevResult" (prevJson prev) with
  | ok j => show (injectConf p _ >>= _) = (injectConf orig _ >>= _); rw [injectConf_same h hp hm hl]
  | err e => rfl
  | panic => rfl

/-- The list has the name and version of the configuration, no flags, and one plugin that is treated the same. -/
theorem madeOf_plugin (hm : MadeOf net L) : L.name = net.network.name ∧ L.cniVersion = net.network.cniVersion ∧
    L.disableCheck = false ∧ ∃ p, L.plugins = [p] ∧ p.network.type = net.network.type ∧
      ∀ name ver prev rt, buildOneConfig name ver p prev rt = buildOneConfig name ver net prev rt := by
  obtain ⟨⟨b, hb⟩, hL, ht⟩ := hm
  obtain ⟨-, -, ms, hp, -⟩ := loaded_obj hb
  obtain ⟨h1, h2, h3, -, p, h4, h5⟩ := c10_upconvert b net ms L hb hp hL
  obtain ⟨hr, -⟩ := (c10_succeeds_iff b net ms hb hp).1 ⟨L, hL⟩
  have hm := (members_inRange (Json.parse_WF hp)).2 hr
  exact ⟨h1, h2, h3, p, h4, ht p (by rw [h4]; simp), fun name ver prev rt => buildOneConfig_same hb hp hm h5 name ver prev rt⟩

theorem addNetwork1_same {p : PluginConfig} (ht : p.network.type = net.network.type)
    (hc : ∀ name ver prev rt, buildOneConfig name ver p prev rt = buildOneConfig name ver net prev rt) (name ver : Bytes)
    (prev : Option Result) (rt : RuntimeConf) : c.addNetwork1 name ver p prev rt = c.addNetwork1 name ver net prev rt := by
  unfold CNIConfig.addNetwork1
  rw [ht, hc]

theorem runNetwork1_same {p : PluginConfig} (ht : p.network.type = net.network.type)
    (hc : ∀ name ver prev rt, buildOneConfig name ver p prev rt = buildOneConfig name ver net prev rt) (verb name ver : Bytes)
    (prev : Option Result) (rt : RuntimeConf) : c.runNetwork1 verb name ver p prev rt = c.runNetwork1 verb name ver net prev rt := by
  unfold CNIConfig.runNetwork1
  rw [ht, hc]

theorem bind_done {α : Type} (p : Prog α) : p.bind (fun a => .done (.ok a)) = p := by
  induction p with
  | done o => cases o <;> rfl
  | op a k ih => simp only [Prog.bind, ih]

/-! ### the theorems -/

/-- C77, CHECK: the same runs, to the letter. -/
theorem c77_check (c : CNIConfig) (net : PluginConfig) (L : NetConfList) (hm : MadeOf net L) (rt : RuntimeConf)
    (fs fs' : FS) (tr : Trace) (o : Out Unit) :
    Runs flt (c.checkNetwork net rt) fs tr fs' o ↔ Runs flt (c.checkNetworkList L rt) fs tr fs' o := by
  obtain ⟨h1, h2, h3, p, h4, h5, h6⟩ := madeOf_plugin hm
  have : c.checkNetworkList L rt = c.checkNetwork net rt := by
    unfold CNIConfig.checkNetworkList CNIConfig.checkNetwork
    rw [h1, h2, h3, h4]
    have hl : ∀ prev, c.checkLoop net.network.name net.network.cniVersion prev rt [p]
        = c.runNetwork1 b!"CHECK" net.network.name net.network.cniVersion net prev rt := by
      intro prev
      simp only [CNIConfig.checkLoop, runNetwork1_same h5 h6]
      exact bind_done _
    simp only [hl]
    rfl
  rw [this]

theorem cachedInfoOf_config (r : Option Result) (cfg cfg' name : Bytes) (rt : RuntimeConf) :
    cachedInfoOf r cfg' name rt = (cachedInfoOf r cfg name rt).map fun i => { i with config := cfg' } := by
  unfold cachedInfoOf
  cases prevJson r with
  | none => rfl
  | some doc =>
    simp only [Option.bind_eq_bind, Option.bind_some]
    cases Json.parse (doc.getD .null).print with
    | none => rfl
    | some j =>
      simp only [Option.bind_some]
      cases decAnyMap none j <;> rfl

theorem cacheAdd_same {r : Option Result} {cfg name : Bytes} (cfg' : Bytes) {fs fs' : FS} {tr : Trace} {o : Out Unit}
    (h : Runs flt (c.cacheAdd r cfg name rt) fs tr fs' o) :
    ∃ tr' fs'', Runs flt (c.cacheAdd r cfg' name rt) fs tr' fs'' o ∧ SamePlugins tr tr' ∧
      ∀ path, c.cachePath name rt ≠ .ok path → fs'' path = fs' path := by
  unfold CNIConfig.cacheAdd at h ⊢
  rw [cachedInfoOf_config r cfg cfg']
  cases hi : cachedInfoOf r cfg name rt with
  | none => rw [hi] at h; exact ⟨tr, fs', h, ⟨rfl, rfl⟩, fun _ _ => rfl⟩
  | some info =>
    rw [hi] at h
    simp only [Option.map_some] at h ⊢
    cases hp : c.cachePath name rt with
    | err e => rw [hp] at h; exact ⟨tr, fs', h, ⟨rfl, rfl⟩, fun _ _ => rfl⟩
    | panic => rw [hp] at h; exact ⟨tr, fs', h, ⟨rfl, rfl⟩, fun _ _ => rfl⟩
    | ok fname =>
      rw [hp] at h
      simp only at h ⊢
      obtain ⟨r1, fs1, tr1, hs1, rfl, h1⟩ := runs_op.1 h
      cases r1 with
      | false => exact ⟨_, fs', runs_op.2 ⟨false, fs1, tr1, hs1, rfl, h1⟩, ⟨rfl, rfl⟩, fun _ _ => rfl⟩
      | true =>
        obtain ⟨r2, fs2, tr2, hs2, rfl, h2⟩ := runs_op.1 h1
        cases hs2 with
        | writeFile =>
          obtain ⟨rfl, rfl, rfl⟩ := runs_done.1 h2
          exact ⟨_, _, runs_op.2 ⟨true, _, _, hs1, rfl, runs_op.2 ⟨true, _, [], .writeFile _ _ _, rfl, .done _ _⟩⟩, ⟨rfl, rfl⟩,
            fun path hne => by
              have : path ≠ fname := fun e => hne (by rw [e])
              rw [FS.set_other _ _ this, FS.set_other _ _ this]⟩
        | writeFileFails _ _ hf =>
          obtain ⟨rfl, rfl, rfl⟩ := runs_done.1 h2
          exact ⟨_, _, runs_op.2 ⟨true, _, _, hs1, rfl, runs_op.2 ⟨false, _, [], .writeFileFails _ _ _ hf, rfl, .done _ _⟩⟩,
            ⟨rfl, rfl⟩, fun path hne => rfl⟩
        | writeFileTorn _ _ n hf =>
          obtain ⟨rfl, rfl, rfl⟩ := runs_done.1 h2
          exact ⟨_, _, runs_op.2 ⟨true, _, _, hs1, rfl, runs_op.2 ⟨false, _, [], .writeFileTorn _ _ _ n hf, rfl, .done _ _⟩⟩,
            ⟨rfl, rfl⟩, fun path hne => by
              have : path ≠ fname := fun e => hne (by rw [e])
              rw [FS.set_other _ _ this, FS.set_other _ _ this]⟩

/-- The two ways of writing an ADD, one after the other: the plugin, then the cache. -/
theorem addNetwork_parts {fs fs' : FS} {tr : Trace} {o : Out Result} : Runs flt (c.addNetwork net rt) fs tr fs' o ↔
    ∃ tr1 tr2 fs1 o1, tr = tr1 ++ tr2 ∧
      Runs flt (c.addNetwork1 net.network.name net.network.cniVersion net none rt) fs tr1 fs1 o1 ∧
      ((∃ r o2, o1 = .ok r ∧ Runs flt (c.cacheAdd (some r) net.bytes net.network.name rt) fs1 tr2 fs' o2 ∧
          SameOutcome (fun _ => r) o2 o ∧ (∀ e, o2 = .err e → o = .err (.wrap (b!"failed to set network cached result: " ++ net.network.name) e))) ∨
        ((∀ r, o1 ≠ .ok r) ∧ tr2 = [] ∧ fs' = fs1 ∧ o = o1)) := by
  unfold CNIConfig.addNetwork
  rw [prog_bind_eq, runs_bind]
  constructor
  · rintro ⟨tr1, tr2, fs1, o1, rfl, h1, h2⟩
    refine ⟨tr1, tr2, fs1, o1, rfl, h1, ?_⟩
    cases o1 with
    | err e => obtain ⟨rfl, rfl, rfl⟩ := h2; exact .inr ⟨by simp, rfl, rfl, rfl⟩
    | panic => obtain ⟨rfl, rfl, rfl⟩ := h2; exact .inr ⟨by simp, rfl, rfl, rfl⟩
    | ok r =>
      left
      simp only [Follows, prog_bind_eq, runs_bind] at h2
      obtain ⟨tr3, tr4, fs3, o3, rfl, h3, h4⟩ := h2
      obtain ⟨o2, h5, rfl⟩ := runs_mapErr.1 h3
      cases o2 with
      | ok u =>
        obtain ⟨rfl, rfl, rfl⟩ := runs_done.1 h4
        exact ⟨r, .ok u, rfl, by simpa using h5, .ok u, by simp⟩
      | err e =>
        obtain ⟨rfl, rfl, rfl⟩ := h4
        exact ⟨r, .err e, rfl, by simpa using h5, .err _ _, by simp⟩
      | panic =>
        obtain ⟨rfl, rfl, rfl⟩ := h4
        exact ⟨r, .panic, rfl, by simpa using h5, .panic, by simp⟩
  · rintro ⟨tr1, tr2, fs1, o1, rfl, h1, ⟨r, o2, rfl, h2, h3, h4⟩ | ⟨hn, rfl, rfl, rfl⟩⟩
    · refine ⟨tr1, tr2, fs1, .ok r, rfl, h1, ?_⟩
      simp only [Follows, prog_bind_eq, runs_bind]
      refine ⟨tr2, [], fs', _, by simp, runs_mapErr.2 ⟨o2, h2, rfl⟩, ?_⟩
      cases h3 with
      | ok u => exact .done _ _
      | err e e' => exact ⟨rfl, rfl, h4 e rfl⟩
      | panic => exact ⟨rfl, rfl, rfl⟩
    · refine ⟨tr1, [], fs', o, by simp, h1, ?_⟩
      cases o with
      | ok r => exact absurd rfl (hn r)
      | err e => exact ⟨rfl, rfl, rfl⟩
      | panic => exact ⟨rfl, rfl, rfl⟩

theorem addList_parts {p : PluginConfig} (hp : L.plugins = [p]) {fs fs' : FS} {tr : Trace} {o : Out (Option Result)} :
    Runs flt (c.addNetworkList L rt) fs tr fs' o ↔
    ∃ tr1 tr2 fs1 o1, tr = tr1 ++ tr2 ∧
      Runs flt (c.addNetwork1 L.name L.cniVersion p none rt) fs tr1 fs1 o1 ∧
      ((∃ r o2, o1 = .ok r ∧ Runs flt (c.cacheAdd (some r) L.bytes L.name rt) fs1 tr2 fs' o2 ∧
          SameOutcome (fun _ => some r) o2 o ∧
          (∀ e, o2 = .err e → o = .err (.wrap (b!"failed to set network cached result: " ++ L.name) e))) ∨
        ((∀ r, o1 ≠ .ok r) ∧ tr2 = [] ∧ fs' = fs1 ∧ SameOutcome some o1 o ∧
          (∀ e, o1 = .err e → o = .err (.wrap (b!"plugin " ++ pluginDescription p.network ++ b!" failed (add)") e)))) := by
  unfold CNIConfig.addNetworkList
  rw [prog_bind_eq, runs_bind, hp]
  simp only [CNIConfig.addLoop, runs_bind, prog_bind_eq]
  constructor
  · rintro ⟨trx, tr2, fsx, ox, rfl, ⟨tr1, tr3, fs1, oy, rfl, h0, h3⟩, h2⟩
    obtain ⟨o1, h1, rfl⟩ := runs_mapErr.1 h0
    cases o1 with
    | err e =>
      obtain ⟨rfl, rfl, rfl⟩ := h3
      obtain ⟨rfl, rfl, rfl⟩ := h2
      exact ⟨tr1, [], _, .err e, by simp, h1, .inr ⟨by simp, rfl, rfl, .err _ _, by simp⟩⟩
    | panic =>
      obtain ⟨rfl, rfl, rfl⟩ := h3
      obtain ⟨rfl, rfl, rfl⟩ := h2
      exact ⟨tr1, [], _, .panic, by simp, h1, .inr ⟨by simp, rfl, rfl, .panic, by simp⟩⟩
    | ok r =>
      obtain ⟨rfl, rfl, rfl⟩ := runs_done.1 h3
      refine ⟨tr1, tr2, _, .ok r, by simp, h1, .inl ?_⟩
      obtain ⟨tr3, tr4, fs3, o3, rfl, h3, h4⟩ := runs_bind.1 h2
      obtain ⟨o2, h5, rfl⟩ := runs_mapErr.1 h3
      cases o2 with
      | ok u =>
        obtain ⟨rfl, rfl, rfl⟩ := runs_done.1 h4
        exact ⟨r, .ok u, rfl, by simpa using h5, .ok u, by simp⟩
      | err e =>
        obtain ⟨rfl, rfl, rfl⟩ := h4
        exact ⟨r, .err e, rfl, by simpa using h5, .err _ _, by simp⟩
      | panic =>
        obtain ⟨rfl, rfl, rfl⟩ := h4
        exact ⟨r, .panic, rfl, by simpa using h5, .panic, by simp⟩
  · rintro ⟨tr1, tr2, fs1, o1, rfl, h1, ⟨r, o2, rfl, h2, h3, h4⟩ | ⟨hn, rfl, rfl, hs, he⟩⟩
    · refine ⟨tr1, tr2, fs1, .ok (some r), rfl, ⟨tr1, [], fs1, .ok r, by simp, runs_mapErr.2 ⟨.ok r, h1, rfl⟩, .done _ _⟩, ?_⟩
      refine runs_bind.2 ⟨tr2, [], fs', _, by simp, runs_mapErr.2 ⟨o2, h2, rfl⟩, ?_⟩
      cases h3 with
      | ok u => exact .done _ _
      | err e e' => exact ⟨rfl, rfl, h4 e rfl⟩
      | panic => exact ⟨rfl, rfl, rfl⟩
    · cases o1 with
      | ok r => exact absurd rfl (hn r)
      | err e =>
        refine ⟨tr1, [], fs', _, rfl, ⟨tr1, [], fs', _, by simp, runs_mapErr.2 ⟨.err e, h1, rfl⟩, rfl, rfl, rfl⟩, rfl, rfl, he e rfl⟩
      | panic =>
        refine ⟨tr1, [], fs', .panic, rfl, ⟨tr1, [], fs', _, by simp, runs_mapErr.2 ⟨.panic, h1, rfl⟩, rfl, rfl, rfl⟩, rfl, rfl, ?_⟩
        cases hs; rfl

theorem samePlugins_append {a b b' : Trace} (h : SamePlugins b b') : SamePlugins (a ++ b) (a ++ b') := by
  obtain ⟨h1, h2⟩ := h
  exact ⟨by rw [finds_append, finds_append, h1], by rw [execs_append, execs_append, h2]⟩

/-- C77, ADD: to every ADD of the single configuration corresponds an ADD of the list that looks for and runs the same plugin with
the same input and environment, gets the same answers, returns the same result or also fails, and leaves the same files
except for the contents of the attachment's cache entry. -/
theorem c77_add (c : CNIConfig) (net : PluginConfig) (L : NetConfList) (hm : MadeOf net L) (rt : RuntimeConf)
    (fs fs' : FS) (tr : Trace) (o : Out Result) (h : Runs flt (c.addNetwork net rt) fs tr fs' o) :
    ∃ tr' fs'' o', Runs flt (c.addNetworkList L rt) fs tr' fs'' o' ∧ SamePlugins tr tr' ∧ SameOutcome some o o' ∧
      ∀ path, c.cachePath net.network.name rt ≠ .ok path → fs'' path = fs' path := by
  obtain ⟨h1, h2, h3, p, h4, h5, h6⟩ := madeOf_plugin hm
  obtain ⟨tr1, tr2, fs1, o1, rfl, hr, ⟨r, o2, rfl, hc, hs, he⟩ | ⟨hn, rfl, rfl, rfl⟩⟩ := addNetwork_parts.1 h
  · obtain ⟨tr3, fs3, hc', hsp, hfr⟩ := cacheAdd_same L.bytes hc
    have hr' : Runs flt (c.addNetwork1 L.name L.cniVersion p none rt) fs tr1 fs1 (.ok r) := by
      rw [h1, h2, addNetwork1_same h5 h6]; exact hr
    have hsim : ∃ o', SameOutcome (fun _ => some r) o2 o' ∧
        (∀ e, o2 = .err e → o' = .err (.wrap (b!"failed to set network cached result: " ++ L.name) e)) ∧ SameOutcome some o o' := by
      cases hs with
      | ok u => exact ⟨.ok (some r), .ok u, by simp, .ok r⟩
      | err e e' => exact ⟨_, .err e _, fun e1 h1 => by cases h1; rfl, .err _ _⟩
      | panic => exact ⟨.panic, .panic, by simp, .panic⟩
    obtain ⟨o', ho1, ho2, ho3⟩ := hsim
    exact ⟨tr1 ++ tr3, fs3, o', (addList_parts h4).2 ⟨tr1, tr3, fs1, .ok r, rfl, hr', .inl ⟨r, o2, rfl, by rw [h1]; exact hc', ho1, ho2⟩⟩,
      samePlugins_append hsp, ho3, hfr⟩
  · have hr' : Runs flt (c.addNetwork1 L.name L.cniVersion p none rt) fs tr1 fs' o := by
      rw [h1, h2, addNetwork1_same h5 h6]; exact hr
    have hsim : ∃ o', SameOutcome some o o' ∧
        (∀ e, o = .err e → o' = .err (.wrap (b!"plugin " ++ pluginDescription p.network ++ b!" failed (add)") e)) := by
      cases o with
      | ok r => exact absurd rfl (hn r)
      | err e => exact ⟨_, .err e _, fun e1 h1 => by cases h1; rfl⟩
      | panic => exact ⟨.panic, .panic, by simp⟩
    obtain ⟨o', ho1, ho2⟩ := hsim
    exact ⟨tr1 ++ [], fs', o', (addList_parts h4).2 ⟨tr1, [], fs', o, rfl, hr', .inr ⟨hn, rfl, rfl, ho1, ho2⟩⟩,
      ⟨rfl, rfl⟩, ho1, fun _ _ => rfl⟩

/-- C77, ADD: and the other way round. -/
theorem c77_add_list (c : CNIConfig) (net : PluginConfig) (L : NetConfList) (hm : MadeOf net L) (rt : RuntimeConf)
    (fs fs' : FS) (tr : Trace) (o : Out (Option Result)) (h : Runs flt (c.addNetworkList L rt) fs tr fs' o) :
    ∃ tr' fs'' o', Runs flt (c.addNetwork net rt) fs tr' fs'' o' ∧ SamePlugins tr tr' ∧ SameOutcome some o' o ∧
      ∀ path, c.cachePath net.network.name rt ≠ .ok path → fs'' path = fs' path := by
  obtain ⟨h1, h2, h3, p, h4, h5, h6⟩ := madeOf_plugin hm
  obtain ⟨tr1, tr2, fs1, o1, rfl, hr, ⟨r, o2, rfl, hc, hs, he⟩ | ⟨hn, rfl, rfl, hs, he⟩⟩ := (addList_parts h4).1 h
  · rw [h1] at hc
    obtain ⟨tr3, fs3, hc', hsp, hfr⟩ := cacheAdd_same net.bytes hc
    rw [h1, h2, addNetwork1_same h5 h6] at hr
    have hsim : ∃ o', SameOutcome (fun _ => r) o2 o' ∧
        (∀ e, o2 = .err e → o' = .err (.wrap (b!"failed to set network cached result: " ++ net.network.name) e)) ∧
        SameOutcome some o' o := by
      cases hs with
      | ok u => exact ⟨.ok r, .ok u, by simp, .ok r⟩
      | err e e' => exact ⟨_, .err e _, fun e1 h1 => by cases h1; rfl, .err _ _⟩
      | panic => exact ⟨.panic, .panic, by simp, .panic⟩
    obtain ⟨o', ho1, ho2, ho3⟩ := hsim
    exact ⟨tr1 ++ tr3, fs3, o', addNetwork_parts.2 ⟨tr1, tr3, fs1, .ok r, rfl, hr, .inl ⟨r, o2, rfl, hc', ho1, ho2⟩⟩,
      samePlugins_append hsp, ho3, hfr⟩
  · rw [h1, h2, addNetwork1_same h5 h6] at hr
    exact ⟨tr1 ++ [], fs', o1, addNetwork_parts.2 ⟨tr1, [], fs', o1, rfl, hr, .inr ⟨hn, rfl, rfl, rfl⟩⟩,
      ⟨rfl, rfl⟩, hs, fun _ _ => rfl⟩

theorem read_entry {name ver b : Bytes} {ci : CachedInfo} {fs : FS} {o : Out (Option Result)} (hpl : PlainNames name rt)
    (hf : fs (entryPath c name rt) = some b) (hc : currentFormat b = some ci) :
    (∃ tr1 fs3, Runs false (c.getCachedResult name ver rt) fs tr1 fs3 o) ↔ o = loadResult (mapJson ci.rawResult).print ver := by
  unfold CNIConfig.getCachedResult
  rw [cachePath_eq hpl]
  simp only
  constructor
  · rintro ⟨tr1, fs3, h⟩
    obtain ⟨r, fs1, tr', hs, rfl, hr⟩ := runs_op.1 h
    cases hs with
    | readFile => rw [hf] at hr; simp only [hc] at hr; exact (runs_done.1 hr).2.2
    | readFileFails _ hn => cases hn
  · rintro rfl
    refine ⟨[⟨.readFile (entryPath c name rt), fs (entryPath c name rt)⟩], fs, .op (.readFile fs _) ?_⟩
    rw [hf]; simp only [hc]; exact .done _ _

/-- C77: after the two ADDs, whichever way the attachment is read back, the same cached result is found. -/
theorem c77_cached (c : CNIConfig) (net : PluginConfig) (L : NetConfList) (hm : MadeOf net L) (rt : RuntimeConf) (hrt : rt.OK)
    (hcap : ∀ kv ∈ rt.capArgs, InRange kv.2) (fs1 fs1' fs2 fs2' : FS) (tr tr' : Trace) (r : Result)
    (h : Runs flt (c.addNetwork net rt) fs1 tr fs1' (.ok r))
    (h' : Runs flt (c.addNetworkList L rt) fs2 tr' fs2' (.ok (some r))) (o : Out (Option Result)) :
    (∃ tr1 fs3, Runs false (c.getNetworkCachedResult net rt) fs1' tr1 fs3 o) ↔
      ∃ tr1 fs3, Runs false (c.getNetworkListCachedResult L rt) fs2' tr1 fs3 o := by
  obtain ⟨h1, h2, -⟩ := madeOf_plugin hm
  obtain ⟨-, hpl, i1, e1, rfl⟩ := addNetwork_stored hrt h
  obtain ⟨-, -, i2, e2, rfl⟩ := addNetworkList_stored hrt h'
  rw [h1] at e2
  have f1 := currentFormat_entry hrt e1 hcap
  have f2 := currentFormat_entry hrt e2 hcap
  obtain ⟨c1, g1, k1⟩ := f1
  obtain ⟨c2, g2, k2⟩ := f2
  have hraw : i2.rawResult = i1.rawResult := by
    rw [cachedInfoOf_config _ net.bytes, e1, Option.map_some, Option.some.injEq] at e2
    rw [← e2]
  unfold CNIConfig.getNetworkCachedResult CNIConfig.getNetworkListCachedResult
  rw [h1, h2, read_entry hpl (FS.set_same _ _ _) g1, read_entry hpl (FS.set_same _ _ _) g2, k1, k2, hraw]

/-- C77, DEL: a DEL of the single configuration is, call by call, one of the list, with the same outcome; unless the cache entry
cannot be used: then the DEL of the single configuration stops there with an error (the list's goes on, `c77_del_list`). -/
theorem c77_del (c : CNIConfig) (net : PluginConfig) (L : NetConfList) (hm : MadeOf net L) (rt : RuntimeConf)
    (fs fs' : FS) (tr : Trace) (o : Out Unit) (h : Runs flt (c.delNetwork net rt) fs tr fs' o) :
    (∃ o', Runs flt (c.delNetworkList L rt) fs tr fs' o' ∧ SameOutcome id o o') ∨
      (tr.execs = [] ∧ fs' = fs ∧ (∃ e, o = .err e) ∧ ∃ e, Runs flt (c.getNetworkCachedResult net rt) fs tr fs' (.err e)) := by
  obtain ⟨h1, h2, h3, p, h4, h5, h6⟩ := madeOf_plugin hm
  have hrest : ∀ prev fs tr fs' o,
      Runs flt ((c.runNetwork1 b!"DEL" net.network.name net.network.cniVersion net prev rt).bind
        fun _ => (c.cacheDel net.network.name rt).attempt.bind fun _ => .done (.ok ())) fs tr fs' o →
      ∃ o', Runs flt ((c.delLoop L.name L.cniVersion prev rt L.plugins.reverse).bind
        fun _ => (c.cacheDel L.name rt).attempt.bind fun _ => .done (.ok ())) fs tr fs' o' ∧ SameOutcome id o o' := by
    intro prev fs tr fs' o h
    obtain ⟨tr1, tr2, fs1, o1, rfl, hr, hf⟩ := runs_bind.1 h
    rw [h1, h2, h4]
    simp only [List.reverse_cons, List.reverse_nil, List.nil_append, CNIConfig.delLoop, runNetwork1_same h5 h6]
    cases o1 with
    | ok u =>
      refine ⟨o, runs_bind.2 ⟨tr1, tr2, fs1, .ok (), rfl, runs_bind.2 ⟨tr1, [], fs1, .ok u, by simp, runs_mapErr.2 ⟨.ok u, hr, rfl⟩, .done _ _⟩, hf⟩, ?_⟩
      cases o with
      | ok u => exact .ok u
      | err e => exact .err _ _
      | panic => exact .panic
    | err e =>
      obtain ⟨rfl, rfl, rfl⟩ := hf
      exact ⟨_, runs_bind.2 ⟨tr1, [], _, .err _, rfl, runs_bind.2 ⟨tr1, [], _, .err _, by simp, runs_mapErr.2 ⟨.err e, hr, rfl⟩,
        rfl, rfl, rfl⟩, rfl, rfl, rfl⟩, .err _ _⟩
    | panic =>
      obtain ⟨rfl, rfl, rfl⟩ := hf
      exact ⟨_, runs_bind.2 ⟨tr1, [], _, .panic, rfl, runs_bind.2 ⟨tr1, [], _, .panic, by simp, runs_mapErr.2 ⟨.panic, hr, rfl⟩,
        rfl, rfl, rfl⟩, rfl, rfl, rfl⟩, .panic⟩
  unfold CNIConfig.delNetwork at h
  unfold CNIConfig.delNetworkList
  rw [h2]
  cases hg : gte net.network.cniVersion b!"0.4.0" with
  | err e => rw [hg] at h; obtain ⟨rfl, rfl, rfl⟩ := runs_done.1 h; exact .inl ⟨_, .done _ _, .err _ _⟩
  | panic => rw [hg] at h; obtain ⟨rfl, rfl, rfl⟩ := runs_done.1 h; exact .inl ⟨_, .done _ _, .panic⟩
  | ok v =>
    rw [hg] at h
    cases v with
    | false => left; rw [h2] at hrest; exact hrest none _ _ _ _ h
    | true =>
      obtain ⟨tr1, tr2, fs1, o1, rfl, hr0, hf⟩ := runs_bind.1 h
      obtain ⟨o2, hr, rfl⟩ := runs_mapErr.1 hr0
      cases o2 with
      | err e => obtain ⟨rfl, rfl, rfl⟩ := hf; obtain ⟨g1, g2, -⟩ := runs_getCachedResult hr; exact .inr ⟨by simpa using g2, g1, ⟨_, rfl⟩, e, by rw [List.append_nil]; exact hr⟩
      | panic =>
        obtain ⟨rfl, rfl, rfl⟩ := hf
        refine .inl ⟨_, runs_bind.2 ⟨tr1, [], _, .panic, rfl, ?_, rfl, rfl, rfl⟩, .panic⟩
        unfold CNIConfig.delPrev
        rw [h1, h2]
        exact runs_bind.2 ⟨tr1, [], _, .panic, by simp, runs_attempt.2 ⟨.panic, hr, rfl⟩, rfl, rfl, rfl⟩
      | ok prev =>
        obtain ⟨o', ho, hs⟩ := hrest prev _ _ _ _ hf
        refine .inl ⟨o', runs_bind.2 ⟨tr1, tr2, fs1, .ok prev, rfl, ?_, by rw [h2] at ho; exact ho⟩, hs⟩
        unfold CNIConfig.delPrev
        rw [h1, h2]
        exact runs_bind.2 ⟨tr1, [], fs1, .ok (.ok prev), by simp, runs_attempt.2 ⟨.ok prev, hr, rfl⟩, .done _ _⟩

/-- C77, DEL: a DEL of the list is, call by call, one of the single configuration, with the same outcome; unless the cache entry
could not be used. -/
theorem c77_del_list (c : CNIConfig) (net : PluginConfig) (L : NetConfList) (hm : MadeOf net L) (rt : RuntimeConf)
    (fs fs' : FS) (tr : Trace) (o : Out Unit) (h : Runs flt (c.delNetworkList L rt) fs tr fs' o) :
    (∃ o', Runs flt (c.delNetwork net rt) fs tr fs' o' ∧ SameOutcome id o' o) ∨
      ∃ tr1 e, tr1 <+: tr ∧ Runs flt (c.getNetworkCachedResult net rt) fs tr1 fs (.err e) := by
  obtain ⟨h1, h2, h3, p, h4, h5, h6⟩ := madeOf_plugin hm
  have hrest : ∀ prev fs tr fs' o,
      Runs flt ((c.delLoop L.name L.cniVersion prev rt L.plugins.reverse).bind
        fun _ => (c.cacheDel L.name rt).attempt.bind fun _ => .done (.ok ())) fs tr fs' o →
      ∃ o', Runs flt ((c.runNetwork1 b!"DEL" net.network.name net.network.cniVersion net prev rt).bind
        fun _ => (c.cacheDel net.network.name rt).attempt.bind fun _ => .done (.ok ())) fs tr fs' o' ∧ SameOutcome id o' o := by
    intro prev fs tr fs' o h
    rw [h1, h2, h4] at h
    simp only [List.reverse_cons, List.reverse_nil, List.nil_append, CNIConfig.delLoop, runNetwork1_same h5 h6] at h
    obtain ⟨trx, tr2, fsx, ox, rfl, hx, hf⟩ := runs_bind.1 h
    obtain ⟨tr1, tr3, fs1, oy, rfl, hr0, hy⟩ := runs_bind.1 hx
    obtain ⟨o1, hr, rfl⟩ := runs_mapErr.1 hr0
    cases o1 with
    | ok u =>
      obtain ⟨rfl, rfl, rfl⟩ := runs_done.1 hy
      refine ⟨o, runs_bind.2 ⟨tr1, tr2, _, .ok u, by simp, hr, hf⟩, ?_⟩
      cases o with
      | ok u => exact .ok u
      | err e => exact .err _ _
      | panic => exact .panic
    | err e =>
      obtain ⟨rfl, rfl, rfl⟩ := hy
      obtain ⟨rfl, rfl, rfl⟩ := hf
      exact ⟨.err e, runs_bind.2 ⟨tr1, [], _, .err e, by simp, hr, rfl, rfl, rfl⟩, .err _ _⟩
    | panic =>
      obtain ⟨rfl, rfl, rfl⟩ := hy
      obtain ⟨rfl, rfl, rfl⟩ := hf
      exact ⟨.panic, runs_bind.2 ⟨tr1, [], _, .panic, by simp, hr, rfl, rfl, rfl⟩, .panic⟩
  unfold CNIConfig.delNetworkList at h
  unfold CNIConfig.delNetwork
  rw [h2] at h
  cases hg : gte net.network.cniVersion b!"0.4.0" with
  | err e => rw [hg] at h; obtain ⟨rfl, rfl, rfl⟩ := runs_done.1 h; exact .inl ⟨_, .done _ _, .err _ _⟩
  | panic => rw [hg] at h; obtain ⟨rfl, rfl, rfl⟩ := runs_done.1 h; exact .inl ⟨_, .done _ _, .panic⟩
  | ok v =>
    rw [hg] at h
    rw [h2] at hrest
    cases v with
    | false => left; exact hrest none _ _ _ _ h
    | true =>
      obtain ⟨tr0, tr2, fs1, o1, rfl, hq, hf⟩ := runs_bind.1 h
      unfold CNIConfig.delPrev at hq
      rw [h1, h2] at hq
      obtain ⟨tr1, tr3, fs2, o2, rfl, hr0, hy⟩ := runs_bind.1 hq
      obtain ⟨o3, hr, rfl⟩ := runs_attempt.1 hr0
      have hro : fs2 = fs := (runs_getCachedResult hr).1
      cases o3 with
      | err e => exact .inr ⟨tr1, e, by simp, by rw [hro] at hr; exact hr⟩
      | panic =>
        obtain ⟨rfl, rfl, rfl⟩ := hy
        obtain ⟨rfl, rfl, rfl⟩ := hf
        exact .inl ⟨.panic, runs_bind.2 ⟨tr1, [], _, .panic, by simp, runs_mapErr.2 ⟨.panic, hr, rfl⟩, rfl, rfl, rfl⟩, .panic⟩
      | ok prev =>
        obtain ⟨rfl, rfl, rfl⟩ := runs_done.1 hy
        obtain ⟨o', ho, hs⟩ := hrest prev _ _ _ _ hf
        exact .inl ⟨o', runs_bind.2 ⟨tr1, tr2, _, .ok prev, by simp, runs_mapErr.2 ⟨.ok prev, hr, rfl⟩, ho⟩, hs⟩

/-- C77: the condition on the type holds whenever the document states `type` once (in any capitalisation). -/
theorem c77_type (b : Bytes) (net : PluginConfig) (ms : List (Bytes × Json)) (L : NetConfList)
    (h : pluginConfFromBytes b = .ok net) (hp : Json.parse b = some (.obj ms)) (hL : confListFromConf net = .ok L)
    (ht : (getField pluginConfFields b!"type" ms).length ≤ 1) : MadeOf net L := by
  refine ⟨⟨b, h⟩, hL, ?_⟩
  obtain ⟨hb, hty, ms', hp', hc⟩ := loaded_obj h
  rw [hp] at hp'; cases hp'
  obtain ⟨-, -, -, -, p, h4, hl⟩ := c10_upconvert b net ms L h hp hL
  obtain ⟨hr, -⟩ := (c10_succeeds_iff b net ms h hp).1 ⟨L, hL⟩
  obtain ⟨m, hm⟩ := (members_inRange (Json.parse_WF hp)).2 hr
  obtain ⟨ms', M, e0, hpM, hinj, hd, hpt⟩ := hl
  cases e0
  have eM : M = GoMap.ofList m := injected_unique hinj (injected_insertAll (kvs := []) hm (by simp))
  rw [h4]
  intro q hq
  simp only [List.mem_cons, List.not_mem_nil, or_false] at hq
  subst hq
  have h1 := decPluginConf_type hc
  have h2 := decPluginConf_type hd
  rw [eM] at h2
  rcases getField_toAny_one (names := pluginConfFields) (f := b!"type") hm with ⟨e1, e2⟩ | ⟨v, w, e1, e2, hvw⟩ | hlt
  · rw [e1] at h1
    simp only [decAll_nil, Option.some.injEq] at h1
    exact absurd h1.symm hty
  · rw [getField_ofList (by rw [e2]; simp), e2] at h2
    rw [e1] at h1
    have : w = v := by
      cases v <;> simp [decAll_cons, decStr] at h1 <;> simp [Json.toAny] at hvw <;> exact hvw.symm
    rw [this, h1] at h2
    exact (Option.some.inj h2).symm
  · omega

/-- C77: and it is needed: with two capitalisations of `type`, the single configuration and the list use different plugins. -/
theorem c77_type_needed : ∃ net L, pluginConfFromBytes b!"{\"name\":\"n\",\"type\":\"a\",\"TYPE\":\"b\"}" = .ok net ∧
    confListFromConf net = .ok L ∧ net.network.type = b!"b" ∧ L.plugins.map (·.network.type) = [b!"a"] := by
  have h1 : ((pluginConfFromBytes b!"{\"name\":\"n\",\"type\":\"a\",\"TYPE\":\"b\"}").toOption.bind fun n =>
      (confListFromConf n).toOption.map fun L => (n.network.type, L.plugins.map (·.network.type))) = some (b!"b", [b!"a"]) := by
    decide +kernel
  cases hn : pluginConfFromBytes b!"{\"name\":\"n\",\"type\":\"a\",\"TYPE\":\"b\"}" with
  | err e => rw [hn] at h1; simp [Out.toOption] at h1
  | panic => rw [hn] at h1; simp [Out.toOption] at h1
  | ok n =>
    rw [hn] at h1
    simp only [Out.toOption, Option.bind_some] at h1
    cases hL : confListFromConf n with
    | err e => rw [hL] at h1; simp at h1
    | panic => rw [hL] at h1; simp at h1
    | ok L =>
      rw [hL] at h1
      simp only [Option.map_some, Option.some.injEq, Prod.mk.injEq] at h1
      exact ⟨n, L, rfl, hL, h1.1, h1.2⟩

/-! ### validation -/

/-- C77, validation: the same plugin is asked for its versions, and the two agree on whether the network is valid. -/
theorem c77_validate (c : CNIConfig) (net : PluginConfig) (L : NetConfList) (hm : MadeOf net L)
    (fs fs' : FS) (tr : Trace) :
    (∃ caps, Runs flt (c.validateNetwork net) fs tr fs' (.ok caps)) ↔
      ∃ caps, Runs flt (c.validateNetworkList L) fs tr fs' (.ok caps) := by
  obtain ⟨h1, h2, h3, p, h4, h5, h6⟩ := madeOf_plugin hm
  unfold CNIConfig.validateNetwork CNIConfig.validateNetworkList
  rw [h2, h4]
  simp only [CNIConfig.validateLoop, h5]
  constructor
  · rintro ⟨caps, h⟩
    obtain ⟨tr1, tr2, fs1, o1, rfl, hr, hf⟩ := runs_bind.1 h
    cases o1 with
    | ok u =>
      obtain ⟨rfl, rfl, -⟩ := runs_done.1 hf
      exact ⟨_, runs_bind.2 ⟨tr1, [], _, _, rfl, runs_bind.2 ⟨tr1, [], _, _, by simp, runs_attempt.2 ⟨_, hr, rfl⟩, .done _ _⟩, .done _ _⟩⟩
    | err e => obtain ⟨-, -, hx⟩ := hf; cases hx
    | panic => obtain ⟨-, -, hx⟩ := hf; cases hx
  · rintro ⟨caps, h⟩
    obtain ⟨trx, tr2, fsx, ox, rfl, hx, hf⟩ := runs_bind.1 h
    obtain ⟨tr1, tr3, fs1, oy, rfl, hr0, hy⟩ := runs_bind.1 hx
    obtain ⟨o1, hr, rfl⟩ := runs_attempt.1 hr0
    cases o1 with
    | ok u =>
      obtain ⟨rfl, rfl, rfl⟩ := runs_done.1 hy
      obtain ⟨rfl, rfl, -⟩ := runs_done.1 hf
      exact ⟨_, runs_bind.2 ⟨tr1, [], _, .ok u, by simp, hr, .done _ _⟩⟩
    | err e =>
      obtain ⟨rfl, rfl, rfl⟩ := runs_done.1 hy
      obtain ⟨-, -, hx⟩ := runs_done.1 hf
      cases hx
    | panic =>
      obtain ⟨rfl, rfl, rfl⟩ := hy
      obtain ⟨-, -, hx⟩ := hf
      cases hx

/-- C77: if the document states `capabilities` once, the list's plugin has the same capabilities. -/
theorem c77_capabilities (b : Bytes) (net : PluginConfig) (L : NetConfList) (h : pluginConfFromBytes b = .ok net)
    (hL : confListFromConf net = .ok L) (honce : CapabilitiesOnce b) : ∀ p ∈ L.plugins, p.network.capabilities = net.network.capabilities := by
  obtain ⟨hb, hty, ms, hp, hc⟩ := loaded_obj h
  obtain ⟨-, -, -, -, p, h4, hl⟩ := c10_upconvert b net ms L h hp hL
  obtain ⟨hr, -⟩ := (c10_succeeds_iff b net ms h hp).1 ⟨L, hL⟩
  obtain ⟨m, hm⟩ := (members_inRange (Json.parse_WF hp)).2 hr
  obtain ⟨ms', M, e0, hpM, hinj, hd, hpt⟩ := hl
  cases e0
  have eM : M = GoMap.ofList m := injected_unique hinj (injected_insertAll (kvs := []) hm (by simp))
  rw [h4]
  intro q hq
  simp only [List.mem_cons, List.not_mem_nil, or_false] at hq
  subst hq
  have e0 := decPluginConf_capabilities hc
  have e1 := decPluginConf_capabilities hd
  have hone : (getField pluginConfFields b!"capabilities" ms).length ≤ 1 := by
    rw [getField_eq_filter, List.length_map]; exact honce ms hp
  rw [eM] at e1
  rcases getField_toAny_one (names := pluginConfFields) (f := b!"capabilities") hm with ⟨x, y⟩ | ⟨v, w, x, y, z⟩ | hgt
  · rw [getField_ofList (by rw [y]; simp), y] at e1
    rw [x, e1] at e0
    exact Option.some.inj e0
  · rw [getField_ofList (by rw [y]; simp), y, decAll_one] at e1
    rw [x, decAll_one] at e0
    rw [decBoolMap_toAny e0 z] at e1
    exact (Option.some.inj e1).symm
  · omega

/-- C77, validation: and then they report the same capabilities. -/
theorem c77_validate_caps (c : CNIConfig) (b : Bytes) (net : PluginConfig) (L : NetConfList) (h : pluginConfFromBytes b = .ok net)
    (hL : confListFromConf net = .ok L) (honce : CapabilitiesOnce b) (fs1 fs1' fs2 fs2' : FS) (tr1 tr2 : Trace) (caps caps' : List Bytes)
    (h1 : Runs flt (c.validateNetwork net) fs1 tr1 fs1' (.ok caps))
    (h2 : Runs flt (c.validateNetworkList L) fs2 tr2 fs2' (.ok caps')) : ∀ k, k ∈ caps ↔ k ∈ caps' := by
  have hcap := c77_capabilities b net L h hL honce
  obtain ⟨-, -, ms, hp, -⟩ := loaded_obj h
  obtain ⟨-, -, -, -, p, h4, -⟩ := c10_upconvert b net ms L h hp hL
  obtain ⟨-, _, -, -, hr, -⟩ := c26_validate c L _ _ _ _ h2
  intro k
  rw [(hr caps' rfl).2 k, h4]
  rw [h4] at hcap
  simp only [List.mem_cons, List.not_mem_nil, or_false, exists_eq_left, hcap p (by simp)]
  unfold CNIConfig.validateNetwork at h1
  obtain ⟨t1, t2, f1, o1, rfl, -, hf⟩ := runs_bind.1 h1
  cases o1 with
  | ok u =>
    obtain ⟨-, -, hx⟩ := runs_done.1 hf
    cases hx
    simp [enabledCaps]
  | err e => obtain ⟨-, -, hx⟩ := hf; cases hx
  | panic => obtain ⟨-, -, hx⟩ := hf; cases hx

namespace Example

/-- A single network's document, members out of order. Test data; models no code. -/
def soleDoc : Bytes := b!"{\"type\":\"a\",\"name\":\"net\",\"mtu\":1500,\"cniVersion\":\"1.0.0\",\"capabilities\":{\"mac\":true}}"

/-- Test data; models no code. -/
def soleNet : PluginConfig :=
  { network := { name := b!"net", cniVersion := b!"1.0.0", type := b!"a", capabilities := [(b!"mac", true)] }, bytes := soleDoc }

theorem soleNet_loads : pluginConfFromBytes soleDoc = .ok soleNet := by
  have h : (pluginConfFromBytes soleDoc).toOption = some soleNet := by decide +kernel
  cases hx : pluginConfFromBytes soleDoc <;> rw [hx] at h <;> simp_all [Out.toOption]

/-- The list made of it. -/
theorem soleList : ∃ L, MadeOf soleNet L := by
  have h : (confListFromConf soleNet).toOption.isSome = true := by decide +kernel
  obtain ⟨L, hL⟩ : ∃ L, confListFromConf soleNet = .ok L := by
    cases hx : confListFromConf soleNet <;> rw [hx] at h <;> simp_all [Out.toOption]
  have hp : Json.parse soleDoc = some (.obj [(b!"type", .str b!"a"), (b!"name", .str b!"net"), (b!"mtu", .num b!"1500"),
      (b!"cniVersion", .str b!"1.0.0"), (b!"capabilities", .obj [(b!"mac", .bool true)])]) := by decide +kernel
  exact ⟨L, c77_type soleDoc soleNet _ L soleNet_loads hp hL (by decide +kernel)⟩

/-- Its capabilities are stated once. -/
example : CapabilitiesOnce soleDoc := by
  intro ms hms
  have hp : Json.parse soleDoc = some (.obj [(b!"type", .str b!"a"), (b!"name", .str b!"net"), (b!"mtu", .num b!"1500"),
      (b!"cniVersion", .str b!"1.0.0"), (b!"capabilities", .obj [(b!"mac", .bool true)])]) := by decide +kernel
  rw [hp] at hms
  cases hms
  decide +kernel

/-- ADD of it succeeds, so ADD of the list made of it can succeed too, running the same plugin with the same input. -/
example : ∃ L tr fs' o, MadeOf soleNet L ∧ Runs false (cfg.addNetworkList L Example.rt) noFiles tr fs' o ∧
    tr.execs.map (fun e => (e.path, e.stdin)) = [(b!"/bin/a",
      b!"{\"capabilities\":{\"mac\":true},\"cniVersion\":\"1.0.0\",\"mtu\":1500,\"name\":\"net\",\"type\":\"a\"}")] ∧
    ∃ r, o = .ok (some r) := by
  obtain ⟨L, hL⟩ := soleList
  obtain ⟨tr, fs', o, h, hx⟩ := Prog.interp_exists (flt := false) (p := cfg.addNetwork soleNet Example.rt) (fs := noFiles) (find := find) (exec := good)
    (b := ([(b!"/bin/a",
      b!"{\"capabilities\":{\"mac\":true},\"cniVersion\":\"1.0.0\",\"mtu\":1500,\"name\":\"net\",\"type\":\"a\"}")], true))
    (fun tr _ o => (tr.execs.map (fun e => (e.path, e.stdin)), o.toOption.isSome)) (by decide +kernel)
  simp only [Prod.mk.injEq] at hx
  obtain ⟨h1, h2⟩ := hx
  obtain ⟨tr', fs'', o', hr, hs, ho, -⟩ := c77_add cfg soleNet L hL Example.rt _ _ _ _ h
  refine ⟨L, tr', fs'', o', hL, hr, by rw [hs.2]; exact h1, ?_⟩
  cases ho with
  | ok r => exact ⟨r, rfl⟩
  | err e e' => simp [Out.toOption] at h2
  | panic => simp [Out.toOption] at h2

/-- The attachment can be added as one and deleted as the other: nothing is left. -/
example : ∃ L tr fs' o, MadeOf soleNet L ∧
    Runs false ((cfg.addNetwork soleNet Example.rt).bind fun _ => cfg.delNetworkList L Example.rt) noFiles tr fs' o ∧
    o = .ok () ∧ fs' key = none := by
  obtain ⟨L, hL⟩ := soleList
  obtain ⟨tr, fs', o, h, hx⟩ := Prog.interp_exists (flt := false) (p := (cfg.addNetwork soleNet Example.rt).bind fun _ => cfg.delNetwork soleNet Example.rt)
    (fs := noFiles) (find := find) (exec := good) (b := (true, none, 2))
    (fun tr fs' o => (o.toOption.isSome, fs' key, tr.execs.length)) (by decide +kernel)
  simp only [Prod.mk.injEq] at hx
  obtain ⟨h1, h2, h3⟩ := hx
  obtain ⟨tr1, tr2, fs1, o1, rfl, ha, hf⟩ := runs_bind.1 h
  cases o1 with
  | err e => obtain ⟨rfl, rfl, rfl⟩ := hf; simp [Out.toOption] at h1
  | panic => obtain ⟨rfl, rfl, rfl⟩ := hf; simp [Out.toOption] at h1
  | ok r =>
    rcases c77_del cfg soleNet L hL Example.rt _ _ _ _ hf with ⟨o', hd, hs⟩ | ⟨-, -, ⟨e, rfl⟩, -⟩
    · refine ⟨L, tr1 ++ tr2, fs', o', hL, runs_bind.2 ⟨tr1, tr2, fs1, .ok r, rfl, ha, hd⟩, ?_, h2⟩
      cases hs with
      | ok u => rfl
      | err e e' => simp [Out.toOption] at h1
      | panic => simp [Out.toOption] at h1
    · simp [Out.toOption] at h1

end Example

end Verif
